import Verif.Clickpad.Model
import Verif.Clickpad.Spec
import Verif.Config.Props
/-!
C74.
-/
namespace Libinput.Clickpad
open Config Config.Spec Spec

theorem guess_iff (b : Bool) (hw : Hw) : (hardware b hw).clickpad = true ↔ PadIsPressed b hw := by
  unfold hardware guess PadIsPressed
  cases b <;> cases hw.key 0x110 <;> cases hw.key 0x111 <;> cases hw.onebutton <;> simp

/-- C74.  A bug of the kernel is logged exactly if the touchpad is taken for something other than what the kernel says it is. -/
theorem bug_logged_iff (b : Bool) (hw : Hw) :
    (guess b (hw.key 0x110) (hw.key 0x111) hw.onebutton).2 = true ↔ ¬ (b = true ↔ PadIsPressed b hw) := by
  unfold guess PadIsPressed
  cases b <;> cases hw.key 0x110 <;> cases hw.key 0x111 <;> cases hw.onebutton <;> simp

/-- C74.  After any history, button areas can be chosen exactly on the touchpads whose whole pad is pressed. -/
theorem areas_iff {b : Bool} {hw : Hw} {ops : List Op} {d : Dev} (h : run b hw ops = some d) {down : Bool} {st : Status} {d' : Dev}
    (hs : set down (.clickMethod 1) d = some (st, d')) : st = .success ↔ hw.kind = .touchpad ∧ PadIsPressed b hw := by
  rw [(call_succeeds_iff h hs).1, ← guess_iff]
  simp [documented, supported, hardware]

/-- C74.  And clickfinger on those of them that tell fingers apart, and on the Apple touchpads with one button. -/
theorem clickfinger_iff {b : Bool} {hw : Hw} {ops : List Op} {d : Dev} (h : run b hw ops = some d) {down : Bool} {st : Status} {d' : Dev}
    (hs : set down (.clickMethod 2) d = some (st, d')) :
    st = .success ↔ hw.kind = .touchpad ∧ ((PadIsPressed b hw ∧ hw.hasMt = true) ∨ hw.onebutton = true) := by
  rw [(call_succeeds_iff h hs).1, ← guess_iff]
  simp [documented, supported, hardware]

/-- C74.  The mask of click methods says the same. -/
theorem methods_told {b : Bool} {hw : Hw} {ops : List Op} {d : Dev} (h : run b hw ops = some d) :
    (getClickMethods d &&& 1 = 1 ↔ hw.kind = .touchpad ∧ PadIsPressed b hw) ∧
    (getClickMethods d &&& 2 = 2 ↔ hw.kind = .touchpad ∧ ((PadIsPressed b hw ∧ hw.hasMt = true) ∨ hw.onebutton = true)) := by
  obtain ⟨_, _, _, _, _, q, _⟩ := queries_agree h
  rw [q 1 (by simp), q 2 (by simp), ← guess_iff]
  simp [supported, hardware]

/-- C74.  What a touchpad does by default. -/
theorem default_method {b : Bool} {hw : Hw} {ops : List Op} {d : Dev} (h : run b hw ops = some d) (hk : hw.kind = .touchpad) :
    (ClickfingerModel hw ∨ (PadIsPressed b hw ∧ hw.apple = true) → getDefault d .clickMethod = some (.num 2)) ∧
    (¬ ClickfingerModel hw → PadIsPressed b hw → hw.apple = false → getDefault d .clickMethod = some (.num 1)) ∧
    (¬ ClickfingerModel hw → ¬ PadIsPressed b hw → getDefault d .clickMethod = some (.num 0)) := by
  rw [default_is_first_value h]
  simp only [← guess_iff, ClickfingerModel, atFirst]
  have e1 : (hardware b hw).kind = .touchpad := hk
  have e2 : (hardware b hw).clickfingerQuirk = hw.clickfingerQuirk := rfl
  have e3 : (hardware b hw).onebutton = hw.onebutton := rfl
  have e4 : (hardware b hw).apple = hw.apple := rfl
  rw [e1, e2, e3, e4]
  cases (hardware b hw).clickpad <;> cases hw.clickfingerQuirk <;> cases hw.onebutton <;> cases hw.apple <;> simp

/-- C74.  A touchpad with a left button and no right one: a right click is possible from the beginning, and at any time there is a click method that brings it back. -/
theorem right_click_possible {b : Bool} {hw : Hw} {ops : List Op} {d : Dev} (h : run b hw ops = some d) (hk : hw.kind = .touchpad)
    (hl : hw.key 0x110 = true) (hr : hw.key 0x111 = false) :
    (getDefault d .clickMethod = some (.num 1) ∨ getDefault d .clickMethod = some (.num 2)) ∧
    ∀ down, ∃ m d', (m = 1 ∨ m = 2) ∧ set down (.clickMethod m) d = some (.success, d') ∧ get d' .clickMethod = some (.num m) := by
  obtain ⟨d1, d2, _⟩ := default_method h hk
  constructor
  · by_cases c : ClickfingerModel hw
    · exact .inr (d1 (.inl c))
    · have p : PadIsPressed b hw := ⟨hr, .inr ⟨hl, by unfold ClickfingerModel at c; simpa using fun e => c (.inr e)⟩⟩
      cases ha : hw.apple
      · exact .inl (d2 c p ha)
      · exact .inr (d1 (.inr ⟨p, ha⟩))
  · intro down
    have key : ∀ m, (m = 1 ∨ m = 2) → (∀ st d', set down (.clickMethod m) d = some (st, d') → st = .success) →
        ∃ m d', (m = 1 ∨ m = 2) ∧ set down (.clickMethod m) d = some (.success, d') ∧ get d' .clickMethod = some (.num m) := by
      intro m hm f
      obtain ⟨st, d', e, hd⟩ := set_does (run_inv h) down (.clickMethod m)
      have := f st d' e
      subst this
      refine ⟨m, d', hm, e, ?_⟩
      have := hd.reads rfl .clickMethod (by simp) (by simp [forgetsSpeed])
      simpa [about, asRead] using this
    by_cases o : hw.onebutton = true
    · exact key 2 (.inr rfl) fun st d' e => (clickfinger_iff h e).2 ⟨hk, .inr o⟩
    · exact key 1 (.inl rfl) fun st d' e => (areas_iff h e).2 ⟨hk, hr, .inr ⟨hl, by simpa using o⟩⟩

theorem never_areas {b : Bool} {hw : Hw} (hr : hw.key 0x111 = true) : ∀ (ops : List Op) (v : Value), v ≠ .num 1 →
    lastSet (hardware b hw) .clickMethod ops v ≠ .num 1
  | [], _, hv => hv
  | .released _ :: ops, v, hv => never_areas hr ops v hv
  | .call _ c :: ops, v, hv => by
    refine never_areas hr ops _ ?_
    split
    · rename_i hc
      cases c <;> simp only [about, reduceCtorEq, false_and] at hc
      rename_i m
      intro e
      simp only [asRead, Value.num.injEq] at e
      subst e
      have := hc.2.2
      simp only [supported] at this
      have n : (hardware b hw).clickpad = true := by
        rcases this with e | ⟨_, _, e⟩ | ⟨e, _⟩
        · simp at e
        · exact e
        · simp at e
      have := (guess_iff b hw).1 n
      rw [this.1] at hr
      cases hr
    · exact hv

/-- C74.  A touchpad with a right button never has button areas, whatever the kernel says and whatever is called: its right button is all there is. -/
theorem right_button_no_areas {b : Bool} {hw : Hw} {ops : List Op} {d : Dev} (h : run b hw ops = some d) (hr : hw.key 0x111 = true) :
    get d .clickMethod ≠ some (.num 1) := by
  rw [getter_follows_history h .clickMethod (by simp) (by simp [forgetsSpeed])]
  intro e
  refine never_areas (b := b) hr ops _ ?_ (Option.some.inj e)
  have n : (hardware b hw).clickpad = false := by
    cases c : (hardware b hw).clickpad
    · rfl
    · have := (guess_iff b hw).1 c
      rw [this.1] at hr
      cases hr
  simp only [atFirst, n]
  split
  · simp
  · split <;> simp

/-- C74.  Middle button emulation is an option of the touchpads whose whole pad is pressed, and of the ALPS ones that claim a middle button. -/
theorem middle_iff {b : Bool} {hw : Hw} {ops : List Op} {d : Dev} (h : run b hw ops = some d) (hk : hw.kind = .touchpad) :
    middleAvailable d = true ↔ PadIsPressed b hw ∨ (hw.alps = true ∧ hw.key 0x112 = true) := by
  obtain ⟨_, _, _, _, _, _, q, _⟩ := queries_agree h
  rw [q, ← guess_iff]
  have e1 : (hardware b hw).kind = .touchpad := hk
  simp only [offers, e1]
  simp [hardware]

/-- C74, the exception: an Apple touchpad whose whole pad is pressed and that does not tell fingers apart begins with clickfinger, which cannot be chosen again. -/
theorem default_refused : ∃ hw d, run true hw [] = some d ∧ hw.kind = .touchpad ∧ getDefault d .clickMethod = some (.num 2) ∧
    ∃ d', set false (.clickMethod 2) d = some (.unsupported, d') := by
  obtain ⟨d, h, _⟩ := run_spec (hardware true { aClickpad with apple := true, hasMt := false }) []
  have h' : run true { aClickpad with apple := true, hasMt := false } [] = some d := h
  refine ⟨_, d, h', rfl, (default_method h' rfl).1 (.inr ⟨⟨rfl, .inl rfl⟩, rfl⟩), ?_⟩
  obtain ⟨st, d', e, hd⟩ := set_does (run_inv h) false (.clickMethod 2)
  refine ⟨d', ?_⟩
  rw [e]
  cases st with
  | unsupported => rfl
  | success => exact absurd ((clickfinger_iff h' e).1 rfl).2 (by simp [aClickpad, aMouse])
  | invalid => exact absurd (.inr (.inr rfl)) (hd.invalid rfl)

/-! Non-vacuity: a pad the kernel forgot to call a clickpad, one it wrongly calls so, and an Apple one with one button. -/
def forgotten : Hw := { aClickpad with clickpad := false }
def wrongly : Hw := { aClickpad with key := fun c => decide (c = 0x110 ∨ c = 0x111) }
def apple1 : Hw := { aClickpad with clickpad := false, onebutton := true }
example : PadIsPressed false forgotten ∧ ¬ PadIsPressed true wrongly ∧ ¬ PadIsPressed false apple1 := by unfold PadIsPressed; decide
example : guess false (forgotten.key 0x110) (forgotten.key 0x111) false = (true, true) ∧
    guess true (wrongly.key 0x110) (wrongly.key 0x111) false = (false, true) ∧ guess false true false true = (false, false) := by decide
example : trace (hardware false forgotten) [] .clickMethod = some (.num 1) ∧
    trace (hardware false forgotten) [.call false (.clickMethod 0), .call true (.clickMethod 2)] .clickMethod = some (.num 2) ∧
    trace (hardware true wrongly) [.call false (.clickMethod 1)] .clickMethod = some (.num 0) ∧
    trace (hardware false apple1) [.call false (.clickMethod 1)] .clickMethod = some (.num 2) := by decide +kernel

end Libinput.Clickpad
