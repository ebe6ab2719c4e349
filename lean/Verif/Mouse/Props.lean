import Verif.Mouse.Wheel
import Verif.Scroll.Props
set_option linter.unusedSimpArgs false
set_option linter.unusedVariables false
namespace Libinput.Mouse
open Libinput.Spec Libinput.Alt Libinput.Mouse.Spec
open Libinput.Buttons (Call Ev Stop Counts)

/-! ## Property theorems: a whole mouse or keyboard (C03, C10, C11, C18, C37, C38) -/

variable {R : Type}

/-- What a history does to a new device: `has` are its key codes, `debounce` whether its buttons are
debounced, `middle` whether middle-button emulation is on by default, `onButton` and `button` the default
scroll method and button. -/
def history (A : Scroll.Arith R) (has : Nat → Bool) (debounce middle onButton : Bool) (button : Nat)
    (ops : List (Op R)) : Res R := run A (init A has debounce middle onButton button) ops

/-- **C03.**  For every device and every history whatever, including one that kills the process, the
button events sent alternate press/release per button code, starting with a press. -/
theorem pointer_buttons_alternate (A : Scroll.Arith R) (has : Nat → Bool) (debounce middle onButton : Bool)
    (button : Nat) (ops : List (Op R)) :
    Alternating (buttons (history A has debounce middle onButton button ops).out) :=
  (run_streams A has debounce middle onButton button ops).1

/-- **C18, alternation.**  The same for keyboard keys. -/
theorem keyboard_keys_alternate (A : Scroll.Arith R) (has : Nat → Bool) (debounce middle onButton : Bool)
    (button : Nat) (ops : List (Op R)) :
    Alternating (keys (history A has debounce middle onButton button ops).out) :=
  (run_streams A has debounce middle onButton button ops).2.1

/-- The invariant after a careful history. -/
theorem history_inv (A : Scroll.Arith R) {has : Nat → Bool} {debounce middle onButton : Bool} {button : Nat}
    {ops : List (Op R)} (hc : Careful has start ops) (hm : NotAllThree middle ops) :
    ∃ m out d L, history A has debounce middle onButton button ops = ⟨out, .ok d⟩ ∧ I m has d (world ops) L := by
  obtain ⟨m, h1, h2⟩ := mode_of hm
  obtain ⟨out, d, L, h3, h4⟩ := run_history A ops (init_history A m has debounce middle onButton button h1) hc h2
  exact ⟨m, out, d, L, h3, h4⟩

theorem history_streams (A : Scroll.Arith R) {has : Nat → Bool} {debounce middle onButton : Bool} {button : Nat}
    {ops : List (Op R)} {out : List (Out R)} {d : Dev R}
    (h : history A has debounce middle onButton button ops = ⟨out, .ok d⟩) (k : Nat) :
    heldAfter (buttons (history A has debounce middle onButton button ops).out) k =
        (decide (getKeyType k = .button) && decide (0 < d.cnt k)) ∧
      heldAfter (keys (history A has debounce middle onButton button ops).out) k =
        (decide (getKeyType k = .key) && decide (0 < d.cnt k)) :=
  (run_streams A has debounce middle onButton button ops).2.2 d (by
    show (history A has debounce middle onButton button ops).next = .ok d
    rw [h]) k

/-- **C37, no abort.**  A careful history, in which the scroll-button lock, middle-button emulation and a
physical middle button are not all used, never makes the process abort. -/
theorem careful_history_survives (A : Scroll.Arith R) (has : Nat → Bool) (debounce middle onButton : Bool)
    (button : Nat) (ops : List (Op R)) (hc : Careful has start ops) (hm : NotAllThree middle ops) :
    ∃ d, (history A has debounce middle onButton button ops).next = .ok d := by
  obtain ⟨m, out, d, L, h, _⟩ := history_inv A (debounce := debounce) (onButton := onButton) (button := button) hc hm
  exact ⟨d, by rw [h]⟩

/-- **C37, nothing stuck.**  After such a history, with no button held and the buttons settled, no button
is reported as held, whatever the settings are now and were before. -/
theorem careful_history_rests (A : Scroll.Arith R) (has : Nat → Bool) (debounce middle onButton : Bool)
    (button : Nat) (ops : List (Op R)) (hc : Careful has start ops) (hm : NotAllThree middle ops)
    (hrest : AtRest (world ops)) (c : Nat) :
    heldAfter (buttons (history A has debounce middle onButton button ops).out) c = false := by
  obtain ⟨m, out, d, L, h, hi⟩ := history_inv A (debounce := debounce) (onButton := onButton) (button := button) hc hm
  have hL : L = fun _ => false := funext fun c => (hi.set hrest.2 c).trans (hrest.1 c)
  subst hL
  rw [(history_streams A h c).1]
  have := core_zero hi.j.held c
  by_cases hk : getKeyType c = .button
  · rw [this]; simp [hk]
  · simp [hk]

/-- **C18, keys are reported as they are.**  On a keyboard, that is as long as the device sends no button
codes, no history (suspends and configuration calls included) aborts, and at any point exactly the keys
that are down are reported down. -/
theorem keyboard_keys_faithful (A : Scroll.Arith R) (has : Nat → Bool) (debounce middle onButton : Bool)
    (button : Nat) (ops : List (Op R))
    (hkb : ∀ t ks wheel rel, .frame t ks wheel rel ∈ ops → ∀ e ∈ ks, getKeyType e.code ≠ .button) :
    (∃ d, (history A has debounce middle onButton button ops).next = .ok d) ∧
    ∀ c, getKeyType c = .key →
      heldAfter (keys (history A has debounce middle onButton button ops).out) c = (world ops).keyboard c := by
  have hbk : ∀ ks : List KeyEv, (∀ e ∈ ks, getKeyType e.code ≠ .button) → buttonKeys ks = [] := by
    intro ks h
    unfold buttonKeys
    rw [List.filter_eq_nil_iff.mpr]
    · rfl
    · intro e he
      have := h e he
      simp only [isButton, Bool.and_eq_true, not_and]
      intro _
      simpa using this
  have hcare : ∀ (ops : List (Op R)) (w : World), AtRest w →
      (∀ t ks wheel rel, .frame t ks wheel rel ∈ ops → ∀ e ∈ ks, getKeyType e.code ≠ .button) → Careful has w ops := by
    intro ops
    induction ops with
    | nil => intro _ _ _; trivial
    | cons op ops ih =>
      intro w hw h
      have hrest : AtRest (stepWorld w op) := by
        cases op with
        | frame t ks wheel rel =>
          have hb := hbk ks (h t ks wheel rel (by simp))
          refine ⟨fun c => ?_, ?_⟩
          · simp only [stepWorld, hb, Debounce.Spec.stepWorld, Debounce.Spec.applyKeys, List.foldl]; exact hw.1 c
          · simp [stepWorld, hb, hw.2]
        | debounceTimers now => exact ⟨hw.1, by simp [stepWorld, hw.2]⟩
        | suspend t => exact ⟨fun c => rfl, hw.2⟩
        | middleTimer now => exact hw
        | scrollTimer now => exact hw
        | setLeftHanded on => exact hw
        | setMiddle on => exact hw
        | setScrollMethod on => exact hw
        | setScrollButton on => exact hw
        | setScrollLock on => exact hw
      refine ⟨?_, ih _ hrest (fun t ks wheel rel hm => h t ks wheel rel (by simp [hm]))⟩
      cases op with
      | frame t ks wheel rel =>
        have hb := hbk ks (h t ks wheel rel (by simp))
        refine ⟨by rw [hb]; simp, by rw [hb]; simp, fun _ _ => Or.inl hw.1⟩
      | debounceTimers now => trivial
      | suspend t => exact hw
      | middleTimer now => trivial
      | scrollTimer now => trivial
      | setLeftHanded on => exact fun _ => hw.2
      | setMiddle on => exact fun _ => hw
      | setScrollMethod on => exact fun _ => hw.2
      | setScrollButton on => exact fun _ => hw.2
      | setScrollLock on => exact fun _ => hw.2
  have hn3 : NotAllThree middle ops := by
    refine Or.inr (Or.inr fun t ks wheel rel hm e he hx => ?_)
    have := hkb t ks wheel rel hm e he
    rw [hx] at this
    exact this rfl
  obtain ⟨m, out, d, L, h, hi⟩ := history_inv A (debounce := debounce) (onButton := onButton) (button := button)
    (hcare ops start ⟨fun _ => rfl, rfl⟩ hkb) hn3
  refine ⟨⟨d, by rw [h]⟩, fun c hc => ?_⟩
  rw [(history_streams A h c).2]
  obtain ⟨mw, me, vc, hk⟩ := hi.j.held
  rw [hk.core.cnt c, if_pos hc, hi.j.key]
  cases (world ops).keyboard c <;> simp [hc]

/-- The same on any device, after any careful history. -/
theorem careful_keys_faithful (A : Scroll.Arith R) (has : Nat → Bool) (debounce middle onButton : Bool)
    (button : Nat) (ops : List (Op R)) (hc : Careful has start ops) (hm : NotAllThree middle ops) (c : Nat)
    (hk : getKeyType c = .key) :
    heldAfter (keys (history A has debounce middle onButton button ops).out) c = (world ops).keyboard c := by
  obtain ⟨m, out, d, L, h, hi⟩ := history_inv A (debounce := debounce) (onButton := onButton) (button := button) hc hm
  rw [(history_streams A h c).2]
  obtain ⟨mw, me, vc, hkk⟩ := hi.j.held
  rw [hkk.core.cnt c, if_pos hk, hi.j.key]
  cases (world ops).keyboard c <;> simp [hk]

theorem leftWanted_eq (ops : List (Op R)) : leftWanted ops = ops.foldl wantLeft false := by
  unfold leftWanted
  congr 1

theorem swap_eq (lh : Bool) (c : Nat) : toLeftHanded lh c = swap lh c := by
  unfold toLeftHanded swap
  cases lh with
  | false => simp
  | true =>
    by_cases h1 : c = 0x110
    · subst h1; rfl
    · by_cases h2 : c = 0x111
      · subst h2; rfl
      · simp [h1, h2, BTN_LEFT, BTN_RIGHT]

/-- No middle-button emulation and no on-button scrolling. -/
def PlainHistory (ops : List (Op R)) : Prop := .setMiddle true ∉ ops ∧ .setScrollMethod true ∉ ops

/-- The left-handed setting in force. -/
def lhOf (r : Res R) : Bool :=
  match r.next with
  | .ok d => d.lh
  | .error _ => false

/-- **C11.**  On a mouse without emulation and on-button scrolling, for careful histories: there is a side
(left- or right-handed) in force at each moment such that
- whenever the buttons are settled, exactly the buttons held are reported as held, under the codes of that side;
- the side is the one the caller asked for last, whenever no button is held and the buttons are settled;
- an operation with a button held before and a button held after it does not change the side.
So the press and the release of a button are reported under the same code. -/
theorem left_handed_never_splits_click (A : Scroll.Arith R) (has : Nat → Bool) (debounce : Bool) (button : Nat) :
    ∃ side : List (Op R) → Bool, ∀ ops, Careful has start ops → PlainHistory ops →
      ((world ops).settled = true → ∀ c, heldAfter (buttons (history A has debounce false false button ops).out) c =
        (world ops).hand.phys (swap (side ops) c)) ∧
      (AtRest (world ops) → side ops = leftWanted ops) ∧
      (∀ op, Careful has start (ops ++ [op]) → PlainHistory (ops ++ [op]) → side (ops ++ [op]) ≠ side ops →
        NoneHeld (world ops) ∨ NoneHeld (world (ops ++ [op]))) := by
  have hmode : ∀ ops : List (Op R), PlainHistory ops → ∀ op ∈ ops, ModeOp .noEmulation op := by
    intro ops h op hop
    cases op <;> simp only [ModeOp, forall_const] <;> try (intro hx; cases hx)
    rename_i on
    cases on with
    | false => rfl
    | true => exact absurd hop h.1
  have key : ∀ ops, Careful has start ops → PlainHistory ops → ∃ out d L,
      history A has debounce false false button ops = ⟨out, .ok d⟩ ∧ I .noEmulation has d (world ops) L ∧
      Plain (leftWanted ops) d ∧ Quiet d (world ops) L := by
    intro ops hc hp
    rw [leftWanted_eq]
    exact run_plain A ops (init_history A .noEmulation has debounce false false button (fun _ => rfl))
      (lw := false) ⟨rfl, rfl, rfl, rfl, rfl⟩ (fun _ _ => rfl) hc (hmode ops hp) hp.1 hp.2
  refine ⟨fun ops => lhOf (history A has debounce false false button ops), fun ops hc hp => ?_⟩
  obtain ⟨out, d, L, h, hi, hpl, hq⟩ := key ops hc hp
  have hside : lhOf (history A has debounce false false button ops) = d.lh := by rw [h]; rfl
  simp only
  refine ⟨?_, ?_, ?_⟩
  · intro hs c
    rw [hside, (history_streams A h c).1]
    by_cases hk : getKeyType c = .button
    · rw [plain_count hpl hi.j.held c hk, ← hi.set hs, swap_eq]
      cases L (swap d.lh c) <;> simp [hk]
    · have : (world ops).hand.phys (swap d.lh c) = false := by
        cases hpp : (world ops).hand.phys (swap d.lh c) with
        | false => rfl
        | true =>
          have := toLeftHanded_range d.lh (hi.j.phys _ hpp).1
          rw [← swap_eq, toLeftHanded_invol] at this
          exact absurd (mouse_button this) hk
      rw [this]; simp [hk]
  · intro hr
    rw [hside, ← hpl.lw]
    exact (hq (fun c => (hi.set hr.2 c).trans (hr.1 c)) hr.1).symm
  · intro op hc2 hp2 hne
    have hc3 := ((careful_append ops [op] start).mp hc2).2.1
    obtain ⟨out2, d2, L2, he, _, hl, _⟩ := step_history A op hi hc3 (hmode _ hp2 op (by simp))
    have hrun := run_snoc A op h
    have hside2 : lhOf (history A has debounce false false button (ops ++ [op])) = d2.lh := by
      show lhOf (run A (init A has debounce false false button) (ops ++ [op])) = _
      rw [hrun, he]; rfl
    rw [hside, hside2] at hne
    have hw : world (ops ++ [op]) = stepWorld (world ops) op := by simp [world]
    rw [hw]
    rcases hl with hl | hl
    · exact absurd hl hne
    · exact hl

/-- **C10.**  After a careful history on a device that was never set left-handed, and on which
middle-button emulation and a physical middle button are not both used, suspending (or removing) the device
at any moment does not abort and leaves no key and no button reported as held. -/
theorem suspend_releases_everything (A : Scroll.Arith R) (has : Nat → Bool) (debounce middle onButton : Bool)
    (button : Nat) (ops : List (Op R)) (hc : Careful has start ops) (hright : .setLeftHanded true ∉ ops)
    (hmid : (middle = false ∧ .setMiddle true ∉ ops) ∨
      (∀ t ks wheel rel, .frame t ks wheel rel ∈ ops → ∀ e ∈ ks, e.code ≠ 0x112)) (t : Nat) :
    (∃ d, (history A has debounce middle onButton button (ops ++ [.suspend t])).next = .ok d) ∧
    ∀ c, heldAfter (buttons (history A has debounce middle onButton button (ops ++ [.suspend t])).out) c = false ∧
      heldAfter (keys (history A has debounce middle onButton button (ops ++ [.suspend t])).out) c = false := by
  have hmode : ∃ m : Mode, (m = .noEmulation ∨ m = .noMiddle) ∧ (m = .noEmulation → middle = false) ∧ ∀ op ∈ ops, ModeOp m op := by
    rcases hmid with ⟨h1, h2⟩ | h
    · refine ⟨.noEmulation, Or.inl rfl, fun _ => h1, ?_⟩
      intro op hop
      cases op <;> simp only [ModeOp, forall_const] <;> try (intro hx; cases hx)
      rename_i on
      cases on with
      | false => rfl
      | true => exact absurd hop h2
    · refine ⟨.noMiddle, Or.inr rfl, by simp, ?_⟩
      intro op hop
      cases op <;> simp only [ModeOp, forall_const] <;> try (intro hx; cases hx)
      exact h _ _ _ _ hop _
  obtain ⟨m, hm, h1, h2⟩ := hmode
  obtain ⟨out, d, L, h, hi⟩ := run_history A ops (init_history A m has debounce middle onButton button h1) hc h2
  have hr : Right d := right_run A ops hright (init A has debounce middle onButton button) ⟨rfl, rfl⟩ d (by rw [h])
  have hready : Ready d := ready_of hi.j hr (by
    obtain ⟨mw, me, vc, hk⟩ := hi.j.held
    rcases hm with hm | hm
    · subst hm; exact Or.inl hk.mode.1
    · subst hm; exact Or.inr hk.mode)
  obtain ⟨o2, d2, he, hz⟩ := suspend_any A t hready
  have hrun := run_snoc A (.suspend t) h
  have hst : step A d (.suspend t) = ⟨o2, .ok d2⟩ := he
  rw [hst] at hrun
  refine ⟨⟨d2, by show (run A _ _).next = _; rw [hrun]⟩, fun c => ?_⟩
  obtain ⟨a, b⟩ := history_streams A (debounce := debounce) (onButton := onButton) (button := button) hrun c
  rw [a, b, hz c]
  simp

/-- **C38.**  After a careful history, with the buttons settled, a frame of the mouse sends one wheel event
for each wheel that moved, with the distance (the vertical one negated), unless the middle button is
physically held: then none. -/
theorem wheel_reported_unless_middle_held (A : Scroll.Arith R) (has : Nat → Bool) (debounce middle onButton : Bool)
    (button : Nat) (ops : List (Op R)) (hc : Careful has start ops) (hm : NotAllThree middle ops)
    (hs : (world ops).settled = true) (t : Nat) (ks : List KeyEv) (wx wy : Int) (rel : Option (R × R)) :
    wheels (history A has debounce middle onButton button (ops ++ [.frame t ks (wx, wy) rel])).out =
      wheels (history A has debounce middle onButton button ops).out ++
        (if (world ops).hand.phys 0x112 = true then []
         else (if wy ≠ 0 then [(t, true, -wy)] else []) ++ (if wx ≠ 0 then [(t, false, wx)] else [])) := by
  obtain ⟨m, out, d, L, h, hi⟩ := history_inv A (debounce := debounce) (onButton := onButton) (button := button) hc hm
  have hrun := run_snoc A (.frame t ks (wx, wy) rel) h
  unfold history at h ⊢
  rw [hrun, h]
  simp only [wheels_append]
  rw [frame_wheels A t ks (wx, wy) rel hi hs]

/-! ### The hypotheses are met, and needed -/

section Examples

/-- A mouse with left, right, middle and two side buttons. -/
def mouse : Nat → Bool := fun c => 0x110 ≤ c && c ≤ 0x114

/-- A frame with key events only. -/
def keyFrame (t : Nat) (ks : List KeyEv) : Op Int := .frame t ks (0, 0) none

def aborts (r : Res R) : Bool :=
  match r.next with
  | .ok _ => false
  | .error _ => true

/-- The left button is pressed and held while left-handed is set; then right clicks in the new mapping. -/
def sample : List (Op Int) :=
  [keyFrame 0 [⟨0x110, 1⟩], .debounceTimers 100000, .setLeftHanded true,
   keyFrame 200000 [⟨0x110, 0⟩], .debounceTimers 300000, keyFrame 400000 [⟨0x110, 1⟩]]

theorem sample_careful : Careful mouse start sample := by
  refine ⟨⟨by decide, by decide, ?_⟩, trivial, ?_, ⟨by decide, by decide, ?_⟩, trivial, ⟨by decide, by decide, ?_⟩, trivial⟩
  · intro h; rcases h with h | h <;> cases h
  · intro h; have := h 0x110; revert this; decide
  · intro _ _
    refine Or.inr ⟨by decide, ?_⟩
    have : ∀ a, (world (sample.take 3)).hand.phys a = true → a = 0x110 := by
      intro a h
      simp [world, sample, stepWorld, keyFrame, buttonKeys, Debounce.Spec.stepWorld, Debounce.Spec.applyKeys,
        isButton, getKeyType, start, Debounce.Spec.start] at h
      exact h
    intro a b ha hb
    rw [this a ha, this b hb]
  · intro _ h; have := h 0x110; simp [keyFrame, stepWorld, buttonKeys, Debounce.Spec.stepWorld, Debounce.Spec.applyKeys,
        isButton, getKeyType] at this

example : PlainHistory sample ∧ NotAllThree false sample ∧ (world sample).lateLeft = true ∧
    buttons (history Scroll.intArith mouse true false false 0 sample).out =
      [⟨0x110, true⟩, ⟨0x110, false⟩, ⟨0x111, true⟩] := by
  refine ⟨⟨?_, ?_⟩, Or.inl ?_, by decide +kernel, by decide +kernel⟩ <;> simp [sample, keyFrame]

example : AtRest (world (sample.take 5)) ∧ leftWanted (sample.take 5) = true := by
  refine ⟨⟨fun c => ?_, by decide +kernel⟩, rfl⟩
  simp [world, sample, stepWorld, keyFrame, buttonKeys, Debounce.Spec.stepWorld, Debounce.Spec.applyKeys,
        isButton, getKeyType, start, Debounce.Spec.start]

/-- Suspended with the left button and a key held: both are released. -/
example :
    let r := history Scroll.intArith mouse true true false 0
      [keyFrame 0 [⟨0x110, 1⟩, ⟨30, 1⟩], .middleTimer 60000, .suspend 100000]
    aborts r = false ∧ buttons r.out = [⟨0x110, true⟩, ⟨0x110, false⟩] ∧ keys r.out = [⟨30, true⟩, ⟨30, false⟩] := by
  decide +kernel

/-- Wheel events, with and without the middle button held. -/
example : wheels (history Scroll.intArith mouse true false false 0
      [.frame 0 [⟨0x112, 1⟩] (1, 2) none, .debounceTimers 100000, .frame 200000 [] (3, 4) none]).out =
    [(0, true, -2), (0, false, 1)] := by decide +kernel

/-- A careful history has to be careful.  Left and right are released in one frame while a left-handed
change is outstanding: the first release puts it into force, the second is mapped to the wrong button, and
the process aborts. -/
theorem late_left_handed_aborts :
    aborts (history Scroll.intArith mouse true false false 0
      [keyFrame 0 [⟨0x110, 1⟩], keyFrame 100000 [⟨0x111, 1⟩], .debounceTimers 200000, .setLeftHanded true,
       keyFrame 300000 [⟨0x110, 0⟩, ⟨0x111, 0⟩]]) = true := by decide +kernel

/-- Left-handed is set while the release of a button is held back by debouncing: the release is mapped to
the other button, and the process aborts.  Without the setting the same history is fine. -/
theorem hasty_left_handed_aborts :
    ∃ ops : List (Op Int), aborts (history Scroll.intArith mouse true false false 0
      (ops ++ [.setLeftHanded true, .debounceTimers 1000000])) = true ∧
      aborts (history Scroll.intArith mouse true false false 0 (ops ++ [.debounceTimers 1000000])) = false := by
  refine ⟨[keyFrame 0 [⟨0x110, 1⟩], .debounceTimers 30000, keyFrame 100000 [⟨0x110, 0⟩], keyFrame 105000 [⟨0x110, 1⟩],
    .debounceTimers 118000, .debounceTimers 130000, keyFrame 200000 [⟨0x110, 0⟩]], ?_⟩
  decide +kernel

/-- Suspending a left-handed device with its left button held aborts. -/
theorem suspend_left_handed_aborts :
    aborts (history Scroll.intArith mouse true false false 0
      [.setLeftHanded true, keyFrame 0 [⟨0x110, 1⟩], .debounceTimers 100000, .suspend 200000]) = true := by
  decide +kernel

/-- Suspending while the middle button is both held and emulated leaves it, and every button and key
with a higher code, reported as held. -/
theorem suspend_double_middle_leaves_pressed :
    let r := history Scroll.intArith mouse true true false 0
      [keyFrame 0 [⟨0x112, 1⟩], keyFrame 50000 [⟨0x113, 1⟩], keyFrame 100000 [⟨0x110, 1⟩],
       keyFrame 130000 [⟨0x111, 1⟩], .suspend 300000]
    aborts r = false ∧ heldAfter (buttons r.out) 0x112 = true ∧ heldAfter (buttons r.out) 0x113 = true := by
  decide +kernel

/-- Suspending with a button held loses the next press of that button after resuming, and its release
aborts: not at rest. -/
theorem suspend_held_then_press_aborts :
    let ops := [keyFrame 0 [⟨0x110, 1⟩], .debounceTimers 100000, .suspend 200000, keyFrame 300000 [⟨0x110, 1⟩]]
    buttons (history Scroll.intArith mouse true false false 0 ops).out = [⟨0x110, true⟩, ⟨0x110, false⟩] ∧
    aborts (history Scroll.intArith mouse true false false 0
      (ops ++ [.debounceTimers 350000, keyFrame 400000 [⟨0x110, 0⟩]])) = true := by
  decide +kernel

/-- The scroll-button lock, middle-button emulation and a physical middle button together abort. -/
theorem all_three_abort :
    aborts (history Scroll.intArith mouse true true true 0x112
      [.setScrollLock true, keyFrame 0 [⟨0x112, 1⟩], keyFrame 100000 [⟨0x110, 1⟩], keyFrame 130000 [⟨0x111, 1⟩]]) = true := by
  decide +kernel

/-- A device with a button outside of the mouse range: pressed with emulation on, released with it off. -/
theorem odd_button_aborts :
    aborts (history Scroll.intArith (fun _ => true) true true false 0
      [keyFrame 0 [⟨0x130, 1⟩], .setMiddle false, keyFrame 100000 [⟨0x130, 0⟩]]) = true := by
  decide +kernel

end Examples

end Libinput.Mouse
