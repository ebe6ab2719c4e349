import Verif.Mouse.Quiet
set_option linter.unusedSimpArgs false
set_option linter.unusedVariables false
/-
Right-handed devices stay right-handed; wheel events come from the wheel only.
-/
namespace Libinput.Mouse
open Libinput.Spec Libinput.Alt Libinput.Mouse.Spec
open Libinput.Buttons (Call Ev Stop Counts)
open Libinput.Debounce (DInv Fired)

variable {R : Type}

/-- No wheel event was sent. -/
def Clean (r : Res R) : Prop := wheels r.out = []

theorem wheels_append (a b : List (Out R)) : wheels (a ++ b) = wheels a ++ wheels b := by
  simp [wheels]

theorem clean_bind {r : Res R} {f : Dev R → Res R} (h : Clean r) (hf : ∀ d, r.next = .ok d → Clean (f d)) :
    Clean (r.bind f) := by
  unfold Res.bind Clean
  cases hr : r.next with
  | error e => exact h
  | ok d =>
    simp only [wheels_append]
    rw [show wheels r.out = [] from h, show wheels (f d).out = [] from hf d hr]
    rfl

theorem clean_each {α : Type} {f : Dev R → α → Res R} (l : List α) (hf : ∀ d a, Clean (f d a)) : ∀ d, Clean (each f l d) := by
  induction l with
  | nil => intro d; rfl
  | cons a l ih => intro d; exact clean_bind (hf d a) (fun d1 _ => ih d1)

theorem clean_button (evs : List Ev) : wheels (evs.map (Out.button (R := R))) = [] := by
  induction evs with
  | nil => rfl
  | cons e es ih => simpa [wheels] using ih

theorem clean_key (evs : List Ev) : wheels (evs.map (Out.key (R := R))) = [] := by
  induction evs with
  | nil => rfl
  | cons e es ih => simpa [wheels] using ih

theorem clean_post (d : Dev R) (t c : Nat) (p : Bool) : Clean (postButton d t c p) := by
  unfold postButton
  cases Buttons.post d.cnt t c p with
  | error e => rfl
  | ok r => exact clean_button _

theorem clean_deliver (d : Dev R) (o : ButtonScroll.Out R) : Clean (deliver d o) := by
  cases o with
  | button c => exact clean_post _ _ _ _
  | axis o => rfl
  | motion t dx dy => rfl

theorem clean_notify (A : Scroll.Arith R) (d : Dev R) (c : Call) : Clean (notifyButton A d c) := by
  unfold notifyButton
  split
  · rfl
  · exact clean_each _ clean_deliver _

theorem clean_debounced (A : Scroll.Arith R) (d : Dev R) (n : Debounce.Notify) : Clean (debounced A d n) := by
  unfold debounced physicalButton
  exact clean_each _ (clean_notify A) _

theorem clean_notifyKey (d : Dev R) (t c : Nat) (p : Bool) : Clean (notifyKey d t c p) := by
  unfold notifyKey
  cases Buttons.post d.cnt t c p with
  | error e => rfl
  | ok r => exact clean_key _

theorem clean_processKey (t : Nat) (d : Dev R) (e : KeyEv) : Clean (processKey t d e) := by
  unfold processKey
  split
  · rfl
  · split
    · rfl
    · rfl
    · simp only
      split
      · rfl
      · exact clean_notifyKey _ _ _ _

theorem clean_motion (A : Scroll.Arith R) (d : Dev R) (t : Nat) (rel : Option (R × R)) : Clean (flushMotion A d t rel) := by
  unfold flushMotion
  split
  · rfl
  · exact clean_each _ clean_deliver _

/-- The wheel events of a frame, for a device in a known state. -/
theorem frame_wheels (A : Scroll.Arith R) {m : Mode} {has : Nat → Bool} {d : Dev R} {w : World} {L : Nat → Bool}
    (t : Nat) (keys : List KeyEv) (wheel : Int × Int) (rel : Option (R × R)) (h : I m has d w L)
    (hs : w.settled = true) :
    wheels (step A d (.frame t keys wheel rel)).out =
      if w.hand.phys 0x112 = true then []
      else (if wheel.2 ≠ 0 then [(t, true, - wheel.2)] else []) ++ (if wheel.1 ≠ 0 then [(t, false, wheel.1)] else []) := by
  obtain ⟨o1, d1, L1, e1, j1, f1, s1, l1, a1⟩ := fire_stage A t h.j h.mid
  obtain ⟨o2, cnt', e2, h2⟩ := held_keys t keys j1.held
  generalize hd2 : ({ d1 with
        deb := (buttonKeys keys).foldl (fun d k => Debounce.processKey d k.1 k.2) d1.deb,
        keyHw := applyKeyboard d1.keyHw keys, cnt := cnt' } : Dev R) = d2 at e2 h2
  obtain ⟨o3, sc, e3, c1, c2, c3⟩ := motion_stage A d2 t rel
  have w1 : wheels o1 = [] := by
    have : Clean (debounceTimers A d t) := by unfold debounceTimers; exact clean_each _ (clean_debounced A) _
    rw [e1] at this; exact this
  have w2 : wheels o2 = [] := by
    have := clean_each keys (clean_processKey t) d1
    rw [e2] at this; exact this
  have w3 : wheels o3 = [] := by
    have := clean_motion A d2 t rel
    rw [e3] at this; exact this
  have hinh : d2.inhibited = w.hand.phys 0x112 := by
    obtain ⟨mw, me, vc, hk⟩ := h2
    rw [hk.inh]; exact s1 (Or.inl (h.set hs)) _
  simp only [step, e1, Res.bind, e2, e3]
  have w5 : ∀ d, wheels (syncButtons A d t).out = [] := by
    intro d; unfold syncButtons; exact clean_each _ (clean_debounced A) _
  have hw : wheels (Res.bind (flushWheels { d2 with sc := sc } t wheel.1 wheel.2) (fun d => syncButtons A d t)).out =
      if w.hand.phys 0x112 = true then []
      else (if wheel.2 ≠ 0 then [(t, true, - wheel.2)] else []) ++ (if wheel.1 ≠ 0 then [(t, false, wheel.1)] else []) := by
    unfold flushWheels
    simp only [hinh]
    by_cases hp : w.hand.phys 0x112 = true
    · rw [if_pos hp, if_pos hp]
      simp only [Res.bind, ret, List.nil_append, w5]
    · rw [if_neg hp, if_neg hp]
      simp only [Res.bind, wheels_append, w5, List.append_nil]
      have e0 : (-1 : Int) * wheel.2 = - wheel.2 := by omega
      rw [e0]
      by_cases ha : wheel.2 ≠ 0 <;> by_cases hb : wheel.1 ≠ 0 <;> simp [ha, hb, wheels]
  simp only [Res.bind] at hw
  simp only [wheels_append, w1, w2, w3, List.nil_append]
  exact hw

/-! ### Right-handed -/

/-- Right-handed, and nothing else was asked for. -/
def Right (d : Dev R) : Prop := d.lh = false ∧ d.lhWant = false

theorem right_post {d : Dev R} (h : Right d) (t c : Nat) (p : Bool) : Keeps Right (postButton d t c p) := by
  unfold postButton
  cases Buttons.post d.cnt t c p with
  | error e => exact keeps_error
  | ok r =>
    simp only
    apply keeps_ok
    split
    · exact callbacks_right (d := { d with cnt := r.1 }) h
    · exact h

theorem right_deliver (d : Dev R) (h : Right d) (o : ButtonScroll.Out R) : Keeps Right (deliver d o) := by
  cases o with
  | button c => exact right_post h _ _ _
  | axis o => exact keeps_ok h
  | motion t dx dy => exact keeps_ok h

theorem right_notify (A : Scroll.Arith R) (d : Dev R) (h : Right d) (c : Call) : Keeps Right (notifyButton A d c) := by
  unfold notifyButton
  split
  · exact keeps_error
  · exact keeps_each _ (fun d h o _ => right_deliver d h o) _ h

theorem right_notes (A : Scroll.Arith R) (ns : List Debounce.Notify) (d : Dev R) (h : Right d) :
    Keeps Right (each (debounced A) ns d) := by
  refine keeps_each ns (fun d h n _ => ?_) d h
  unfold debounced physicalButton
  refine keeps_each _ (fun d h c _ => right_notify A d h c) _ ?_
  show Right _
  unfold Right
  simp only
  split <;> exact h

theorem right_key {d : Dev R} (h : Right d) (t c : Nat) (p : Bool) : Keeps Right (notifyKey d t c p) := by
  unfold notifyKey
  cases Buttons.post d.cnt t c p with
  | error e => exact keeps_error
  | ok r => exact keeps_ok h

theorem right_release (A : Scroll.Arith R) (t : Nat) (codes : List Nat) : ∀ (d : Dev R), Right d →
    Keeps Right (releasePressed A t codes d) := by
  induction codes with
  | nil => intro d h; exact keeps_ret h
  | cons c codes ih =>
    intro d h
    unfold releasePressed
    split
    · exact ih d h
    · refine keeps_bind (Q := Right) ?_ ?_
      · split
        · exact keeps_ret h
        · exact right_key h _ _ _
        · exact right_notify A d h _
      · intro d1 h1
        split
        · exact keeps_ret h1
        · exact ih d1 h1

theorem right_scroll {d : Dev R} (h : Right d) : Right (changeScroll d) := by
  have hf := changeScroll_fields d
  unfold Right
  rw [hf.2.2.1, hf.2.2.2.1]; exact h

theorem right_step (A : Scroll.Arith R) {d : Dev R} (h : Right d) (op : Op R) (hop : op ≠ .setLeftHanded true) :
    Keeps Right (step A d op) := by
  cases op with
  | frame t keys wheel rel =>
    refine keeps_bind (Q := Right) (by unfold debounceTimers; exact right_notes A _ _ h) fun d h => ?_
    refine keeps_bind (Q := Right) (keeps_each keys (fun d h e _ => ?_) d h) fun d h => ?_
    · unfold processKey
      split
      · exact keeps_ret h
      · split
        · exact keeps_ret h
        · exact keeps_ret h
        · simp only
          split
          · exact keeps_ret h
          · exact right_key (d := { d with keyHw := fun c => if c = e.code then e.value != 0 else d.keyHw c }) h _ _ _
    refine keeps_bind (Q := Right) ?_ fun d h => ?_
    · unfold flushMotion
      split
      · exact keeps_ret h
      · exact keeps_each _ (fun d h o _ => right_deliver d h o) _ h
    refine keeps_bind (Q := Right) ?_ fun d h => ?_
    · unfold flushWheels
      split
      · exact keeps_ret h
      · exact keeps_ok h
    · unfold syncButtons; exact right_notes A _ _ h
  | debounceTimers now => unfold step debounceTimers; exact right_notes A _ _ h
  | middleTimer now => unfold step middleTimer; exact keeps_each _ (fun d h c _ => right_notify A d h c) _ h
  | scrollTimer now => exact keeps_ret h
  | setLeftHanded on =>
    have ho : on = false := by cases on with
      | false => rfl
      | true => exact absurd rfl hop
    subst ho
    apply keeps_ret
    have hf := changeLeftHanded_fields { d with lhWant := false }
    refine ⟨?_, hf.2.2.1⟩
    unfold changeLeftHanded
    split
    · exact h.1
    · split
      · exact h.1
      · rfl
  | setMiddle on => exact keeps_ret h
  | setScrollMethod on => exact keeps_ret (right_scroll (d := { d with scWant := { d.scWant with onButton := on } }) h)
  | setScrollButton b => exact keeps_ret (right_scroll (d := { d with scWant := { d.scWant with button := b } }) h)
  | setScrollLock on => exact keeps_ret (right_scroll (d := { d with scWant := { d.scWant with lock := on } }) h)
  | suspend t =>
    unfold step suspend
    exact keeps_bind (right_release A t _ d h) fun d h => keeps_ret h

theorem right_run (A : Scroll.Arith R) (ops : List (Op R)) (h : .setLeftHanded true ∉ ops) (d : Dev R) (hd : Right d) :
    Keeps Right (run A d ops) :=
  keeps_each ops (fun d hd op hop => right_step A hd op (fun he => h (he ▸ hop))) d hd

end Libinput.Mouse
