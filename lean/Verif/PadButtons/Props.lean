import Verif.PadButtons.Spec
/-!
C75.
-/
namespace Libinput.PadButtons
open Buttons Spec

/-- The bits of left, right and middle. -/
def enc (l r m : Bool) : BitVec 32 := (if l then 1#32 else 0#32) ||| (if r then 2#32 else 0#32) ||| (if m then 4#32 else 0#32)

theorem enc_shift (l r m : Bool) : enc l r m >>> 1 = enc r m false := by revert l r m; decide
theorem enc_low (l r m : Bool) : enc l r m &&& 1#32 = if l then 1#32 else 0#32 := by revert l r m; decide
theorem enc_three (l r m : Bool) : enc l r m &&& 3#32 ≠ 0#32 ↔ (l = true ∨ r = true) := by revert l r m; decide

theorem key_enc (l r m : Bool) (c v : Nat) : key (enc l r m) c v =
    enc (if c = 0x110 ∧ v ≠ 2 then decide (v ≠ 0) else l) (if c = 0x111 ∧ v ≠ 2 then decide (v ≠ 0) else r) (if c = 0x112 ∧ v ≠ 2 then decide (v ≠ 0) else m) := by
  unfold key
  by_cases h2 : v = 2
  · simp [h2]
  rw [if_neg h2]
  by_cases c0 : c = 0x110
  · subst c0
    by_cases v0 : v = 0
    · subst v0; revert l r m; decide
    · simp only [v0, h2, ne_eq, not_false_eq_true, and_self, if_true, decide_true, true_or, Nat.sub_self, reduceCtorEq, and_true]
      revert l r m; decide
  by_cases c1 : c = 0x111
  · subst c1
    by_cases v0 : v = 0
    · subst v0; revert l r m; decide
    · simp only [v0, h2, ne_eq, not_false_eq_true, and_self, if_true, decide_true, or_true, and_true]
      revert l r m; decide
  by_cases c2 : c = 0x112
  · subst c2
    by_cases v0 : v = 0
    · subst v0; revert l r m; decide
    · simp only [v0, h2, ne_eq, not_false_eq_true, and_self, if_true, decide_true, true_or, or_true, and_true]
      revert l r m; decide
  simp [c0, c1, c2]

theorem keys_enc : ∀ (ks : List (Nat × Nat)) (l r m : Bool), ks.foldl (fun n k => key n k.1 k.2) (enc l r m) =
    enc (after 0x110 ks l) (after 0x111 ks r) (after 0x112 ks m)
  | [], _, _, _ => rfl
  | k :: ks, l, r, m => by
    rw [List.foldl_cons, key_enc, keys_enc ks]
    rfl

theorem loop_zero (time b : Nat) (s : State) : loop time 0#32 0#32 b s = .ok (s, []) := by
  unfold loop; simp

/-- The loop goes on with nothing to tell once nothing is left, so its condition does not matter. -/
theorem loop_next (time : Nat) (c o : BitVec 32) (b : Nat) (s : State) : loop time c o b s =
    match turn time c o b s with
    | .error e => .error e
    | .ok (s, evs) =>
      match loop time (c >>> 1) (o >>> 1) (b + 1) s with
      | .error e => .error e
      | .ok (s, more) => .ok (s, evs ++ more) := by
  by_cases h : c ≠ 0#32 ∨ o ≠ 0#32
  · conv => lhs; unfold loop
    rw [dif_pos h]
    cases turn time c o b s with
    | error => rfl
    | ok p => dsimp only; cases loop time (c >>> 1) (o >>> 1) (b + 1) p.1 <;> rfl
  · have hc : c = 0#32 := Classical.byContradiction fun x => h (.inl x)
    have ho : o = 0#32 := Classical.byContradiction fun x => h (.inr x)
    subst hc ho
    have z : (0#32 : BitVec 32) >>> 1 = 0#32 := by decide
    have t : turn time 0#32 0#32 b s = .ok (s, []) := by simp [turn]
    rw [t, z]
    simp only [loop_zero]
    rfl

theorem turn_enc (time b : Nat) (l r m l' r' m' : Bool) (s : State) : turn time (enc l' r' m') (enc l r m) b s =
    if l = l' then .ok (s, []) else notify time (toLeft s.enabled b) l' s := by
  unfold turn
  rw [enc_low, enc_low]
  cases l <;> cases l' <;> simp

def b2n (b : Bool) : Nat := if b then 1 else 0

structure Inv (h : Hand) (s : State) : Prop where
  now : s.now = enc h.left h.right h.middle
  old : s.old = enc h.left h.right h.middle
  en : s.enabled = h.exchanged
  want : s.want = h.wanted
  left : s.cnt (toLeft h.exchanged 0x110) = b2n h.left
  right : s.cnt (toLeft h.exchanged 0x111) = b2n h.right
  middle : s.cnt 0x112 = b2n h.middle
  waits : h.wanted ≠ h.exchanged → h.left = true ∨ h.right = true

theorem init_inv : Inv atFirst init := ⟨by decide, by decide, rfl, rfl, rfl, rfl, rfl, fun c => absurd rfl c⟩

theorem post_press {cnt : Counts} {time b : Nat} (hb : b < 0x300) (h0 : cnt b = 0) : post cnt time b true = .ok (Buttons.set cnt b 1, [⟨time, b, true⟩]) := by
  unfold post updateKeyDownCount KEY_CNT
  rw [if_neg (by omega)]
  simp [h0]

theorem post_release {cnt : Counts} {time b : Nat} (hb : b < 0x300) (h1 : cnt b = 1) : post cnt time b false = .ok (Buttons.set cnt b 0, [⟨time, b, false⟩]) := by
  unfold post updateKeyDownCount KEY_CNT
  rw [if_neg (by omega)]
  simp [h1]

theorem post_abort {cnt : Counts} {time b : Nat} (h0 : cnt b = 0) : post cnt time b false = .error .assertFailed := by
  unfold post updateKeyDownCount KEY_CNT
  split <;> simp_all

theorem step_report {h : Hand} {s : State} (i : Inv h s) (time : Nat) (keys : List (Nat × Nat)) :
    (Fatal h (.report time keys) → step s (.report time keys) = .error .assertFailed) ∧
    (¬ Fatal h (.report time keys) → ∃ s', step s (.report time keys) = .ok (s', told h (.report time keys)) ∧ Inv (next h (.report time keys)) s') := by
  obtain ⟨hl, hr, hm, hx, hw⟩ := h
  obtain ⟨n, o, en, want, cnt⟩ := s
  obtain ⟨i1, i2, i3, i4, i5, i6, i7, i8⟩ := i
  dsimp only at i1 i2 i3 i4 i5 i6 i7 i8
  subst i1 i2 i3 i4
  simp only [step, Fatal, told, next, keys_enc]
  have e0 := keys_enc keys hl hr hm
  generalize hL : after 0x110 keys hl = l'
  generalize hR : after 0x111 keys hr = r'
  generalize hM : after 0x112 keys hm = m'
  have fl : hl = true → after 0x110 keys true = l' := fun e => e ▸ hL
  have fr : hr = true → after 0x111 keys true = r' := fun e => e ▸ hR
  clear hL hR hM e0
  rw [loop_next, turn_enc, enc_shift, enc_shift]
  simp only [loop_next time (enc r' m' false), turn_enc, enc_shift]
  simp only [loop_next time (enc m' false false), turn_enc, enc_shift]
  have z : enc false false false = 0#32 := by decide
  simp only [z, loop_zero]
  cases hl <;> cases l' <;> cases hr <;> cases r' <;> cases en <;> cases want <;> cases hm <;> cases m' <;>
    simp_all [notify, event, toLeft, b2n, post_press, post_release, post_abort, Buttons.set, change, enc_three] <;>
    refine ⟨rfl, rfl, rfl, rfl, ?_, ?_, ?_, ?_⟩ <;> simp_all [toLeft, b2n, Buttons.set]

theorem step_left {h : Hand} {s : State} (i : Inv h s) (v : Bool) : Inv (next h (.left v)) (setLeft v s) := by
  obtain ⟨hl, hr, hm, hx, hw⟩ := h
  obtain ⟨n, o, en, want, cnt⟩ := s
  obtain ⟨i1, i2, i3, i4, i5, i6, i7, i8⟩ := i
  dsimp only at i1 i2 i3 i4 i5 i6 i7 i8
  subst i1 i2 i3 i4
  cases hl <;> cases hr <;> cases en <;> cases v <;> simp_all [setLeft, change, next, enc_three] <;>
    refine ⟨rfl, rfl, rfl, rfl, ?_, ?_, ?_, ?_⟩ <;> simp_all [toLeft, b2n]

theorem run_eq : ∀ (ops : List Op) {h : Hand} {s : State}, Inv h s → run s ops = history h ops
  | [], _, _, _ => rfl
  | .left v :: ops, h, s, i => by
    have := run_eq ops (step_left i v)
    have f : ¬ Fatal h (.left v) := id
    simp only [run, step, history, if_neg f, told, this]
  | .report time keys :: ops, h, s, i => by
    obtain ⟨a, b⟩ := step_report i time keys
    unfold run history
    by_cases f : Fatal h (.report time keys)
    · rw [a f, if_pos f]
    · obtain ⟨s', e, j⟩ := b f
      rw [e, if_neg f]
      dsimp only
      rw [run_eq ops j]

/-- C75.  Each report tells every button that changed since the last one, once, and nothing else; left and right are exchanged when they were asked to be, from the first
moment on at which neither is held.  The program stops at, and only at, a fatal report. -/
theorem changes_told (ops : List Op) : run init ops = history atFirst ops := run_eq ops init_inv

theorem history_stops : ∀ (ops : List Op) (h : Hand), (history h ops).2 = none ∨ (history h ops).2 = some .assertFailed
  | [], _ => .inl rfl
  | o :: os, h => by
    unfold history
    split
    · exact .inr rfl
    · exact history_stops os (next h o)

theorem history_stop_iff : ∀ (ops : List Op) (h : Hand), (history h ops).2 ≠ none ↔ ∃ pre o post, ops = pre ++ o :: post ∧ Fatal (hand h pre) o
  | [], h => by simp [history]
  | o :: os, h => by
    unfold history
    by_cases f : Fatal h o
    · rw [if_pos f]
      exact ⟨fun _ => ⟨[], o, os, rfl, f⟩, fun _ => by simp⟩
    · rw [if_neg f]
      dsimp only
      rw [history_stop_iff os (next h o)]
      constructor
      · rintro ⟨pre, q, post, rfl, e⟩
        exact ⟨o :: pre, q, post, rfl, e⟩
      · rintro ⟨pre, q, post, e, g⟩
        cases pre with
        | nil => cases e; exact absurd g f
        | cons p pre =>
          obtain ⟨rfl, rfl⟩ := List.cons.inj e
          exact ⟨pre, q, post, rfl, g⟩

/-- C75.  The program aborts exactly if some report releases left and right at once while a wish to exchange them waits. -/
theorem aborts_iff (ops : List Op) : (run init ops).2 = some .assertFailed ↔
    ∃ pre o post, ops = pre ++ o :: post ∧ Fatal (hand atFirst pre) o := by
  rw [changes_told, ← history_stop_iff]
  rcases history_stops ops atFirst with e | e <;> simp [e]

theorem down_append (c : Nat) : ∀ (a b : List Ev) (d : Bool), down c (a ++ b) d = down c b (down c a d)
  | [], _, _ => rfl
  | _ :: a, b, _ => down_append c a b _

/-- What the caller takes to be down is what the hand holds. -/
structure Knows (h : Hand) (d : Nat → Bool) : Prop where
  left : d (if h.exchanged then 0x111 else 0x110) = h.left
  right : d (if h.exchanged then 0x110 else 0x111) = h.right
  middle : d 0x112 = h.middle

theorem knows_step {h : Hand} {d : Nat → Bool} (k : Knows h d) (o : Op) : Knows (next h o) fun c => down c (told h o) (d c) := by
  obtain ⟨hl, hr, hm, hx, hw⟩ := h
  obtain ⟨k1, k2, k3⟩ := k
  cases o with
  | left v =>
    constructor <;> cases hx <;> cases v <;> cases hl <;> cases hr <;> simp_all [told, next, down]
  | report time keys =>
    simp only [told, next]
    dsimp only at k1 k2 k3
    generalize after 0x110 keys hl = l'
    generalize after 0x111 keys hr = r'
    generalize after 0x112 keys hm = m'
    constructor <;> cases hx <;> cases hw <;> cases hl <;> cases l' <;> cases hr <;> cases r' <;> cases hm <;> cases m' <;>
      simp_all [event, down]

theorem knows_history : ∀ (ops : List Op) (h : Hand) (d : Nat → Bool), Knows h d → (history h ops).2 = none →
    Knows (hand h ops) fun c => down c (history h ops).1.flatten (d c)
  | [], _, _, k, _ => k
  | o :: os, h, d, k, n => by
    unfold history at n ⊢
    by_cases f : Fatal h o
    · rw [if_pos f] at n; cases n
    · rw [if_neg f] at n ⊢
      have := knows_history os (next h o) _ (knows_step k o) n
      simp only [List.flatten_cons, down_append]
      exact this

/-- C75.  After any history in which the program did not abort, the buttons the caller takes to be down are the ones that are held: none is stuck and none is lost, even
if left and right were exchanged and back any number of times. -/
theorem caller_knows (ops : List Op) (n : (run init ops).2 = none) :
    down (if (hand atFirst ops).exchanged then 0x111 else 0x110) (run init ops).1.flatten false = (hand atFirst ops).left ∧
    down (if (hand atFirst ops).exchanged then 0x110 else 0x111) (run init ops).1.flatten false = (hand atFirst ops).right ∧
    down 0x112 (run init ops).1.flatten false = (hand atFirst ops).middle := by
  rw [changes_told] at n ⊢
  obtain ⟨a, b, c⟩ := knows_history ops atFirst (fun _ => false) ⟨rfl, rfl, rfl⟩ n
  exact ⟨a, b, c⟩

theorem granted : ∀ (ops : List Op) (h : Hand), (h.left = false → h.right = false → h.exchanged = h.wanted) →
    (hand h ops).left = false → (hand h ops).right = false → (hand h ops).exchanged = (hand h ops).wanted
  | [], _, g => g
  | o :: os, h, g => by
    refine granted os (next h o) ?_
    cases o with
    | left v => intro l r; simp only [next] at l r ⊢; simp [l, r]
    | report t k => intro l r; simp only [next] at l r ⊢; simp [l, r]

theorem history_snoc : ∀ (ops : List Op) (h : Hand) (o : Op), (history h ops).2 = none → ¬ Fatal (hand h ops) o →
    (history h (ops ++ [o])).1 = (history h ops).1 ++ [told (hand h ops) o]
  | [], h, o, _, f => by
    have : ¬ Fatal h o := f
    simp [history, hand, this]
  | p :: ps, h, o, n, f => by
    unfold history at n
    by_cases g : Fatal h p
    · rw [if_pos g] at n; cases n
    · rw [if_neg g] at n
      have := history_snoc ps (next h p) o n f
      simp only [List.cons_append, history, if_neg g, this]
      rfl

/-- C75.  When neither left nor right is held, the next press of the left button is told as what was last asked for. -/
theorem wish_granted (ops : List Op) (n : (run init ops).2 = none) (hl : (hand atFirst ops).left = false) (hr : (hand atFirst ops).right = false) (time : Nat) :
    (run init (ops ++ [.report time [(0x110, 1)]])).1 =
      (run init ops).1 ++ [[⟨time, if (hand atFirst ops).wanted then 0x111 else 0x110, true⟩]] := by
  rw [changes_told] at n
  rw [changes_told, changes_told, history_snoc ops atFirst _ n (by simp [Fatal, hl])]
  have g := granted ops atFirst (fun _ _ => rfl) hl hr
  simp [told, after, hl, hr, event, g]

/-- C75, the exception can happen: left-handed is asked for while both are held, and both are released in one report. -/
theorem released_together_aborts :
    run init [.report 1 [(0x110, 1)], .report 2 [(0x111, 1)], .left true, .report 3 [(0x110, 0), (0x111, 0)]] =
      ([[⟨1, 0x110, true⟩], [⟨2, 0x111, true⟩], []], some .assertFailed) := by
  rw [changes_told]; decide

/-- Non-vacuity: left-handed is asked for while the left button is held, which is released as what it was pressed; the next one is a right one. -/
example : run init [.report 1 [(0x110, 1), (0x112, 1)], .left true, .report 2 [(0x110, 2)], .report 3 [(0x110, 0), (0x111, 1)], .report 4 [(0x111, 0)],
      .report 5 [(0x110, 1), (0x112, 0)]] =
    ([[⟨1, 0x110, true⟩, ⟨1, 0x112, true⟩], [], [], [⟨3, 0x110, false⟩, ⟨3, 0x111, true⟩], [⟨4, 0x111, false⟩], [⟨5, 0x111, true⟩, ⟨5, 0x112, false⟩]], none) := by
  rw [changes_told]; decide
example : (run init [.report 1 [(0x110, 1)], .left true, .report 3 [(0x110, 0)]]).2 = none ∧
    (hand atFirst [.report 1 [(0x110, 1)], .left true, .report 3 [(0x110, 0)]]) = ⟨false, false, false, true, true⟩ := by
  rw [changes_told]; decide

end Libinput.PadButtons
