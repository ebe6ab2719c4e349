import Verif.Leds.Spec
/-!
C72.
-/
namespace Libinput.Leds
open Spec

theorem flag_eq (l : BitVec 32) (k : Nat) (hk : k < 32) : (l &&& (1#32 <<< k) ≠ 0#32) ↔ l.getLsbD k = true := by
  constructor
  · intro h
    refine Classical.byContradiction fun c => h ?_
    apply BitVec.eq_of_getLsbD_eq
    intro i hi
    rw [BitVec.getLsbD_and, BitVec.getLsbD_shiftLeft, BitVec.getLsbD_one]
    by_cases e : i = k
    · subst e; simp [c]
    · by_cases d : i < k
      · simp [d]
      · have : i - k ≠ 0 := by omega
        simp [this]
  · intro h c
    have := congrArg (fun y => BitVec.getLsbD y k) c
    simp [BitVec.getLsbD_shiftLeft, h] at this
    omega

theorem update_eq (l : BitVec 32) : update true l = some [⟨0x11, 0, if l.getLsbD 0 then 1 else 0⟩, ⟨0x11, 1, if l.getLsbD 1 then 1 else 0⟩,
    ⟨0x11, 2, if l.getLsbD 2 then 1 else 0⟩, ⟨0, 0, 0⟩] := by
  have a := flag_eq l 0 (by omega)
  have b := flag_eq l 1 (by omega)
  have c := flag_eq l 2 (by omega)
  rw [show (1#32 <<< 0) = BitVec.ofNat 32 1 from rfl] at a
  rw [show (1#32 <<< 1) = BitVec.ofNat 32 2 from rfl] at b
  rw [show (1#32 <<< 2) = BitVec.ofNat 32 4 from rfl] at c
  unfold update map
  simp only [List.map_cons, List.map_nil, a, b, c, Bool.true_eq_false, if_false]
  rfl

theorem kernel_update (l : BitVec 32) (lit : Nat → Bool) (es : List Ev) (h : update true l = some es) :
    (kernel lit [] es).1 = (fun c => if c < 3 then asked l c else lit c) ∧ (kernel lit [] es).2 = [] := by
  rw [update_eq] at h
  cases h
  refine ⟨?_, rfl⟩
  funext c
  simp only [kernel, asked, List.nil_append, List.cons_append, List.foldl_cons, List.foldl_nil, Nat.reduceEqDiff, false_and, if_false, true_and, and_self, if_true]
  by_cases c0 : c = 0
  · subst c0; cases l.getLsbD 0 <;> rfl
  by_cases c1 : c = 1
  · subst c1; cases l.getLsbD 1 <;> rfl
  by_cases c2 : c = 2
  · subst c2; cases l.getLsbD 2 <;> rfl
  have n : ¬ c < 3 := by omega
  rw [if_neg n, if_neg (fun h => c2 h.symm), if_neg (fun h => c1 h.symm), if_neg (fun h => c0 h.symm)]

/-- C72.  After any updates of a keyboard, the LEDs of num lock, caps lock and scroll lock shine exactly as the last of them asked, whatever other bits it had, and no
other LED ever changes. -/
theorem last_update_shines (lit : Nat → Bool) (ls : List (BitVec 32)) (l : BitVec 32) (c : Nat) :
    after true lit (ls ++ [l]) c = if c < 3 then asked l c else lit c := by
  induction ls generalizing lit with
  | nil =>
    have e := kernel_update l lit _ (update_eq l)
    simp only [List.nil_append, after, update_eq, e.1]
  | cons k ls ih =>
    have e := kernel_update k lit _ (update_eq k)
    simp only [List.cons_append, after, update_eq, e.1]
    rw [ih]
    split <;> rfl

/-- C72.  Each update is one report that ends what it began: nothing waits for the next one. -/
theorem one_report (lit : Nat → Bool) (l : BitVec 32) : ∃ es, update true l = some es ∧ (kernel lit [] es).2 = [] ∧
    (∀ e ∈ es.dropLast, e.type = 0x11) ∧ es.getLast? = some ⟨0, 0, 0⟩ := by
  refine ⟨_, update_eq l, (kernel_update l lit _ (update_eq l)).2, ?_, rfl⟩
  intro e he
  simp only [List.dropLast, List.mem_cons, List.not_mem_nil, or_false] at he
  rcases he with rfl | rfl | rfl <;> rfl

/-- C72.  Nothing is ever written to a device that is no keyboard. -/
theorem others_untouched (lit : Nat → Bool) (ls : List (BitVec 32)) : (∀ l, update false l = none) ∧ after false lit ls = lit := by
  refine ⟨fun l => rfl, ?_⟩
  induction ls with
  | nil => rfl
  | cons l ls ih => exact ih

/-- Non-vacuity: caps lock on, then num lock and scroll lock with a bit that means nothing; the LED 5 keeps shining. -/
example : ((List.range 7).map (after true (fun c => c == 5) [2#32, 0xd#32])) = [true, false, true, false, false, true, false] := by decide +kernel

end Libinput.Leds
