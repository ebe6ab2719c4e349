import Verif.Bits.Model
import Verif.Bits.Spec
/-!
C70.
-/
namespace Libinput.Bits
open Spec

theorem getLsbD_one_shift {w k i : Nat} (hk : k < w) : (1#w <<< k).getLsbD i = decide (i = k) := by
  rw [BitVec.getLsbD_shiftLeft, BitVec.getLsbD_one]
  by_cases c : i = k
  · subst c; simp [hk]; omega
  · simp only [c, decide_false]
    by_cases d : i < k
    · simp [d]
    · have : i - k ≠ 0 := by omega
      simp [this]

theorem and_one_shift {w k : Nat} (x : BitVec w) (hk : k < w) : (x &&& (1#w <<< k) != 0#w) = x.getLsbD k := by
  rw [Bool.eq_iff_iff, bne_iff_ne]
  constructor
  · intro h
    refine Classical.byContradiction fun c => h ?_
    apply BitVec.eq_of_getLsbD_eq
    intro i hi
    rw [BitVec.getLsbD_and, getLsbD_one_shift hk]
    by_cases e : i = k
    · subst e; simp [c]
    · simp [e]
  · intro h c
    have := congrArg (fun y => BitVec.getLsbD y k) c
    simp [getLsbD_one_shift hk, h] at this

theorem isSet_eq {w : Nat} (hw : 0 < w) (a : List (BitVec w)) (b : Nat) : isSet a b = (a.getD (b / w) 0#w).getLsbD (b % w) :=
  and_one_shift _ (Nat.mod_lt _ hw)

theorem setBit_length {w : Nat} (a : List (BitVec w)) (b : Nat) : (setBit a b).length = a.length := by simp [setBit]
theorem clearBit_length {w : Nat} (a : List (BitVec w)) (b : Nat) : (clearBit a b).length = a.length := by simp [clearBit]
theorem setState_length {w : Nat} (a : List (BitVec w)) (b : Nat) (s : Bool) : (setState a b s).length = a.length := by
  unfold setState; split
  · exact setBit_length a b
  · exact clearBit_length a b

theorem getD_modify {α : Type} (a : List α) (i j : Nat) (f : α → α) (d : α) (hj : j < a.length) :
    (a.modify i f).getD j d = if i = j then f (a.getD j d) else a.getD j d := by
  rw [List.getD_eq_getElem?_getD, List.getD_eq_getElem?_getD, List.getElem?_modify]
  rw [List.getElem?_eq_getElem hj]
  split <;> simp_all

theorem index_lt {w b n : Nat} (h : b < w * n) : b / w < n := Nat.div_lt_of_lt_mul h

theorem same_bit {w b c : Nat} (h : b / w = c / w) (h' : b % w = c % w) : b = c := by
  rw [← Nat.div_add_mod b w, ← Nat.div_add_mod c w, h, h']

theorem isSet_setState {w : Nat} (hw : 0 < w) (a : List (BitVec w)) (b c : Nat) (s : Bool) (hc : c < w * a.length) :
    isSet (setState a b s) c = if b = c then s else isSet a c := by
  have ic := index_lt hc
  rw [isSet_eq hw, isSet_eq hw]
  have key : ∀ x : BitVec w, (x ||| (1#w <<< (b % w))).getLsbD (c % w) = if b % w = c % w then true else x.getLsbD (c % w) := by
    intro x
    rw [BitVec.getLsbD_or, getLsbD_one_shift (Nat.mod_lt _ hw)]
    by_cases e : b % w = c % w
    · simp [e]
    · have : ¬ c % w = b % w := fun h => e h.symm
      simp [e, this]
  have key' : ∀ x : BitVec w, (x &&& ~~~(1#w <<< (b % w))).getLsbD (c % w) = if b % w = c % w then false else x.getLsbD (c % w) := by
    intro x
    rw [BitVec.getLsbD_and, BitVec.getLsbD_not, getLsbD_one_shift (Nat.mod_lt _ hw)]
    have lt := Nat.mod_lt c hw
    by_cases e : b % w = c % w
    · simp [e]
    · have : ¬ c % w = b % w := fun h => e h.symm
      simp [e, this, lt]
  have split : ∀ f : BitVec w → BitVec w, (∀ x, (f x).getLsbD (c % w) = if b % w = c % w then s else x.getLsbD (c % w)) →
      ((a.modify (b / w) f).getD (c / w) 0#w).getLsbD (c % w) = if b = c then s else (a.getD (c / w) 0#w).getLsbD (c % w) := by
    intro f hf
    rw [getD_modify _ _ _ _ _ ic]
    by_cases e : b = c
    · subst e; simp [hf]
    · rw [if_neg e]
      by_cases d : b / w = c / w
      · rw [if_pos d, hf, if_neg fun h => e (same_bit d h)]
      · rw [if_neg d]
  cases s
  · exact split _ key'
  · exact split _ key

theorem run_length {w : Nat} : ∀ (os : List (Nat × Bool)) (a : List (BitVec w)), (run a os).length = a.length
  | [], _ => rfl
  | o :: os, a => (run_length os _).trans (setState_length a o.1 o.2)

theorem run_isSet {w : Nat} (hw : 0 < w) : ∀ (os : List (Nat × Bool)) (a : List (BitVec w)) (b : Nat), b < w * a.length →
    isSet (run a os) b = Held b os (isSet a b)
  | [], _, _, _ => rfl
  | o :: os, a, b, h => by
    show isSet (run (setState a o.1 o.2) os) b = _
    rw [run_isSet hw os _ b (by rw [setState_length]; exact h), isSet_setState hw a o.1 b o.2 h]
    rfl

theorem isSet_zeros {w : Nat} (hw : 0 < w) (n b : Nat) : isSet (zeros w n) b = false := by
  rw [isSet_eq hw]
  have : (zeros w n).getD (b / w) 0#w = 0#w := by
    unfold zeros
    rw [List.getD_eq_getElem?_getD, List.getElem?_replicate]
    split <;> rfl
  rw [this, BitVec.getLsbD_zero]

/-- C70.  Whatever is pressed and released in which order: a bit of the array is set exactly if the last that happened to its button is a press, for every size of
the array and of its words. -/
theorem remembered {w : Nat} (hw : 0 < w) (n : Nat) (os : List (Nat × Bool)) (b : Nat) (h : b < w * n) : isSet (run (zeros w n) os) b = held os b := by
  rw [run_isSet hw os _ b (by rw [zeros, List.length_replicate]; exact h), isSet_zeros hw]
  rfl

theorem anySet_iff {w : Nat} : ∀ a : List (BitVec w), anySet a = true ↔ ∃ x ∈ a, x ≠ 0#w
  | [] => by simp [anySet]
  | x :: xs => by
    unfold anySet
    split
    · rename_i h; simp [h]
    · rename_i h; rw [anySet_iff xs]; simp at h; simp [h]

theorem nonzero_iff {w : Nat} (x : BitVec w) : x ≠ 0#w ↔ ∃ i < w, x.getLsbD i = true := by
  constructor
  · intro h
    refine Classical.byContradiction fun c => h ?_
    apply BitVec.eq_of_getLsbD_eq
    intro i hi
    rw [BitVec.getLsbD_zero, Bool.eq_false_iff]
    exact fun e => c ⟨i, hi, e⟩
  · rintro ⟨i, _, h⟩ rfl
    simp at h

theorem anySet_iff_isSet {w : Nat} (hw : 0 < w) (a : List (BitVec w)) : anySet a = true ↔ ∃ b < w * a.length, isSet a b = true := by
  rw [anySet_iff]
  constructor
  · rintro ⟨x, hx, h⟩
    obtain ⟨i, hi, e⟩ := (nonzero_iff x).mp h
    obtain ⟨j, hj, rfl⟩ := List.getElem_of_mem hx
    refine ⟨w * j + i, ?_, ?_⟩
    · calc w * j + i < w * j + w := by omega
        _ = w * (j + 1) := by rw [Nat.mul_succ]
        _ ≤ w * a.length := Nat.mul_le_mul_left _ hj
    · have e1 : (w * j + i) / w = j := by rw [Nat.mul_add_div hw, Nat.div_eq_of_lt hi]; rfl
      have e2 : (w * j + i) % w = i := by rw [Nat.mul_add_mod, Nat.mod_eq_of_lt hi]
      rw [isSet_eq hw, e1, e2, List.getD_eq_getElem?_getD, List.getElem?_eq_getElem hj]
      exact e
  · rintro ⟨b, hb, h⟩
    rw [isSet_eq hw] at h
    have ib := index_lt hb
    rw [List.getD_eq_getElem?_getD, List.getElem?_eq_getElem ib] at h
    exact ⟨a[b / w], List.getElem_mem ib, (nonzero_iff _).mpr ⟨_, Nat.mod_lt _ hw, h⟩⟩

/-- C70.  Something counts as held exactly if something is. -/
theorem any_held {w : Nat} (hw : 0 < w) (n : Nat) (os : List (Nat × Bool)) : anySet (run (zeros w n) os) = true ↔ ∃ b < w * n, held os b = true := by
  rw [anySet_iff_isSet hw, run_length, zeros, List.length_replicate]
  constructor
  · rintro ⟨b, hb, h⟩; exact ⟨b, hb, by rw [← remembered hw n os b hb]; exact h⟩
  · rintro ⟨b, hb, h⟩; exact ⟨b, hb, by rw [← remembered hw n os b hb] at h; exact h⟩

/-! ### What is told -/

theorem range_shift (n : Nat) (p : Nat → Bool) : (List.range (n + 1)).filter p = (if p 0 then [0] else []) ++ ((List.range n).map (· + 1)).filter p := by
  rw [List.range_succ_eq_map, List.filter_cons]
  split <;> rfl

/-- The codes of the bits of a byte, in ascending order. -/
theorem slice_eq : ∀ (n : Nat) (b : BitVec 8) (code : Nat), b.toNat < 2 ^ n → slice b code = ((List.range n).filter b.getLsbD).map (code + ·)
  | 0, b, code, h => by
    have : b = 0#8 := BitVec.eq_of_toNat_eq (by simp; omega)
    unfold slice
    rw [dif_pos this]; rfl
  | n + 1, b, code, h => by
    unfold slice
    split
    · rename_i e; subst e; simp
    · have lt : (b >>> 1).toNat < 2 ^ n := by
        rw [BitVec.toNat_ushiftRight, Nat.shiftRight_eq_div_pow]
        rw [Nat.pow_succ] at h
        omega
      rw [slice_eq n _ _ lt, range_shift n, List.map_append, List.filter_map, List.map_map]
      have e0 : (b &&& 1#8 ≠ 0#8) ↔ b.getLsbD 0 = true := by
        have := and_one_shift b (k := 0) (by omega)
        rw [show (1#8 <<< 0) = 1#8 from rfl] at this
        rw [← this, bne_iff_ne]
      congr 1
      · by_cases c : b.getLsbD 0 = true
        · rw [if_pos (e0.mpr c), if_pos c]; rfl
        · rw [if_neg fun h => c (e0.mp h), if_neg c]; rfl
      · have f : (b >>> 1).getLsbD = (b.getLsbD ∘ fun x => x + 1) := by
          funext i
          rw [BitVec.getLsbD_ushiftRight, Function.comp, Nat.add_comm]
        rw [f]
        congr 1
        funext x
        simp only [Function.comp]
        omega

theorem slice_byte (b : BitVec 8) (code : Nat) : slice b code = ((List.range 8).filter b.getLsbD).map (code + ·) := slice_eq 8 b code b.isLt

/-- The pad's loop finds the same codes as the pen's. -/
theorem padCodes_eq : ∀ (a : List (BitVec 8)) (i : Nat), padCodes i a = ((List.range (8 * a.length)).filter fun c => isSet a c).map (i * 8 + ·)
  | [], i => rfl
  | b :: bs, i => by
    have e : 8 * (b :: bs).length = 8 + 8 * bs.length := by rw [List.length_cons]; omega
    rw [padCodes, slice_byte, padCodes_eq bs (i + 1), e, List.range_add, List.filter_append, List.map_append, List.filter_map, List.map_map]
    congr 1
    · congr 1
      apply List.filter_congr
      intro c hc
      rw [List.mem_range] at hc
      rw [isSet_eq (by omega), Nat.div_eq_of_lt hc, Nat.mod_eq_of_lt hc]; rfl
    · have f : ((fun c => isSet (b :: bs) c) ∘ fun x => 8 + x) = fun c => isSet bs c := by
        funext c
        simp only [Function.comp]
        rw [isSet_eq (by omega), isSet_eq (by omega)]
        have e1 : (8 + c) / 8 = c / 8 + 1 := by omega
        have e2 : (8 + c) % 8 = c % 8 := by omega
        rw [e1, e2]; rfl
      rw [f]
      congr 1
      funext x
      simp only [Function.comp]
      omega

theorem codes_same (a : List (BitVec 8)) : padCodes 0 a = tabletCodes a := by
  rw [padCodes_eq, tabletCodes]
  simp

theorem zip_isSet (f : BitVec 8 → BitVec 8 → BitVec 8) (g : Bool → Bool → Bool) (hf : ∀ x y i, i < 8 → (f x y).getLsbD i = g (x.getLsbD i) (y.getLsbD i))
    (a b : List (BitVec 8)) (hl : a.length = b.length) (c : Nat) (hc : c < 8 * a.length) : isSet (a.zipWith f b) c = g (isSet a c) (isSet b c) := by
  have i1 := index_lt hc
  have i2 : c / 8 < b.length := hl ▸ i1
  have i3 : c / 8 < (a.zipWith f b).length := by rw [List.length_zipWith]; omega
  rw [isSet_eq (by omega), isSet_eq (by omega), isSet_eq (by omega)]
  simp only [List.getD_eq_getElem?_getD, List.getElem?_eq_getElem i1, List.getElem?_eq_getElem i2, List.getElem?_eq_getElem i3, Option.getD_some,
    List.getElem_zipWith]
  exact hf _ _ _ (Nat.mod_lt _ (by omega))

theorem zip_codes (f : BitVec 8 → BitVec 8 → BitVec 8) (g : Bool → Bool → Bool) (hf : ∀ x y i, i < 8 → (f x y).getLsbD i = g (x.getLsbD i) (y.getLsbD i))
    (n : Nat) (now before : List (Nat × Bool)) :
    tabletCodes ((run (zeros 8 n) now).zipWith f (run (zeros 8 n) before)) = (List.range (8 * n)).filter fun b => g (held now b) (held before b) := by
  have l1 : (run (zeros 8 n) now).length = n := by rw [run_length, zeros, List.length_replicate]
  have l2 : (run (zeros 8 n) before).length = n := by rw [run_length, zeros, List.length_replicate]
  unfold tabletCodes
  rw [List.length_zipWith, l1, l2, Nat.min_self]
  apply List.filter_congr
  intro c hc
  rw [List.mem_range] at hc
  rw [zip_isSet f g hf _ _ (by rw [l1, l2]) c (by rw [l1]; exact hc), remembered (by omega) n now c hc, remembered (by omega) n before c hc]

/-- C70.  At the end of a frame, a pad and a pen tell as pressed, in ascending order and each once, exactly the buttons that are held now and were not held at the end
of the frame before: `before` is all that happened before, `now` what happened in this frame. -/
theorem pressed_told (n : Nat) (before now : List (Nat × Bool)) :
    padCodes 0 (pressed (run (zeros 8 n) (before ++ now)) (run (zeros 8 n) before)) =
        (List.range (8 * n)).filter (fun b => held (before ++ now) b && !held before b) ∧
      tabletCodes (pressed (run (zeros 8 n) (before ++ now)) (run (zeros 8 n) before)) =
        (List.range (8 * n)).filter fun b => held (before ++ now) b && !held before b := by
  have := zip_codes (fun s p => s &&& ~~~p) (fun s p => s && !p) (by intro x y i hi; simp [hi]) n (before ++ now) before
  rw [codes_same]
  exact ⟨this, this⟩

/-- C70.  And as released exactly those that were held at the end of the frame before and are not held now. -/
theorem released_told (n : Nat) (before now : List (Nat × Bool)) :
    padCodes 0 (released (run (zeros 8 n) (before ++ now)) (run (zeros 8 n) before)) =
        (List.range (8 * n)).filter (fun b => held before b && !held (before ++ now) b) ∧
      tabletCodes (released (run (zeros 8 n) (before ++ now)) (run (zeros 8 n) before)) =
        (List.range (8 * n)).filter fun b => held before b && !held (before ++ now) b := by
  have := zip_codes (fun s p => p &&& ~~~s) (fun s p => p && !s) (by intro x y i hi; simp [hi]) n (before ++ now) before
  rw [codes_same]
  exact ⟨this, this⟩

/-- C70.  When a pen comes into proximity, all that is held now or was held before is told as pressed. -/
theorem forced_told (n : Nat) (before now : List (Nat × Bool)) :
    tabletCodes (pressed (force (run (zeros 8 n) (before ++ now)) (run (zeros 8 n) before)).1 (force (run (zeros 8 n) (before ++ now)) (run (zeros 8 n) before)).2) =
      (List.range (8 * n)).filter fun b => held (before ++ now) b || held before b := by
  have := zip_codes (fun s p => s ||| p) (fun s p => s || p) (by intro x y i hi; simp) n (before ++ now) before
  rw [← this]
  congr 1
  unfold pressed force
  dsimp only
  have z : ∀ (a b : List (BitVec 8)), a.length ≤ b.length → a.zipWith (fun s p => s &&& ~~~p) (b.map fun _ => 0#8) = a := by
    intro a
    induction a with
    | nil => intro b _; rfl
    | cons x xs ih =>
      intro b hb
      cases b with
      | nil => simp at hb
      | cons y ys =>
        simp only [List.map_cons, List.zipWith_cons_cons]
        rw [ih ys (by simpa using hb), BitVec.not_zero, BitVec.and_allOnes]
  apply z
  rw [List.length_zipWith]; omega

/-- Non-vacuity: buttons in several bytes, one that is pressed and released in the frame, one that is released. -/
example : padCodes 0 (pressed (run (zeros 8 4) ([(3, true), (17, true)] ++ [(30, true), (8, true), (8, false), (17, false), (2, true)]))
      (run (zeros 8 4) [(3, true), (17, true)])) = [2, 30] ∧
    tabletCodes (released (run (zeros 8 4) ([(3, true), (17, true)] ++ [(30, true), (8, true), (8, false), (17, false), (2, true)]))
      (run (zeros 8 4) [(3, true), (17, true)])) = [17] := by
  constructor
  · rw [(pressed_told 4 _ _).1]; decide +kernel
  · rw [(released_told 4 _ _).2]; decide +kernel
example : isSet (run (zeros 64 12) [(700, true), (636, true), (636, false)]) 700 = true ∧ isSet (run (zeros 64 12) [(700, true), (636, true), (636, false)]) 636 = false ∧
    anySet (run (zeros 64 12) [(700, true), (636, true), (636, false)]) = true ∧ anySet (run (zeros 64 12) [(700, true), (700, false)]) = false := by decide +kernel

end Libinput.Bits
