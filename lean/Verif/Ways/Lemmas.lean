import Verif.Ways.Spec
import Verif.Accel.Direction
/-!
Octants and angles.
-/
namespace Libinput.Ways
open Spec Motion Accel

theorem octant_arg (x y : ℝ) : ∃ k : ℤ, octant x y = Complex.arg ⟨x, y⟩ * 4 / Real.pi + 2 + 8 * k := by
  by_cases h : -(Real.pi / 2) ≤ Complex.arg ⟨x, y⟩
  · exact ⟨0, by rw [octant_hi h]; simp⟩
  · exact ⟨1, by rw [octant_lo (not_le.mp h)]; push_cast; ring⟩

theorem octant_range (x y : ℝ) : 0 ≤ octant x y ∧ octant x y < 8 := by
  have hp := Real.pi_pos
  by_cases h : -(Real.pi / 2) ≤ Complex.arg ⟨x, y⟩
  · rw [octant_hi h]
    have h2 := Complex.arg_le_pi ⟨x, y⟩
    constructor
    · have : -2 ≤ Complex.arg ⟨x, y⟩ * 4 / Real.pi := by rw [le_div_iff₀ hp]; linarith
      linarith
    · have : Complex.arg ⟨x, y⟩ * 4 / Real.pi ≤ 4 := by rw [div_le_iff₀ hp]; linarith
      linarith
  · rw [octant_lo (not_le.mp h)]
    have h1 := not_le.mp h
    have h2 := Complex.neg_pi_lt_arg ⟨x, y⟩
    constructor
    · have : -4 ≤ Complex.arg ⟨x, y⟩ * 4 / Real.pi := by rw [le_div_iff₀ hp]; linarith
      linarith
    · have : Complex.arg ⟨x, y⟩ * 4 / Real.pi < -2 := by rw [div_lt_iff₀ hp]; linarith
      linarith

/-- The octants of two ways differ by the angle between them. -/
theorem octant_angle {u v : V} (hu : vec u ≠ 0) (hv : vec v ≠ 0) :
    ∃ (t : ℝ) (k : ℤ), octant u.x u.y - octant v.x v.y = t + 8 * k ∧ |t| = angle u v * 4 / Real.pi := by
  have hp := Real.pi_pos
  obtain ⟨a, ha⟩ := octant_arg u.x u.y
  obtain ⟨b, hb⟩ := octant_arg v.x v.y
  have e := Complex.arg_div_coe_angle hu hv
  have e' : ((Complex.arg (vec u / vec v) : ℝ) : Real.Angle) = ((Complex.arg (vec u) - Complex.arg (vec v) : ℝ) : Real.Angle) := by
    rw [e]; rfl
  obtain ⟨k, hk⟩ := Real.Angle.angle_eq_iff_two_pi_dvd_sub.mp e'
  refine ⟨Complex.arg (vec u / vec v) * 4 / Real.pi, a - b - k, ?_, ?_⟩
  · have hx : Complex.arg (vec u) - Complex.arg (vec v) = Complex.arg (vec u / vec v) - 2 * Real.pi * k := by linarith
    rw [ha, hb]
    push_cast
    have : Complex.arg ⟨u.x, u.y⟩ * 4 / Real.pi - Complex.arg ⟨v.x, v.y⟩ * 4 / Real.pi =
        (Complex.arg (vec u) - Complex.arg (vec v)) * 4 / Real.pi := by unfold vec; ring
    have h2 : (Complex.arg (vec u) - Complex.arg (vec v)) * 4 / Real.pi = Complex.arg (vec u / vec v) * 4 / Real.pi - 8 * k := by
      rw [hx]; field_simp; ring
    linarith
  · unfold angle
    rw [Complex.angle_eq_abs_arg hu hv, abs_div, abs_mul, abs_of_pos hp]
    norm_num

theorem angle_le_four (u v : V) : angle u v * 4 / Real.pi ≤ 4 := by
  have hp := Real.pi_pos
  rw [div_le_iff₀ hp]
  have := InnerProductGeometry.angle_le_pi (vec u) (vec v)
  unfold angle
  linarith

theorem same_bits : ∀ a b c d : Fin 8, sameDirections (2 ^ a.1 ||| 2 ^ b.1) (2 ^ c.1 ||| 2 ^ d.1) =
    (([(a, c), (a, d), (b, c), (b, d)] : List (Fin 8 × Fin 8)).any fun p =>
      decide ((p.1.1 + 8 - p.2.1) % 8 = 0 ∨ (p.1.1 + 8 - p.2.1) % 8 = 1 ∨ (p.1.1 + 8 - p.2.1) % 8 = 7)) := by
  decide +kernel

/-- `sameDirections` for the directions near two octants. -/
theorem same_near (r q : ℝ) : sameDirections (near r) (near q) = true ↔
    ∃ a ∈ [⌊r + 0.9⌋₊ % 8, ⌊r + 0.1⌋₊ % 8], ∃ b ∈ [⌊q + 0.9⌋₊ % 8, ⌊q + 0.1⌋₊ % 8],
      (a + 8 - b) % 8 = 0 ∨ (a + 8 - b) % 8 = 1 ∨ (a + 8 - b) % 8 = 7 := by
  have h := same_bits ⟨⌊r + 0.9⌋₊ % 8, Nat.mod_lt _ (by decide)⟩ ⟨⌊r + 0.1⌋₊ % 8, Nat.mod_lt _ (by decide)⟩
    ⟨⌊q + 0.9⌋₊ % 8, Nat.mod_lt _ (by decide)⟩ ⟨⌊q + 0.1⌋₊ % 8, Nat.mod_lt _ (by decide)⟩
  unfold near
  dsimp only at h
  rw [h]
  simp only [List.any_cons, List.any_nil, Bool.or_false, Bool.or_eq_true, decide_eq_true_eq, List.mem_cons, List.not_mem_nil, or_false,
    exists_eq_or_imp, exists_eq_left]
  tauto

/-- A bit near an octant, as an integer. -/
theorem bit_hi {r : ℝ} (h : 0 ≤ r) : ((⌊r + 0.9⌋₊ : ℤ) : ℝ) ≤ r + 0.9 ∧ r - 0.1 < ((⌊r + 0.9⌋₊ : ℤ) : ℝ) := by
  have h0 : 0 ≤ r + 0.9 := by linarith
  have a := Nat.floor_le h0
  have b := Nat.lt_floor_add_one (r + 0.9)
  push_cast
  constructor
  · exact a
  · linarith

theorem bit_lo {r : ℝ} (h : 0 ≤ r) : ((⌊r + 0.1⌋₊ : ℤ) : ℝ) ≤ r + 0.1 ∧ r - 0.9 < ((⌊r + 0.1⌋₊ : ℤ) : ℝ) := by
  have h0 : 0 ≤ r + 0.1 := by linarith
  have a := Nat.floor_le h0
  have b := Nat.lt_floor_add_one (r + 0.1)
  push_cast
  constructor
  · exact a
  · linarith

theorem near_alike {r q t : ℝ} {k : ℤ} (hr : 0 ≤ r) (hq : 0 ≤ q) (e : r - q = t + 8 * k) (ht : |t| ≤ 1.8) :
    sameDirections (near r) (near q) = true := by
  rw [same_near]
  obtain ⟨a1, a2⟩ := bit_hi hr
  obtain ⟨b1, b2⟩ := bit_lo hr
  obtain ⟨c1, c2⟩ := bit_hi hq
  obtain ⟨d1, d2⟩ := bit_lo hq
  obtain ⟨t1, t2⟩ := abs_le.mp ht
  rcases le_total 0 t with h | h
  · refine ⟨_, List.mem_cons_of_mem _ (List.mem_cons_self ..), _, List.mem_cons_self .., ?_⟩
    generalize ⌊r + 0.1⌋₊ = B at *
    generalize ⌊q + 0.9⌋₊ = C at *
    have l : (B : ℤ) - 8 * k - C < 2 := by
      have : (((B : ℤ) - 8 * k - C : ℤ) : ℝ) < ((2 : ℤ) : ℝ) := by push_cast at *; linarith
      exact_mod_cast this
    have g : -2 < (B : ℤ) - 8 * k - C := by
      have : ((-2 : ℤ) : ℝ) < (((B : ℤ) - 8 * k - C : ℤ) : ℝ) := by push_cast at *; linarith
      exact_mod_cast this
    omega
  · refine ⟨_, List.mem_cons_self .., _, List.mem_cons_of_mem _ (List.mem_cons_self ..), ?_⟩
    generalize ⌊r + 0.9⌋₊ = B at *
    generalize ⌊q + 0.1⌋₊ = C at *
    have l : (B : ℤ) - 8 * k - C < 2 := by
      have : (((B : ℤ) - 8 * k - C : ℤ) : ℝ) < ((2 : ℤ) : ℝ) := by push_cast at *; linarith
      exact_mod_cast this
    have g : -2 < (B : ℤ) - 8 * k - C := by
      have : ((-2 : ℤ) : ℝ) < (((B : ℤ) - 8 * k - C : ℤ) : ℝ) := by push_cast at *; linarith
      exact_mod_cast this
    omega

theorem near_apart {r q t : ℝ} {k : ℤ} (hr : 0 ≤ r) (hq : 0 ≤ q) (e : r - q = t + 8 * k) (ht : 2.8 < |t|) (ht4 : |t| ≤ 4) :
    sameDirections (near r) (near q) = false := by
  have main : ∀ B C : ℕ, ((B : ℤ) : ℝ) ≤ r + 0.9 → r - 0.9 < ((B : ℤ) : ℝ) → ((C : ℤ) : ℝ) ≤ q + 0.9 → q - 0.9 < ((C : ℤ) : ℝ) →
      ¬ ((B % 8 + 8 - C % 8) % 8 = 0 ∨ (B % 8 + 8 - C % 8) % 8 = 1 ∨ (B % 8 + 8 - C % 8) % 8 = 7) := by
    intro B C b1 b2 c1 c2
    obtain ⟨t1, t2⟩ := abs_le.mp ht4
    rcases lt_abs.mp ht with h | h
    · have l : (B : ℤ) - 8 * k - C < 6 := by
        have : (((B : ℤ) - 8 * k - C : ℤ) : ℝ) < ((6 : ℤ) : ℝ) := by push_cast at *; linarith
        exact_mod_cast this
      have g : 1 < (B : ℤ) - 8 * k - C := by
        have : ((1 : ℤ) : ℝ) < (((B : ℤ) - 8 * k - C : ℤ) : ℝ) := by push_cast at *; linarith
        exact_mod_cast this
      omega
    · have l : (B : ℤ) - 8 * k - C < -1 := by
        have : (((B : ℤ) - 8 * k - C : ℤ) : ℝ) < ((-1 : ℤ) : ℝ) := by push_cast at *; linarith
        exact_mod_cast this
      have g : -6 < (B : ℤ) - 8 * k - C := by
        have : ((-6 : ℤ) : ℝ) < (((B : ℤ) - 8 * k - C : ℤ) : ℝ) := by push_cast at *; linarith
        exact_mod_cast this
      omega
  obtain ⟨a1, a2⟩ := bit_hi hr
  obtain ⟨b1, b2⟩ := bit_lo hr
  obtain ⟨c1, c2⟩ := bit_hi hq
  obtain ⟨d1, d2⟩ := bit_lo hq
  cases hx : sameDirections (near r) (near q)
  · rfl
  · exfalso
    obtain ⟨a, ha, b, hb, h⟩ := (same_near r q).mp hx
    simp only [List.mem_cons, List.not_mem_nil, or_false] at ha hb
    rcases ha with rfl | rfl <;> rcases hb with rfl | rfl
    · exact main _ _ a1 (by linarith) c1 (by linarith) h
    · exact main _ _ a1 (by linarith) (by linarith) d2 h
    · exact main _ _ (by linarith) b2 c1 (by linarith) h
    · exact main _ _ (by linarith) b2 (by linarith) d2 h

/-! ### Sets of directions -/

theorem and_ne_zero {a b : Nat} : a &&& b ≠ 0 ↔ ∃ i, a.testBit i = true ∧ b.testBit i = true := by
  constructor
  · intro h
    obtain ⟨i, hi⟩ := Nat.exists_testBit_of_ne_zero h
    rw [Nat.testBit_and, Bool.and_eq_true] at hi
    exact ⟨i, hi⟩
  · rintro ⟨i, h1, h2⟩ h
    have : (a &&& b).testBit i = true := by rw [Nat.testBit_and, h1, h2]; rfl
    rw [h] at this
    simp at this

/-- Fewer directions are not more alike. -/
theorem same_mono {a b m n : Nat} (ha : a &&& m = a) (hb : b &&& n = b) (h : sameDirections a b = true) : sameDirections m n = true := by
  have sa : ∀ i, a.testBit i = true → m.testBit i = true := by
    intro i hi
    rw [← ha, Nat.testBit_and, Bool.and_eq_true] at hi
    exact hi.2
  have sb : ∀ i, b.testBit i = true → n.testBit i = true := by
    intro i hi
    rw [← hb, Nat.testBit_and, Bool.and_eq_true] at hi
    exact hi.2
  unfold sameDirections at h ⊢
  simp only [Bool.or_eq_true, Bool.and_eq_true, bne_iff_ne, and_ne_zero, Nat.testBit_or, Nat.testBit_shiftRight] at h ⊢
  rcases h with ((⟨i, h1, h2⟩ | ⟨i, h1, h2⟩) | ⟨⟨i, h1, h2⟩, j, h3, h4⟩) | ⟨⟨i, h1, h2⟩, j, h3, h4⟩
  · exact .inl (.inl (.inl ⟨i, h1.imp (sa _) (sa _), sb _ h2⟩))
  · exact .inl (.inl (.inr ⟨i, h1.imp (sb _) (sb _), sa _ h2⟩))
  · exact .inl (.inr ⟨⟨i, sa _ h1, h2⟩, j, sb _ h3, h4⟩)
  · exact .inr ⟨⟨i, sb _ h1, h2⟩, j, sa _ h3, h4⟩

/-- Directions in common are alike. -/
theorem same_of_common {a b : Nat} (h : a &&& b ≠ 0) : sameDirections a b = true := by
  obtain ⟨i, h1, h2⟩ := and_ne_zero.mp h
  unfold sameDirections
  simp only [Bool.or_eq_true, Bool.and_eq_true, bne_iff_ne, and_ne_zero, Nat.testBit_or]
  exact .inl (.inl (.inl ⟨i, .inl h1, h2⟩))

end Libinput.Ways
