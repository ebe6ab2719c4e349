import Verif.Accel.Factor
/-
The directions of a movement: going on straight has a direction in common with what came before, going back has none.
-/
namespace Libinput.Accel

/-- The directions by the signs only. -/
noncomputable def mask (x y : ℝ) : Nat :=
  if x > 0 ∧ y > 0 then 28
  else if x > 0 ∧ y < 0 then 7
  else if x < 0 ∧ y > 0 then 112
  else if x < 0 ∧ y < 0 then 193
  else if x > 0 then 14
  else if x < 0 then 224
  else if y > 0 then 56
  else if y < 0 then 131
  else 255

theorem small_mask {x y : ℝ} (h : |x| < 2 ∧ |y| < 2) : xyDirection x y = mask x y := by
  unfold xyDirection mask undefinedDirection
  rw [if_pos h]
  simp only [show (2:Nat)^4 ||| 2^3 ||| 2^2 = 28 by decide, show (2:Nat)^0 ||| 2^1 ||| 2^2 = 7 by decide,
    show (2:Nat)^4 ||| 2^5 ||| 2^6 = 112 by decide, show (2:Nat)^0 ||| 2^7 ||| 2^6 = 193 by decide,
    show (2:Nat)^1 ||| 2^2 ||| 2^3 = 14 by decide, show (2:Nat)^7 ||| 2^6 ||| 2^5 = 224 by decide,
    show (2:Nat)^3 ||| 2^4 ||| 2^5 = 56 by decide, show (2:Nat)^1 ||| 2^0 ||| 2^7 = 131 by decide]

/-- The octant, from 0 (north) to 8. -/
noncomputable def octant (x y : ℝ) : ℝ := fmod (Complex.arg ⟨x, y⟩ + 2.5 * Real.pi) (2 * Real.pi) * (4 * (1 / Real.pi))

/-- The two directions near an octant. -/
noncomputable def near (r : ℝ) : Nat := 2 ^ (⌊r + 0.9⌋₊ % 8) ||| 2 ^ (⌊r + 0.1⌋₊ % 8)

theorem large_near {x y : ℝ} (h : ¬ (|x| < 2 ∧ |y| < 2)) : xyDirection x y = near (octant x y) := by
  unfold xyDirection
  rw [if_neg h]; rfl

theorem octant_hi {x y : ℝ} (h : -(Real.pi / 2) ≤ Complex.arg ⟨x, y⟩) : octant x y = Complex.arg ⟨x, y⟩ * 4 / Real.pi + 2 := by
  have hp := Real.pi_pos
  have hle := Complex.arg_le_pi ⟨x, y⟩
  unfold octant fmod
  generalize Complex.arg ⟨x, y⟩ = a at *
  have hf : ⌊(a + 2.5 * Real.pi) / (2 * Real.pi)⌋ = 1 := by
    rw [Int.floor_eq_iff]
    constructor
    · rw [le_div_iff₀ (by positivity)]; push_cast; linarith
    · rw [div_lt_iff₀ (by positivity)]; push_cast; linarith
  rw [hf]
  field_simp
  push_cast
  ring

theorem octant_lo {x y : ℝ} (h : Complex.arg ⟨x, y⟩ < -(Real.pi / 2)) : octant x y = Complex.arg ⟨x, y⟩ * 4 / Real.pi + 10 := by
  have hp := Real.pi_pos
  have hgt := Complex.neg_pi_lt_arg ⟨x, y⟩
  unfold octant fmod
  generalize Complex.arg ⟨x, y⟩ = a at *
  have hf : ⌊(a + 2.5 * Real.pi) / (2 * Real.pi)⌋ = 0 := by
    rw [Int.floor_eq_iff]
    constructor
    · push_cast
      exact div_nonneg (by linarith) (by positivity)
    · rw [div_lt_iff₀ (by positivity)]; push_cast; linarith
  rw [hf]
  field_simp
  push_cast
  ring

theorem scaled_lt {a b : ℝ} (h : a < b * Real.pi) : a * 4 / Real.pi < b * 4 := by
  have hp := Real.pi_pos
  rw [div_lt_iff₀ hp]; linarith

theorem scaled_gt {a b : ℝ} (h : b * Real.pi < a) : b * 4 < a * 4 / Real.pi := by
  have hp := Real.pi_pos
  rw [lt_div_iff₀ hp]; linarith

/-- Between two axes there are three directions. -/
theorem near_between {r : ℝ} {k m : Nat} (h1 : (2 * k : ℝ) < r) (h2 : r < (2 * k + 2 : ℝ)) (hk : k < 4)
    (hm : m = 2 ^ (2 * k) ||| 2 ^ (2 * k + 1) ||| 2 ^ ((2 * k + 2) % 8)) : near r &&& m = near r := by
  have f : ∀ e : ℝ, 0 < e → e < 1 → 2 * k ≤ ⌊r + e⌋₊ ∧ ⌊r + e⌋₊ ≤ 2 * k + 2 := by
    intro e he he1
    constructor
    · apply Nat.le_floor; push_cast; linarith
    · apply Nat.le_of_lt_succ
      have h0 : (0 : ℝ) ≤ r + e := by have : (0 : ℝ) ≤ 2 * k := by positivity
                                      linarith
      rw [Nat.floor_lt h0]; push_cast; linarith
  obtain ⟨a1, a2⟩ := f 0.9 (by norm_num) (by norm_num)
  obtain ⟨b1, b2⟩ := f 0.1 (by norm_num) (by norm_num)
  unfold near
  generalize ⌊r + 0.9⌋₊ = a at *
  generalize ⌊r + 0.1⌋₊ = b at *
  subst hm
  have ha : a = 2 * k ∨ a = 2 * k + 1 ∨ a = 2 * k + 2 := by omega
  have hb : b = 2 * k ∨ b = 2 * k + 1 ∨ b = 2 * k + 2 := by omega
  have hk' : k = 0 ∨ k = 1 ∨ k = 2 ∨ k = 3 := by omega
  rcases hk' with rfl | rfl | rfl | rfl <;> rcases ha with rfl | rfl | rfl <;> rcases hb with rfl | rfl | rfl <;> decide

/-- On an axis there is one direction. -/
theorem near_axis {r : ℝ} {k : Nat} (h : r = k) (hk : k < 8) : near r = 2 ^ k := by
  have f : ∀ e : ℝ, 0 < e → e < 1 → ⌊r + e⌋₊ = k := by
    intro e he he1
    rw [h, Nat.floor_eq_iff (by positivity)]
    constructor <;> linarith
  unfold near
  rw [f 0.9 (by norm_num) (by norm_num), f 0.1 (by norm_num) (by norm_num), Nat.mod_eq_of_lt hk, Nat.or_self]

theorem near_ne_zero (r : ℝ) : near r ≠ 0 := by
  unfold near
  intro h
  have := (Nat.or_eq_zero_iff.mp h).1
  exact absurd this (by positivity)

/-- The directions are among those the signs allow. -/
theorem within_mask {x y : ℝ} (h0 : ¬ (x = 0 ∧ y = 0)) : xyDirection x y &&& mask x y = xyDirection x y := by
  by_cases hs : |x| < 2 ∧ |y| < 2
  · rw [small_mask hs, Nat.and_self]
  · rw [large_near hs]
    have hp := Real.pi_pos
    unfold mask
    rcases lt_trichotomy x 0 with hx | hx | hx <;> rcases lt_trichotomy y 0 with hy | hy | hy
    · -- north west
      have a1 := Complex.neg_pi_lt_arg ⟨x, y⟩
      have a2 : Complex.arg ⟨x, y⟩ < -(Real.pi / 2) := by
        by_contra hn
        have := Complex.neg_pi_div_two_le_arg_iff.mp (not_lt.mp hn)
        rcases this with h | h
        · exact absurd h (not_le.mpr hx)
        · exact absurd h (not_le.mpr hy)
      rw [if_neg (by intro h; linarith [h.1]), if_neg (by intro h; linarith [h.1]), if_neg (by intro h; linarith [h.2]), if_pos ⟨hx, hy⟩]
      have b1 := scaled_gt (a := Complex.arg ⟨x, y⟩) (b := -1) (by linarith)
      have b2 := scaled_lt (a := Complex.arg ⟨x, y⟩) (b := -(1 / 2)) (by linarith)
      rw [octant_lo a2]
      exact near_between (k := 3) (by push_cast; linarith) (by push_cast; linarith) (by decide) (by decide)
    · -- west
      have a1 : Complex.arg ⟨x, y⟩ = Real.pi := Complex.arg_eq_pi_iff.mpr ⟨hx, hy⟩
      rw [if_neg (by intro h; linarith [h.1]), if_neg (by intro h; linarith [h.1]), if_neg (by intro h; linarith [h.2]),
        if_neg (by intro h; linarith [h.2]), if_neg (by linarith), if_pos hx]
      rw [near_axis (k := 6) (by rw [octant_hi (by rw [a1]; linarith), a1, mul_comm, mul_div_assoc, div_self hp.ne']; norm_num) (by decide)]
      decide
    · -- south west
      have a1 : Real.pi / 2 < Complex.arg ⟨x, y⟩ := by
        by_contra hn
        have := Complex.arg_le_pi_div_two_iff.mp (not_lt.mp hn)
        rcases this with h | h
        · exact absurd h (not_le.mpr hx)
        · exact absurd h (not_lt.mpr hy.le)
      have a2 : Complex.arg ⟨x, y⟩ < Real.pi := Complex.arg_lt_pi_iff.mpr (Or.inr hy.ne')
      rw [if_neg (by intro h; linarith [h.1]), if_neg (by intro h; linarith [h.1]), if_pos ⟨hx, hy⟩]
      have b1 := scaled_gt (a := Complex.arg ⟨x, y⟩) (b := 1 / 2) (by linarith)
      have b2 := scaled_lt (a := Complex.arg ⟨x, y⟩) (b := 1) (by linarith)
      rw [octant_hi (by linarith)]
      exact near_between (k := 2) (by push_cast; linarith) (by push_cast; linarith) (by decide) (by decide)
    · -- north
      have a1 : Complex.arg ⟨x, y⟩ = -(Real.pi / 2) := Complex.arg_eq_neg_pi_div_two_iff.mpr ⟨hx, hy⟩
      rw [if_neg (by intro h; linarith [h.1]), if_neg (by intro h; linarith [h.1]), if_neg (by intro h; linarith [h.2]),
        if_neg (by intro h; linarith [h.1]), if_neg (by linarith), if_neg (by linarith), if_neg (by linarith), if_pos hy]
      rw [near_axis (k := 0) (by rw [octant_hi (by rw [a1]), a1]; field_simp; norm_num) (by decide)]
      decide
    · exact absurd ⟨hx, hy⟩ h0
    · -- south
      have a1 : Complex.arg ⟨x, y⟩ = Real.pi / 2 := Complex.arg_eq_pi_div_two_iff.mpr ⟨hx, hy⟩
      rw [if_neg (by intro h; linarith [h.1]), if_neg (by intro h; linarith [h.1]), if_neg (by intro h; linarith [h.1]),
        if_neg (by intro h; linarith [h.1]), if_neg (by linarith), if_neg (by linarith), if_pos hy]
      rw [near_axis (k := 4) (by rw [octant_hi (by rw [a1]; linarith), a1]; field_simp; norm_num) (by decide)]
      decide
    · -- north east
      have a1 : Complex.arg ⟨x, y⟩ < 0 := Complex.arg_neg_iff.mpr hy
      have a2 : -(Real.pi / 2) < Complex.arg ⟨x, y⟩ := (abs_lt.mp (Complex.abs_arg_lt_pi_div_two_iff.mpr (Or.inl hx))).1
      rw [if_neg (by intro h; linarith [h.2]), if_pos ⟨hx, hy⟩]
      have b1 := scaled_gt (a := Complex.arg ⟨x, y⟩) (b := -(1 / 2)) (by linarith)
      have b2 := scaled_lt (a := Complex.arg ⟨x, y⟩) (b := 0) (by linarith)
      rw [octant_hi a2.le]
      exact near_between (k := 0) (by push_cast; linarith) (by push_cast; linarith) (by decide) (by decide)
    · -- east
      have a1 : Complex.arg ⟨x, y⟩ = 0 := Complex.arg_eq_zero_iff.mpr ⟨hx.le, hy⟩
      rw [if_neg (by intro h; linarith [h.2]), if_neg (by intro h; linarith [h.2]), if_neg (by intro h; linarith [h.1]),
        if_neg (by intro h; linarith [h.1]), if_pos hx]
      rw [near_axis (k := 2) (by rw [octant_hi (by rw [a1]; linarith), a1]; norm_num) (by decide)]
      decide
    · -- south east
      have a1 : 0 < Complex.arg ⟨x, y⟩ := by
        rcases lt_or_eq_of_le (Complex.arg_nonneg_iff.mpr (show 0 ≤ (⟨x, y⟩ : ℂ).im from hy.le)) with h | h
        · exact h
        · exact absurd (Complex.arg_eq_zero_iff.mp h.symm).2 hy.ne'
      have a2 : Complex.arg ⟨x, y⟩ < Real.pi / 2 := (abs_lt.mp (Complex.abs_arg_lt_pi_div_two_iff.mpr (Or.inl hx))).2
      rw [if_pos ⟨hx, hy⟩]
      have b1 := scaled_gt (a := Complex.arg ⟨x, y⟩) (b := 0) (by linarith)
      have b2 := scaled_lt (a := Complex.arg ⟨x, y⟩) (b := 1 / 2) (by linarith)
      rw [octant_hi (by linarith)]
      exact near_between (k := 1) (by push_cast; linarith) (by push_cast; linarith) (by decide) (by decide)

theorem mul_neg_pos {k : ℝ} (hk : 0 < k) (z : ℝ) : k * z < 0 ↔ z < 0 := by
  constructor
  · intro h
    by_contra hn
    have := mul_nonneg hk.le (not_lt.mp hn)
    linarith
  · exact fun h => mul_neg_of_pos_of_neg hk h

theorem mask_scaled {x y k : ℝ} (hk : 0 < k) : mask (k * x) (k * y) = mask x y := by
  have p : ∀ z : ℝ, (k * z > 0) = (z > 0) := fun z => propext (mul_pos_iff_of_pos_left hk)
  have n : ∀ z : ℝ, (k * z < 0) = (z < 0) := fun z => propext (mul_neg_pos hk z)
  unfold mask
  simp only [p, n]

theorem mask_back {x y k : ℝ} (hk : 0 < k) (h0 : ¬ (x = 0 ∧ y = 0)) : mask x y &&& mask (-(k * x)) (-(k * y)) = 0 := by
  have p : ∀ z : ℝ, (-(k * z) > 0) = (z < 0) := fun z => propext (by
    rw [gt_iff_lt, neg_pos]; exact mul_neg_pos hk z)
  have n : ∀ z : ℝ, (-(k * z) < 0) = (z > 0) := fun z => propext (by
    rw [neg_lt_zero]; exact mul_pos_iff_of_pos_left hk)
  unfold mask
  simp only [p, n]
  rcases lt_trichotomy x 0 with hx | hx | hx <;> rcases lt_trichotomy y 0 with hy | hy | hy
  · simp [hx, hy, not_lt.mpr hx.le, not_lt.mpr hy.le]
  · subst hy; simp [hx, not_lt.mpr hx.le]
  · simp [hx, hy, not_lt.mpr hx.le, not_lt.mpr hy.le]
  · subst hx; simp [hy, not_lt.mpr hy.le]
  · exact absurd ⟨hx, hy⟩ h0
  · subst hx; simp [hy, not_lt.mpr hy.le]
  · simp [hx, hy, not_lt.mpr hx.le, not_lt.mpr hy.le]
  · subst hy; simp [hx, not_lt.mpr hx.le]
  · simp [hx, hy, not_lt.mpr hx.le, not_lt.mpr hy.le]

theorem direction_ne_zero (d : V) : direction d ≠ 0 := by
  unfold direction
  by_cases hs : |d.x| < 2 ∧ |d.y| < 2
  · rw [small_mask hs]
    unfold mask
    repeat' split
    all_goals decide
  · rw [large_near hs]; exact near_ne_zero _

end Libinput.Accel
