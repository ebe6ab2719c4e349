import Verif.Accel.Track
import Mathlib.Tactic.FieldSimp
import Mathlib.Tactic.Positivity
/-
The profiles rise with the velocity and with the speed setting, and keep to their limits.
-/
namespace Libinput.Accel

/-- The double incline of mice. -/
noncomputable def incl (T c x : ℝ) : ℝ :=
  if us2ms x < 0.07 then 10 * us2ms x + 0.3 else if x < T then 1 else c * us2ms (x - T) + 1

theorem incl_mono {T T' c c' x x' : ℝ} (hT : T' ≤ T) (hc0 : 0 ≤ c) (hc : c ≤ c') (hx : x ≤ x') : incl T c x ≤ incl T' c' x' := by
  unfold incl us2ms
  by_cases h1 : x' * 1000 < 0.07
  · rw [if_pos h1, if_pos (by linarith)]; linarith
  · rw [if_neg h1]
    have hone : 1 ≤ if x' < T' then 1 else c' * ((x' - T') * 1000) + 1 := by
      split
      · exact le_refl _
      · have : 0 ≤ c' * ((x' - T') * 1000) := mul_nonneg (by linarith) (by linarith)
        linarith
    by_cases h2 : x * 1000 < 0.07
    · rw [if_pos h2]; linarith
    · rw [if_neg h2]
      by_cases h3 : x < T
      · rw [if_pos h3]; exact hone
      · rw [if_neg h3, if_neg (by linarith)]
        have : c * ((x - T) * 1000) ≤ c' * ((x' - T') * 1000) :=
          mul_le_mul hc (by linarith) (by linarith) (by linarith)
        linarith

theorem incl_zero {T c : ℝ} : incl T c 0 = 0.3 := by unfold incl us2ms; norm_num

/-- The settings of mice. -/
noncomputable def thr (s : ℝ) : ℝ := if ms2us 0.4 - ms2us 0.25 * s < ms2us 0.2 then ms2us 0.2 else ms2us 0.4 - ms2us 0.25 * s

theorem thr_mono {s s' : ℝ} (h : s ≤ s') : thr s' ≤ thr s := by
  unfold thr ms2us; split <;> split <;> linarith

theorem thr_pos (s : ℝ) : 0 < thr s := by
  unfold thr ms2us; split
  · norm_num
  · linarith

/-- Simpson's rule averages. -/
theorem simpsons_mono {P Q : ℝ → ℝ} {v v' l l' : ℝ} (h : ∀ a b, 0 ≤ a → a ≤ b → P a ≤ Q b) (h1 : 0 ≤ v) (h2 : v ≤ v') (h3 : 0 ≤ l)
    (h4 : l ≤ l') : simpsons P v l ≤ simpsons Q v' l' := by
  unfold simpsons
  have a1 := h v v' h1 h2
  have a2 := h l l' h3 h4
  have a3 := h ((l + v) / 2) ((l' + v') / 2) (by linarith) (by linarith)
  linarith

theorem simpsons_ge {P : ℝ → ℝ} {v l lo : ℝ} (h : ∀ a, 0 ≤ a → lo ≤ P a) (h1 : 0 ≤ v) (h3 : 0 ≤ l) : lo ≤ simpsons P v l := by
  unfold simpsons
  have a1 := h v h1
  have a2 := h l h3
  have a3 := h ((l + v) / 2) (by linarith)
  linarith

theorem simpsons_le {P : ℝ → ℝ} {v l hi : ℝ} (h : ∀ a, 0 ≤ a → P a ≤ hi) (h1 : 0 ≤ v) (h3 : 0 ≤ l) : simpsons P v l ≤ hi := by
  unfold simpsons
  have a1 := h v h1
  have a2 := h l h3
  have a3 := h ((l + v) / 2) (by linarith)
  linarith

theorem simpsons_const {P : ℝ → ℝ} {v : ℝ} : simpsons P v v = P v := by
  unfold simpsons
  rw [show (v + v) / 2 = v by ring]
  ring

/-! ### Mice -/

theorem profileMouse_eq (p : Pointer) (x : ℝ) : profileMouse p x = min p.accel (incl p.threshold p.incline (x * 1000 / p.dpi)) := by
  unfold profileMouse incl defaultMouseDpi
  norm_num

theorem profileLowDpi_eq (p : Pointer) (x : ℝ) :
    profileLowDpi p x = min (p.accel / (p.dpi / 1000)) (incl (p.threshold * (p.dpi / 1000)) p.incline x) := by
  unfold profileLowDpi incl defaultMouseDpi
  norm_num

theorem profileMouse_mono {p q : Pointer} (hd : p.dpi = q.dpi) (ha : p.accel ≤ q.accel) (ht : q.threshold ≤ p.threshold)
    (h0 : 0 ≤ p.incline) (hi : p.incline ≤ q.incline) {x y : ℝ} (hx : x ≤ y) : profileMouse p x ≤ profileMouse q y := by
  rw [profileMouse_eq, profileMouse_eq]
  refine min_le_min ha (incl_mono ht h0 hi ?_)
  rw [hd]; gcongr

theorem profileLowDpi_mono {p q : Pointer} (hd : p.dpi = q.dpi) (ha : p.accel ≤ q.accel) (ht : q.threshold ≤ p.threshold)
    (h0 : 0 ≤ p.incline) (hi : p.incline ≤ q.incline) {x y : ℝ} (hx : x ≤ y) : profileLowDpi p x ≤ profileLowDpi q y := by
  rw [profileLowDpi_eq, profileLowDpi_eq]
  refine min_le_min ?_ (incl_mono ?_ h0 hi hx)
  · rw [hd]; gcongr
  · rw [hd]; gcongr

/-! ### The x230 -/

theorem profileX230_mono {p q : Pointer} (ha : p.accel ≤ q.accel) (ht : q.threshold ≤ p.threshold)
    (h0 : 0 ≤ p.incline) (hi : p.incline ≤ q.incline) {x y : ℝ} (hx : x ≤ y) : profileX230 p x ≤ profileX230 q y := by
  unfold profileX230 us2ms
  have h1 : min 1 (x * (0.4 / 4) * 1000 * 5) ≤ min 1 (y * (0.4 / 4) * 1000 * 5) := min_le_min (le_refl _) (by linarith)
  have h2 : ∀ z : ℝ, min 1 (z * (0.4 / 4) * 1000 * 5) ≤ 1 := fun z => min_le_left _ _
  have key : (if 1 + (x * (0.4 / 4) * 1000 - p.threshold / 4 * 1000) * (p.incline * 4) > 1 then
        1 + (x * (0.4 / 4) * 1000 - p.threshold / 4 * 1000) * (p.incline * 4) else min 1 (x * (0.4 / 4) * 1000 * 5)) ≤
      (if 1 + (y * (0.4 / 4) * 1000 - q.threshold / 4 * 1000) * (q.incline * 4) > 1 then
        1 + (y * (0.4 / 4) * 1000 - q.threshold / 4 * 1000) * (q.incline * 4) else min 1 (y * (0.4 / 4) * 1000 * 5)) := by
    have hle : 1 + (x * (0.4 / 4) * 1000 - p.threshold / 4 * 1000) * (p.incline * 4) > 1 →
        (x * (0.4 / 4) * 1000 - p.threshold / 4 * 1000) * (p.incline * 4) ≤ (y * (0.4 / 4) * 1000 - q.threshold / 4 * 1000) * (q.incline * 4) := by
      intro hgt
      have hpos : 0 < x * (0.4 / 4) * 1000 - p.threshold / 4 * 1000 := by
        by_contra hn
        have : (x * (0.4 / 4) * 1000 - p.threshold / 4 * 1000) * (p.incline * 4) ≤ 0 :=
          mul_nonpos_of_nonpos_of_nonneg (not_lt.mp hn) (by linarith)
        linarith
      exact mul_le_mul (by linarith) (by linarith) (by linarith) (by linarith)
    split
    · rename_i hgt
      have := hle hgt
      rw [if_pos (by linarith)]
      linarith
    · split
      · rename_i hgt
        have := h2 x
        linarith
      · exact h1
  have := min_le_min (mul_le_mul_of_nonneg_right ha (by norm_num : (0 : ℝ) ≤ 4)) key
  simp only
  linarith

theorem profileX230_le (p : Pointer) (x : ℝ) : profileX230 p x ≤ p.accel * 0.4 := by
  unfold profileX230
  simp only
  have := min_le_left (p.accel * 4) (if 1 + (us2ms (x * (0.4 / 4)) - us2ms (p.threshold / 4)) * (p.incline * 4) > 1 then
    1 + (us2ms (x * (0.4 / 4)) - us2ms (p.threshold / 4)) * (p.incline * 4) else min 1 (us2ms (x * (0.4 / 4)) * 5))
  linarith

theorem profileX230_zero {p : Pointer} (ht : 0 < p.threshold) (hi : 0 ≤ p.incline) (ha : 0 ≤ p.accel) : profileX230 p 0 = 0 := by
  unfold profileX230 us2ms
  simp only
  rw [if_neg]
  · rw [min_eq_right (b := (0 : ℝ) * (0.4 / 4) * 1000 * 5) (by norm_num), min_eq_right (by linarith)]
    norm_num
  · have : (0 * (0.4 / 4) * 1000 - p.threshold / 4 * 1000) * (p.incline * 4) ≤ 0 :=
      mul_nonpos_of_nonpos_of_nonneg (by linarith) (by linarith)
    linarith

/-! ### Touchpads -/

/-- The double incline of touchpads; mm/s. -/
noncomputable def tpIncl (x : ℝ) : ℝ :=
  if x < 7 then min 0.9 (0.1 * x + 0.3) else if x < 130 then 0.9
  else 0.0025 * (min x 520 / 130) * (min x 520 - 130) + 0.9

theorem profileTouchpad_eq {p : Touchpad} (ht : p.threshold = 130) (x : ℝ) :
    profileTouchpad p x = tpIncl (us2s x * 25.4 / p.dpi) * p.speedFactor * 0.2968 := by
  unfold profileTouchpad tpIncl
  rw [ht]
  norm_num

theorem tpIncl_mono {x y : ℝ} (hx : x ≤ y) : tpIncl x ≤ tpIncl y := by
  have hmin : min x 520 ≤ min y 520 := min_le_min hx (le_refl _)
  have hn : ∀ z : ℝ, 130 ≤ z → 130 ≤ min z 520 := fun z hz => le_min hz (by norm_num)
  have hp : ∀ z : ℝ, 130 ≤ z → 0 ≤ 0.0025 * (min z 520 / 130) * (min z 520 - 130) := fun z hz => by
    have := hn z hz
    exact mul_nonneg (by linarith) (by linarith)
  unfold tpIncl
  split
  · split
    · exact min_le_min (le_refl _) (by linarith)
    · have h9 : min 0.9 (0.1 * x + 0.3) ≤ 0.9 := min_le_left _ _
      split
      · exact h9
      · have := hp y (by linarith)
        linarith
  · rename_i h7
    rw [if_neg (show ¬ y < 7 by linarith)]
    by_cases h8 : x < 130
    · rw [if_pos h8]
      split
      · exact le_refl _
      · have := hp y (by linarith)
        linarith
    · rw [if_neg h8, if_neg (show ¬ y < 130 by linarith)]
      have h1 := hn x (by linarith)
      have : 0.0025 * (min x 520 / 130) * (min x 520 - 130) ≤ 0.0025 * (min y 520 / 130) * (min y 520 - 130) :=
        mul_le_mul (by linarith) (by linarith) (by linarith) (by linarith)
      linarith

theorem tpIncl_zero : tpIncl 0 = 0.3 := by unfold tpIncl; norm_num

theorem tpIncl_le (x : ℝ) : tpIncl x ≤ 4.8 := by
  refine le_trans (tpIncl_mono (y := max x 520) (le_max_left _ _)) ?_
  have h5 : (520 : ℝ) ≤ max x 520 := le_max_right _ _
  unfold tpIncl
  rw [if_neg (by linarith), if_neg (by linarith), min_eq_right h5]
  norm_num

/-! ### The speed setting of touchpads and trackpoints -/

theorem rpow_rises {a b e : ℝ} (ha : 0 ≤ a) (h : a < b) (he : 0 < e) : a ^ e < b ^ e := Real.rpow_lt_rpow ha h he

theorem speedFactor_eq (s : ℝ) :
    speedFactor s = 0.04762636 + (435837.2 - 0.04762636) * (1 - 1 / (1 + ((s + 1) / 240.4549) ^ (2.377168 : ℝ))) := by
  unfold speedFactor
  ring

theorem pow_pos_one {a e : ℝ} (ha : 0 ≤ a) : 0 < 1 + a ^ e := by
  have := Real.rpow_nonneg ha e
  linarith

theorem speedFactor_rises {a b : ℝ} (ha : -1 ≤ a) (h : a < b) : speedFactor a < speedFactor b := by
  rw [speedFactor_eq a, speedFactor_eq b]
  have h0 : 0 ≤ (a + 1) / 240.4549 := div_nonneg (by linarith) (by norm_num)
  have h1 : (a + 1) / 240.4549 < (b + 1) / 240.4549 := by gcongr
  have h2 := rpow_rises h0 h1 (by norm_num : (0 : ℝ) < 2.377168)
  have h3 := pow_pos_one (e := 2.377168) h0
  have h4 := one_div_lt_one_div_of_lt h3 (add_lt_add_of_le_of_lt (le_refl (1 : ℝ)) h2)
  have h5 : (0 : ℝ) < 435837.2 - 0.04762636 := by norm_num
  have := mul_lt_mul_of_pos_left (a := 435837.2 - 0.04762636) (sub_lt_sub_left h4 1) h5
  linarith

theorem speedFactor_slow : speedFactor (-1) = 0.04762636 := by
  unfold speedFactor
  simp only
  rw [show (-1 : ℝ) + 1 = 0 by ring, zero_div, Real.zero_rpow (by norm_num)]
  norm_num

theorem speedFactor_pos {s : ℝ} (h : -1 ≤ s) : 0 < speedFactor s := by
  rcases eq_or_lt_of_le h with h | h
  · rw [← h, speedFactor_slow]; norm_num
  · have := speedFactor_rises (le_refl _) h
    rw [speedFactor_slow] at this
    linarith

/-- Bounds of a power with the exponent 2.377168: between the exponents 119/50 and 19/8 of a base below 1. -/
theorem pow_bounds {x lo hi : ℝ} (h0 : 0 < x) (h1 : x ≤ 1) (hlo : 0 ≤ lo) (hl : lo ^ 50 < x ^ 119) (hhi : 0 ≤ hi) (hh : x ^ 19 < hi ^ 8) :
    lo < x ^ (2.377168 : ℝ) ∧ x ^ (2.377168 : ℝ) < hi := by
  constructor
  · have a1 : x ^ ((119 : ℝ) / 50) ≤ x ^ (2.377168 : ℝ) := Real.rpow_le_rpow_of_exponent_ge h0 h1 (by norm_num)
    refine lt_of_lt_of_le ?_ a1
    have a2 : (x ^ ((119 : ℝ) / 50)) ^ (50 : ℕ) = x ^ (119 : ℕ) := by
      rw [← Real.rpow_natCast, ← Real.rpow_mul h0.le, ← Real.rpow_natCast]; norm_num
    by_contra hn
    have := pow_le_pow_left₀ (Real.rpow_nonneg h0.le _) (not_lt.mp hn) 50
    rw [a2] at this
    linarith
  · have a1 : x ^ (2.377168 : ℝ) ≤ x ^ ((19 : ℝ) / 8) := Real.rpow_le_rpow_of_exponent_ge h0 h1 (by norm_num)
    refine lt_of_le_of_lt a1 ?_
    have a2 : (x ^ ((19 : ℝ) / 8)) ^ (8 : ℕ) = x ^ (19 : ℕ) := by
      rw [← Real.rpow_natCast, ← Real.rpow_mul h0.le, ← Real.rpow_natCast]; norm_num
    by_contra hn
    have := pow_le_pow_left₀ hhi (not_lt.mp hn) 8
    rw [a2] at this
    linarith

theorem speedFactor_bounds {s lo hi : ℝ} (hs : -1 < s) (h1 : (s + 1) / 240.4549 ≤ 1) (hlo : 0 ≤ lo) (hl : lo ^ 50 < ((s + 1) / 240.4549) ^ 119)
    (hhi : 0 ≤ hi) (hh : ((s + 1) / 240.4549) ^ 19 < hi ^ 8) :
    435837.2 + (0.04762636 - 435837.2) / (1 + lo) < speedFactor s ∧ speedFactor s < 435837.2 + (0.04762636 - 435837.2) / (1 + hi) := by
  have h0 : 0 < (s + 1) / 240.4549 := div_pos (by linarith) (by norm_num)
  obtain ⟨b1, b2⟩ := pow_bounds h0 h1 hlo hl hhi hh
  have key : ∀ a b : ℝ, 0 ≤ a → a < b → 435837.2 + (0.04762636 - 435837.2) / (1 + a) < 435837.2 + (0.04762636 - 435837.2) / (1 + b) := by
    intro a b ha hab
    have h4 := one_div_lt_one_div_of_lt (by linarith : 0 < 1 + a) (by linarith : 1 + a < 1 + b)
    have h5 : (0 : ℝ) < 435837.2 - 0.04762636 := by norm_num
    have := mul_lt_mul_of_pos_left h4 h5
    have e : ∀ z : ℝ, (0.04762636 - 435837.2) / z = - ((435837.2 - 0.04762636) * (1 / z)) := fun z => by ring
    rw [e, e]
    linarith
  exact ⟨key _ _ hlo b1, key _ _ (by linarith) b2⟩

theorem speedFactor_middle : 0.98 < speedFactor 0 ∧ speedFactor 0 < 1.02 := by
  obtain ⟨a, b⟩ := speedFactor_bounds (s := 0) (lo := 0.00000215) (hi := 0.00000222) (by norm_num) (by norm_num) (by norm_num) (by norm_num)
    (by norm_num) (by norm_num)
  exact ⟨lt_trans (by norm_num) a, lt_trans b (by norm_num)⟩

theorem speedFactor_fast : 4.9 < speedFactor 1 ∧ speedFactor 1 < 5.1 := by
  obtain ⟨a, b⟩ := speedFactor_bounds (s := 1) (lo := 0.0000112) (hi := 0.0000115) (by norm_num) (by norm_num) (by norm_num) (by norm_num)
    (by norm_num) (by norm_num)
  exact ⟨lt_trans (by norm_num) a, lt_trans b (by norm_num)⟩

theorem speedFactor_curve : IsCurve speedFactor :=
  ⟨speedFactor_slow, speedFactor_middle, speedFactor_fast, fun _ _ ha h => speedFactor_rises ha h⟩

theorem speedFactor_mono {a b : ℝ} (ha : -1 ≤ a) (h : a ≤ b) : speedFactor a ≤ speedFactor b := by
  rcases eq_or_lt_of_le h with h | h
  · rw [h]
  · exact (speedFactor_rises ha h).le

/-! ### Trackpoints -/

/-- The curve of trackpoints. -/
noncomputable def stick (v : ℝ) : ℝ := 10.06254 + (0.3 - 10.06254) / (1 + (us2ms v / 0.9205459) ^ (1.15363 : ℝ))

theorem profileTrackpoint_eq (p : Trackpoint) (v : ℝ) : profileTrackpoint p v = stick v * p.speedFactor := rfl

theorem stick_mono {v w : ℝ} (h0 : 0 ≤ v) (h : v ≤ w) : stick v ≤ stick w := by
  unfold stick us2ms
  have a0 : 0 ≤ v * 1000 / 0.9205459 := div_nonneg (by linarith) (by norm_num)
  have a1 : v * 1000 / 0.9205459 ≤ w * 1000 / 0.9205459 := by gcongr
  have a2 := Real.rpow_le_rpow a0 a1 (by norm_num : (0 : ℝ) ≤ 1.15363)
  have a3 := pow_pos_one (e := 1.15363) a0
  have a4 := one_div_le_one_div_of_le a3 (add_le_add_right a2 1)
  have e : ∀ z : ℝ, (0.3 - 10.06254) / z = - ((10.06254 - 0.3) * (1 / z)) := fun z => by ring
  rw [e, e]
  have h5 : (0 : ℝ) ≤ 10.06254 - 0.3 := by norm_num
  have := mul_le_mul_of_nonneg_left a4 h5
  linarith

theorem stick_zero : stick 0 = 0.3 := by
  unfold stick us2ms
  rw [zero_mul, zero_div, Real.zero_rpow (by norm_num)]
  norm_num

theorem stick_le {v : ℝ} (h0 : 0 ≤ v) : stick v ≤ 10.06254 := by
  unfold stick us2ms
  have a0 : 0 ≤ v * 1000 / 0.9205459 := div_nonneg (by linarith) (by norm_num)
  have a3 := pow_pos_one (e := 1.15363) a0
  have : (0.3 - 10.06254) / (1 + (v * 1000 / 0.9205459) ^ (1.15363 : ℝ)) ≤ 0 := div_nonpos_of_nonpos_of_nonneg (by norm_num) a3.le
  linarith

end Libinput.Accel
