import Verif.Accel.State
/-
The factor rises with the speed setting and the velocities, and keeps to its limits.
-/
namespace Libinput.Accel

theorem incline_nonneg {s : ℝ} (h : IsSpeed s) : 0 ≤ 1.1 + s * 0.75 := by have := h.1; linarith

theorem profile_mono (hw : Hw) {s s' v v' : ℝ} (hs : IsSpeed s) (hs' : IsSpeed s') (h : s ≤ s') (hv : 0 ≤ v) (hvv : v ≤ v') :
    hw.profile s v ≤ hw.profile s' v' := by
  unfold Hw.profile
  have hi := incline_nonneg hs
  cases hw.kind with
  | mouse => 
    refine profileMouse_mono ?_ ?_ ?_ ?_ ?_ hvv
    · rfl
    · dsimp only; linarith
    · exact thr_mono h
    · exact hi
    · dsimp only; linarith
  | lowDpi => 
    refine profileLowDpi_mono ?_ ?_ ?_ ?_ ?_ hvv
    · rfl
    · dsimp only; linarith
    · exact thr_mono h
    · exact hi
    · dsimp only; linarith
  | x230 => exact profileX230_mono (by dsimp only; linarith) (thr_mono h) hi (by dsimp only; linarith) hvv
  | touchpad b =>
    dsimp only
    rw [profileTouchpad_eq rfl, profileTouchpad_eq rfl]
    dsimp only
    have h1 : tpIncl (us2s v * 25.4 / hw.dpi) ≤ tpIncl (us2s v' * 25.4 / hw.dpi) := tpIncl_mono (by unfold us2s; gcongr)
    have h0 : 0.3 ≤ tpIncl (us2s v * 25.4 / hw.dpi) := by
      rw [← tpIncl_zero]; exact tpIncl_mono (by unfold us2s; positivity)
    have h2 := speedFactor_mono hs.1 h
    have h3 := speedFactor_pos hs.1
    have := mul_le_mul h1 h2 h3.le (by linarith)
    linarith
  | trackpoint =>
    dsimp only
    rw [profileTrackpoint_eq, profileTrackpoint_eq]
    dsimp only
    have h1 := stick_mono hv hvv
    have h0 : 0.3 ≤ stick v := by rw [← stick_zero]; exact stick_mono (le_refl _) hv
    exact mul_le_mul h1 (speedFactor_mono hs.1 h) (speedFactor_pos hs.1).le (by linarith)
  | flat => exact max_le_max (le_refl _) (by linarith)
  | touchpadFlat => exact mul_le_mul_of_nonneg_left (max_le_max (le_refl _) (by linarith)) (by norm_num)
  | tablet => dsimp only; linarith

theorem profile_zero (hw : Hw) (hv : hw.Valid) {s : ℝ} (hs : IsSpeed s) : hw.profile s 0 = hw.lowest speedFactor s := by
  have hd : (0 : ℝ) < hw.dpi := by exact_mod_cast hv.dpi
  unfold Hw.profile Hw.lowest
  have hi := incline_nonneg hs
  have h1 := hs.1
  cases hkd : hw.kind with
  | mouse =>
    dsimp only
    rw [profileMouse_eq, zero_mul, zero_div, incl_zero, min_eq_right]
    dsimp only; linarith
  | lowDpi =>
    dsimp only
    rw [profileLowDpi_eq, incl_zero, min_eq_right]
    dsimp only
    have hlow : (hw.dpi : ℝ) < 1000 := by exact_mod_cast hv.low hkd
    rw [le_div_iff₀ (by positivity)]
    have : 0.3 * ((hw.dpi : ℝ) / 1000) ≤ 0.3 := by
      have : (hw.dpi : ℝ) / 1000 ≤ 1 := by rw [div_le_one (by norm_num)]; exact hlow.le
      linarith
    linarith
  | x230 => exact profileX230_zero (thr_pos s) hi (by dsimp only; linarith)
  | touchpad b =>
    dsimp only
    rw [profileTouchpad_eq rfl]
    dsimp only
    unfold us2s
    rw [zero_mul, zero_mul, zero_div, tpIncl_zero]
  | trackpoint =>
    dsimp only
    rw [profileTrackpoint_eq, stick_zero]
  | flat => rfl
  | touchpadFlat => rfl
  | tablet => rfl

theorem profile_le (hw : Hw) {s v : ℝ} (hs : IsSpeed s) (hv : 0 ≤ v) : hw.profile s v ≤ hw.highest speedFactor s := by
  unfold Hw.profile Hw.highest
  cases hw.kind with
  | mouse =>
    dsimp only
    rw [profileMouse_eq]
    refine le_trans (min_le_left _ _) ?_
    dsimp only; linarith
  | lowDpi =>
    dsimp only
    rw [profileLowDpi_eq]
    refine le_trans (min_le_left _ _) (le_of_eq ?_)
    dsimp only
    rw [div_div_eq_mul_div]; ring
  | x230 =>
    refine le_trans (profileX230_le _ _) ?_
    dsimp only; linarith
  | touchpad b =>
    dsimp only
    rw [profileTouchpad_eq rfl]
    dsimp only
    have := mul_le_mul_of_nonneg_right (tpIncl_le (us2s v * 25.4 / hw.dpi)) (speedFactor_pos hs.1).le
    linarith
  | trackpoint =>
    dsimp only
    rw [profileTrackpoint_eq]
    exact mul_le_mul_of_nonneg_right (stick_le hv) (speedFactor_pos hs.1).le
  | flat => exact le_refl _
  | touchpadFlat => exact le_refl _
  | tablet => exact le_refl _

theorem profile_ge (hw : Hw) (hv : hw.Valid) {s v : ℝ} (hs : IsSpeed s) (h0 : 0 ≤ v) : hw.lowest speedFactor s ≤ hw.profile s v := by
  rw [← profile_zero hw hv hs]; exact profile_mono hw hs hs (le_refl _) (le_refl _) h0

theorem factor_rising (hw : Hw) : Rising hw.factor := by
  refine ⟨fun s s' v v' l l' hs hs' h hv hvv hl hll => ?_⟩
  have hsm := simpsons_mono (P := hw.profile s) (Q := hw.profile s') (fun a b h0 hab => profile_mono hw hs hs' h h0 hab) hv hvv hl hll
  unfold Hw.factor
  split
  · exact profile_mono hw hs hs' h hv hvv
  · exact hsm

theorem factor_ge (hw : Hw) (hv : hw.Valid) {s v l : ℝ} (hs : IsSpeed s) (h0 : 0 ≤ v) (hl : 0 ≤ l) : hw.lowest speedFactor s ≤ hw.factor s v l := by
  have := simpsons_ge (P := hw.profile s) (fun a ha => profile_ge hw hv hs ha) h0 hl
  unfold Hw.factor
  split
  · exact profile_ge hw hv hs h0
  · exact this

theorem factor_le (hw : Hw) {s v l : ℝ} (hs : IsSpeed s) (h0 : 0 ≤ v) (hl : 0 ≤ l) : hw.factor s v l ≤ hw.highest speedFactor s := by
  have := simpsons_le (P := hw.profile s) (fun a ha => profile_le hw hs ha) h0 hl
  unfold Hw.factor
  split
  · exact profile_le hw hs h0
  · exact this

/-- At rest the factor is the lowest one. -/
theorem factor_zero (hw : Hw) (hv : hw.Valid) {s : ℝ} (hs : IsSpeed s) : hw.factor s 0 0 = hw.lowest speedFactor s := by
  unfold Hw.factor
  split
  · exact profile_zero hw hv hs
  · rw [simpsons_const]; exact profile_zero hw hv hs

theorem tpIncl_high {x : ℝ} (h : 520 ≤ x) : tpIncl x = 4.8 := by
  unfold tpIncl
  rw [if_neg (by linarith), if_neg (by linarith), min_eq_right h]
  norm_num

theorem incl_high {T c x M : ℝ} (hT : 0 < T) (hc : 0.35 ≤ c) (hM : 1 ≤ M) (hx : T + M ≤ x) : 350 * M + 1 ≤ incl T c x := by
  unfold incl us2ms
  rw [if_neg (by linarith), if_neg (by linarith)]
  have : 0.35 * (M * 1000) ≤ c * ((x - T) * 1000) := mul_le_mul hc (by linarith) (by linarith) (by linarith)
  linarith

/-- Fast enough, the profile is at its highest. -/
theorem profile_high (hw : Hw) (hv : hw.Valid) {s : ℝ} (hs : IsSpeed s) (hk : hw.kind ≠ .trackpoint) :
    ∃ V, 0 ≤ V ∧ ∀ v, V ≤ v → hw.profile s v = hw.highest speedFactor s := by
  have hd : (0 : ℝ) < hw.dpi := by exact_mod_cast hv.dpi
  have hd1 : (1 : ℝ) ≤ hw.dpi := by exact_mod_cast hv.dpi
  have hT := thr_pos s
  obtain ⟨hs1, hs2⟩ := hs
  unfold Hw.profile Hw.highest
  cases hkd : hw.kind with
  | mouse =>
    refine ⟨(thr s + 1) * hw.dpi / 1000, by positivity, fun v h => ?_⟩
    dsimp only
    rw [profileMouse_eq]
    have hx : thr s + 1 ≤ v * 1000 / hw.dpi := by rw [le_div_iff₀ hd]; linarith
    have := incl_high (c := 1.1 + s * 0.75) hT (by linarith) (le_refl 1) hx
    rw [min_eq_left (by dsimp only; linarith)]
    dsimp only; ring
  | lowDpi =>
    have hq : 0 < (hw.dpi : ℝ) / 1000 := by positivity
    refine ⟨thr s * (hw.dpi / 1000) + 10, by positivity, fun v h => ?_⟩
    dsimp only
    rw [profileLowDpi_eq]
    have := incl_high (c := 1.1 + s * 0.75) (mul_pos hT hq) (by linarith) (by norm_num : (1 : ℝ) ≤ 10) h
    have hle : (2 + s * 1.5) / ((hw.dpi : ℝ) / 1000) ≤ 3500 := by
      rw [div_le_iff₀ hq]; linarith
    rw [min_eq_left (by dsimp only; linarith)]
    dsimp only
    rw [div_div_eq_mul_div]; ring
  | x230 =>
    refine ⟨(250 * thr s + 10) / 100, by positivity, fun v h => ?_⟩
    unfold profileX230 us2ms
    dsimp only
    have h1 : 10 * (0.35 * 4) ≤ (v * (0.4 / 4) * 1000 - thr s / 4 * 1000) * ((1.1 + s * 0.75) * 4) :=
      mul_le_mul (by linarith) (by linarith) (by norm_num) (by linarith)
    rw [if_pos (by linarith), min_eq_left (by linarith)]
    ring
  | touchpad b =>
    refine ⟨520 * hw.dpi / 25.4 / 1000000, by positivity, fun v h => ?_⟩
    dsimp only
    rw [profileTouchpad_eq rfl, tpIncl_high]
    unfold us2s
    dsimp only
    rw [le_div_iff₀ hd]
    have := mul_le_mul_of_nonneg_right h (by norm_num : (0 : ℝ) ≤ 25400000)
    calc 520 * (hw.dpi : ℝ) = 520 * hw.dpi / 25.4 / 1000000 * 25400000 := by ring
      _ ≤ v * 25400000 := this
      _ = v * 1000000 * 25.4 := by ring
  | trackpoint => exact absurd hkd hk
  | flat => exact ⟨0, le_refl _, fun _ _ => rfl⟩
  | touchpadFlat => exact ⟨0, le_refl _, fun _ _ => rfl⟩
  | tablet => exact ⟨0, le_refl _, fun _ _ => rfl⟩

theorem factor_high (hw : Hw) (hv : hw.Valid) {s : ℝ} (hs : IsSpeed s) (hk : hw.kind ≠ .trackpoint) :
    ∃ V, 0 ≤ V ∧ ∀ v l, V ≤ v → V ≤ l → hw.factor s v l = hw.highest speedFactor s := by
  obtain ⟨V, h0, hV⟩ := profile_high hw hv hs hk
  refine ⟨V, h0, fun v l h1 h2 => ?_⟩
  have : hw.factor s v l = simpsons (hw.profile s) v l := by
    unfold Hw.factor
    split
    · rename_i h; exact absurd h hk
    · rfl
  rw [this]
  unfold simpsons
  rw [hV v h1, hV l h2, hV _ (by linarith)]
  ring

theorem incl_medium {T c x : ℝ} (h1 : 0.07 ≤ x * 1000) (h2 : x ≤ T) : incl T c x = 1 := by
  unfold incl us2ms
  rw [if_neg (by linarith)]
  rcases lt_or_eq_of_le h2 with h | h
  · rw [if_pos h]
  · rw [if_neg (by linarith), h]; ring

theorem thr_eq (s : ℝ) : thr s * 1000 = max 0.2 (0.4 - 0.25 * s) := by
  unfold thr ms2us
  split
  · rename_i h
    rw [max_eq_left (by linarith)]; norm_num
  · rename_i h
    rw [max_eq_right (by linarith)]; ring

theorem profile_medium (hw : Hw) (hv : hw.Valid) {s v : ℝ} (h : hw.medium s v) :
    hw.profile s v = hw.plain speedFactor s := by
  have hd : (0 : ℝ) < hw.dpi := by exact_mod_cast hv.dpi
  have ht := thr_eq s
  unfold Hw.medium at h
  unfold Hw.profile Hw.plain Hw.highest
  cases hkd : hw.kind with
  | mouse =>
    rw [hkd] at h
    dsimp only at h ⊢
    rw [← ht] at h
    have e : v * 1000 * (1000 / hw.dpi) = v * 1000 / hw.dpi * 1000 := by ring
    rw [e] at h
    rw [profileMouse_eq]
    dsimp only
    rw [incl_medium h.1 (by linarith [h.2]), min_comm]
    ring_nf
  | lowDpi =>
    rw [hkd] at h
    dsimp only at h ⊢
    rw [← ht] at h
    rw [profileLowDpi_eq]
    dsimp only
    have e : v ≤ thr s * (hw.dpi / 1000) := by
      have := mul_le_mul_of_nonneg_right h.2 hd.le
      rw [show v * 1000 * (1000 / (hw.dpi : ℝ)) * hw.dpi = v * 1000000 by field_simp; norm_num] at this
      linarith
    rw [incl_medium h.1 e, min_comm, div_div_eq_mul_div]
    ring_nf
  | touchpad b =>
    rw [hkd] at h
    dsimp only at h ⊢
    rw [profileTouchpad_eq rfl]
    dsimp only
    have e : us2s v * 25.4 / (hw.dpi : ℝ) = v * 1000000 / hw.dpi * 25.4 := by unfold us2s; ring
    rw [e]
    generalize v * 1000000 / (hw.dpi : ℝ) * 25.4 = x at h
    have : tpIncl x = 0.9 := by
      unfold tpIncl
      rw [if_neg (by linarith [h.1])]
      rcases lt_or_eq_of_le h.2 with h | h
      · rw [if_pos h]
      · rw [if_neg (by linarith), h, min_eq_left (by norm_num)]; norm_num
    rw [this]
  | _ => rw [hkd] at h; exact h.elim

theorem medium_mid (hw : Hw) {s v l : ℝ} (h1 : hw.medium s v) (h2 : hw.medium s l) : hw.medium s ((v + l) / 2) := by
  unfold Hw.medium at *
  cases hkd : hw.kind with
  | mouse =>
    rw [hkd] at h1 h2
    dsimp only at *
    rw [show (v + l) / 2 * 1000 * (1000 / (hw.dpi : ℝ)) = (v * 1000 * (1000 / hw.dpi) + l * 1000 * (1000 / hw.dpi)) / 2 by ring]
    constructor <;> linarith [h1.1, h1.2, h2.1, h2.2]
  | lowDpi =>
    rw [hkd] at h1 h2
    dsimp only at *
    rw [show (v + l) / 2 * 1000 * (1000 / (hw.dpi : ℝ)) = (v * 1000 * (1000 / hw.dpi) + l * 1000 * (1000 / hw.dpi)) / 2 by ring]
    constructor <;> linarith [h1.1, h1.2, h2.1, h2.2]
  | touchpad b =>
    rw [hkd] at h1 h2
    dsimp only at *
    rw [show (v + l) / 2 * 1000000 / (hw.dpi : ℝ) * 25.4 = (v * 1000000 / hw.dpi * 25.4 + l * 1000000 / hw.dpi * 25.4) / 2 by ring]
    constructor <;> linarith [h1.1, h1.2, h2.1, h2.2]
  | _ => rw [hkd] at h1; exact h1.elim

theorem factor_medium (hw : Hw) (hv : hw.Valid) {s v l : ℝ} (h1 : hw.medium s v) (h2 : hw.medium s l) :
    hw.factor s v l = hw.plain speedFactor s := by
  have : hw.factor s v l = simpsons (hw.profile s) v l := by
    unfold Hw.factor
    split
    · rename_i h; unfold Hw.medium at h1; rw [h] at h1; exact h1.elim
    · rfl
  rw [this]
  unfold simpsons
  rw [profile_medium hw hv h1, profile_medium hw hv h2, profile_medium hw hv (medium_mid hw h2 h1)]
  ring

end Libinput.Accel
