import Verif.Hysteresis.Model
/-
The hysteresis property: C32.
-/
namespace Libinput.Hysteresis

theorem trunc_near (v : ℝ) : |(trunc v : ℝ) - v| < 1 := by
  unfold trunc
  split
  · rw [abs_lt]
    have h1 := Int.floor_le v
    have h2 := Int.lt_floor_add_one v
    constructor <;> linarith
  · rw [abs_lt]
    have h1 := Int.le_ceil v
    have h2 := Int.ceil_lt_add_one v
    constructor <;> linarith

theorem trunc_le {v : ℝ} {n : Int} (h : v ≤ n) : trunc v ≤ n := by
  unfold trunc
  split
  · exact_mod_cast (Int.floor_le v).trans h
  · exact Int.ceil_le.2 h

theorem le_trunc {v : ℝ} {n : Int} (h : (n : ℝ) ≤ v) : n ≤ trunc v := by
  unfold trunc
  split
  · exact Int.le_floor.2 h
  · exact_mod_cast h.trans (Int.le_ceil v)

/-- The distance of the finger in units of the margin. -/
noncomputable def dist (dx dy a b : Int) : ℝ := Real.sqrt ((dx / a : ℝ) ^ 2 + (dy / b : ℝ) ^ 2)

theorem normalized_eq (dx dy a b : Int) :
    Real.sqrt (((dx * dx : Int) : ℝ) / ((a * a : Int) : ℝ) + ((dy * dy : Int) : ℝ) / ((b * b : Int) : ℝ))
      = dist dx dy a b := by
  unfold dist; congr 1; push_cast; ring

/-- The lag computed with the gradient is the finger's distance scaled down. -/
theorem lag_eq (dx dy : Int) (N : ℝ) (hN : 0 < N) :
    (if dx ≠ 0 then
        (Real.sqrt ((dx * dx + dy * dy : Int) : ℝ) / N / Real.sqrt ((dy : ℝ) / dx * ((dy : ℝ) / dx) + 1),
         Real.sqrt ((Real.sqrt ((dx * dx + dy * dy : Int) : ℝ) / N +
            Real.sqrt ((dx * dx + dy * dy : Int) : ℝ) / N / Real.sqrt ((dy : ℝ) / dx * ((dy : ℝ) / dx) + 1)) *
          (Real.sqrt ((dx * dx + dy * dy : Int) : ℝ) / N -
            Real.sqrt ((dx * dx + dy * dy : Int) : ℝ) / N / Real.sqrt ((dy : ℝ) / dx * ((dy : ℝ) / dx) + 1))))
      else ((0 : ℝ), Real.sqrt ((dx * dx + dy * dy : Int) : ℝ) / N)) = (|(dx : ℝ)| / N, |(dy : ℝ)| / N) := by
  by_cases h : dx = 0
  · subst h
    simp only [ne_eq, not_true_eq_false, if_false, Int.cast_zero, abs_zero, zero_div]
    congr 2
    rw [← Real.sqrt_mul_self_eq_abs]; congr 1; push_cast; ring
  · have hdx : (dx : ℝ) ≠ 0 := by exact_mod_cast h
    have hpos : 0 < |(dx : ℝ)| := abs_pos.2 hdx
    have hs : 0 < Real.sqrt ((dx * dx + dy * dy : Int) : ℝ) := by
      apply Real.sqrt_pos.2
      push_cast
      have := mul_self_pos.2 hdx
      have := mul_self_nonneg (dy : ℝ)
      linarith
    have hg : Real.sqrt ((dy : ℝ) / dx * ((dy : ℝ) / dx) + 1) =
        Real.sqrt ((dx * dx + dy * dy : Int) : ℝ) / |(dx : ℝ)| := by
      rw [eq_div_iff hpos.ne', ← Real.sqrt_mul_self_eq_abs, ← Real.sqrt_mul (by have := mul_self_nonneg ((dy : ℝ) / dx); linarith)]
      congr 1
      push_cast
      field_simp
      ring
    have hx : Real.sqrt ((dx * dx + dy * dy : Int) : ℝ) / N /
        Real.sqrt ((dy : ℝ) / dx * ((dy : ℝ) / dx) + 1) = |(dx : ℝ)| / N := by
      rw [hg]; field_simp
    rw [if_pos h, hx]
    congr 1
    have hsq : Real.sqrt ((dx * dx + dy * dy : Int) : ℝ) * Real.sqrt ((dx * dx + dy * dy : Int) : ℝ) =
        (dx : ℝ) * dx + dy * dy := by
      rw [Real.mul_self_sqrt]
      · push_cast; ring
      · push_cast; have := mul_self_nonneg (dx : ℝ); have := mul_self_nonneg (dy : ℝ); linarith
    have hab : |(dx : ℝ)| * |(dx : ℝ)| = (dx : ℝ) * dx := abs_mul_abs_self _
    rw [show (Real.sqrt ((dx * dx + dy * dy : Int) : ℝ) / N + |(dx : ℝ)| / N) *
        (Real.sqrt ((dx * dx + dy * dy : Int) : ℝ) / N - |(dx : ℝ)| / N) =
        ((dy : ℝ) / N) * ((dy : ℝ) / N) by
      field_simp
      nlinarith]
    rw [Real.sqrt_mul_self_eq_abs, abs_div, abs_of_pos hN]

theorem signed (d p : Int) (N : ℝ) (hN : 0 < N) :
    (if d ≥ 0 then (p : ℝ) - |(d : ℝ)| / N else (p : ℝ) + |(d : ℝ)| / N) = p - d / N := by
  split
  · rename_i h
    rw [abs_of_nonneg (by exact_mod_cast h)]
  · rename_i h
    rw [abs_of_neg (by exact_mod_cast not_le.1 h)]
    ring

/-- The finger and the previous point are less than 2^15 units apart on each axis. -/
def Near (inp center : Pt) : Prop := |inp.x - center.x| ≤ 32767 ∧ |inp.y - center.y| ≤ 32767

theorem sq_le {d k : Int} (h : |d| ≤ k) : d * d ≤ k * k := by
  rw [← abs_mul_abs_self d]
  exact mul_le_mul h h (abs_nonneg d) ((abs_nonneg d).trans h)

/-- The closed form. -/
theorem hysteresis_eq (inp center margin : Pt) (hn : Near inp center) (ha : 0 < margin.x) (hb : 0 < margin.y)
    (ha' : margin.x ≤ 46340) (hb' : margin.y ≤ 46340) :
    hysteresis inp center margin =
      open Classical in
      if dist (inp.x - center.x) (inp.y - center.y) margin.x margin.y < 1 then some center
      else some ⟨trunc (inp.x - ((inp.x - center.x : Int) : ℝ) /
                    dist (inp.x - center.x) (inp.y - center.y) margin.x margin.y),
                 trunc (inp.y - ((inp.y - center.y : Int) : ℝ) /
                    dist (inp.x - center.x) (inp.y - center.y) margin.x margin.y)⟩ := by
  obtain ⟨h1, h2⟩ := hn
  have hx := abs_le.1 h1
  have hy := abs_le.1 h2
  have hx2 := sq_le h1
  have hy2 := sq_le h2
  have px := mul_self_nonneg (inp.x - center.x)
  have py := mul_self_nonneg (inp.y - center.y)
  have pa := sq_le (d := margin.x) (k := 46340) (by rw [abs_of_pos ha]; exact ha')
  have pb := sq_le (d := margin.y) (k := 46340) (by rw [abs_of_pos hb]; exact hb')
  have pa0 := mul_self_nonneg margin.x
  have pb0 := mul_self_nonneg margin.y
  unfold hysteresis
  dsimp only
  rw [if_neg (by simp only [fits]; omega), if_neg (by omega), if_neg (by simp only [fits]; omega)]
  rw [normalized_eq]
  by_cases hd : dist (inp.x - center.x) (inp.y - center.y) margin.x margin.y < 1
  · rw [if_pos hd, if_pos hd]
  · rw [if_neg hd, if_neg hd, if_neg (by simp only [fits]; omega)]
    have hN : 0 < dist (inp.x - center.x) (inp.y - center.y) margin.x margin.y := by linarith
    rw [lag_eq _ _ _ hN]
    dsimp only
    rw [signed _ _ _ hN, signed _ _ _ hN]

theorem dist_lt_one_iff (dx dy a b : Int) (ha : 0 < a) (hb : 0 < b) :
    dist dx dy a b < 1 ↔ dx ^ 2 * b ^ 2 + dy ^ 2 * a ^ 2 < a ^ 2 * b ^ 2 := by
  have ha' : (0 : ℝ) < a := by exact_mod_cast ha
  have hb' : (0 : ℝ) < b := by exact_mod_cast hb
  unfold dist
  rw [Real.sqrt_lt' one_pos]
  have : ((dx : ℝ) / a) ^ 2 + ((dy : ℝ) / b) ^ 2 = (dx ^ 2 * b ^ 2 + dy ^ 2 * a ^ 2 : ℝ) / (a ^ 2 * b ^ 2) := by
    field_simp
  rw [this, div_lt_iff₀ (by positivity), one_pow, one_mul]
  exact_mod_cast Iff.rfl

theorem dist_bound (dx dy a b : Int) (ha : 0 < a) (hb : 0 < b) :
    |(dx : ℝ)| ≤ a * dist dx dy a b ∧ |(dy : ℝ)| ≤ b * dist dx dy a b := by
  have ha' : (0 : ℝ) < a := by exact_mod_cast ha
  have hb' : (0 : ℝ) < b := by exact_mod_cast hb
  have key : ∀ u v : ℝ, |u| ≤ Real.sqrt (u ^ 2 + v ^ 2) ∧ |v| ≤ Real.sqrt (u ^ 2 + v ^ 2) := by
    intro u v
    constructor <;> apply Real.abs_le_sqrt <;> nlinarith [sq_nonneg u, sq_nonneg v]
  obtain ⟨h1, h2⟩ := key ((dx : ℝ) / a) ((dy : ℝ) / b)
  rw [abs_div, abs_of_pos ha', div_le_iff₀ ha'] at h1
  rw [abs_div, abs_of_pos hb', div_le_iff₀ hb'] at h2
  exact ⟨by unfold dist; linarith [mul_comm (a : ℝ) (Real.sqrt (((dx : ℝ) / a) ^ 2 + ((dy : ℝ) / b) ^ 2))],
         by unfold dist; linarith [mul_comm (b : ℝ) (Real.sqrt (((dx : ℝ) / a) ^ 2 + ((dy : ℝ) / b) ^ 2))]⟩

/-- C32.  While the finger is inside the ellipse with radii `margin` around the previous point, that point is reported
again. -/
theorem inside_unchanged (inp center margin : Pt) (hn : Near inp center) (ha : 0 < margin.x) (hb : 0 < margin.y)
    (ha' : margin.x ≤ 46340) (hb' : margin.y ≤ 46340)
    (hin : (inp.x - center.x) ^ 2 * margin.y ^ 2 + (inp.y - center.y) ^ 2 * margin.x ^ 2
      < margin.x ^ 2 * margin.y ^ 2) :
    hysteresis inp center margin = some center := by
  rw [hysteresis_eq inp center margin hn ha hb ha' hb', if_pos ((dist_lt_one_iff _ _ _ _ ha hb).2 hin)]

example : Near ⟨103, 98⟩ ⟨100, 100⟩ ∧
    ((103 : Int) - 100) ^ 2 * 5 ^ 2 + ((98 : Int) - 100) ^ 2 * 4 ^ 2 < 4 ^ 2 * 5 ^ 2 := by
  constructor
  · simp [Near]
  · decide

/-- C32.  Once the finger is outside, the reported point is the centre of the ellipse that has been dragged along: it is
on the line from the previous point to the finger, at the distance at which the finger is on the edge of the ellipse
around it, up to less than one unit of rounding per axis. -/
theorem outside_dragged (inp center margin : Pt) (hn : Near inp center) (ha : 0 < margin.x) (hb : 0 < margin.y)
    (ha' : margin.x ≤ 46340) (hb' : margin.y ≤ 46340)
    (hout : margin.x ^ 2 * margin.y ^ 2 ≤
      (inp.x - center.x) ^ 2 * margin.y ^ 2 + (inp.y - center.y) ^ 2 * margin.x ^ 2) :
    ∃ r, hysteresis inp center margin = some r ∧ ∃ t : ℝ, 0 < t ∧ t ≤ 1 ∧
      (t * (inp.x - center.x) / margin.x) ^ 2 + (t * (inp.y - center.y) / margin.y) ^ 2 = 1 ∧
      |(r.x : ℝ) - (inp.x - t * (inp.x - center.x))| < 1 ∧ |(r.y : ℝ) - (inp.y - t * (inp.y - center.y))| < 1 := by
  have hd : ¬ dist (inp.x - center.x) (inp.y - center.y) margin.x margin.y < 1 := by
    rw [dist_lt_one_iff _ _ _ _ ha hb]; exact not_lt.2 hout
  rw [hysteresis_eq inp center margin hn ha hb ha' hb', if_neg hd]
  refine ⟨_, rfl, (dist (inp.x - center.x) (inp.y - center.y) margin.x margin.y)⁻¹, ?_, ?_, ?_, ?_, ?_⟩
  · exact inv_pos.2 (by linarith)
  · exact inv_le_one_of_one_le₀ (not_lt.1 hd)
  · have hN : dist (inp.x - center.x) (inp.y - center.y) margin.x margin.y ≠ 0 := by
      intro h; rw [h] at hd; exact hd one_pos
    have hsq : dist (inp.x - center.x) (inp.y - center.y) margin.x margin.y ^ 2 =
        (((inp.x - center.x : Int) : ℝ) / margin.x) ^ 2 + (((inp.y - center.y : Int) : ℝ) / margin.y) ^ 2 := by
      unfold dist; rw [Real.sq_sqrt (by positivity)]
    push_cast at hsq
    generalize dist (inp.x - center.x) (inp.y - center.y) margin.x margin.y = N at *
    have ha0 : (margin.x : ℝ) ≠ 0 := by exact_mod_cast ha.ne'
    have hb0 : (margin.y : ℝ) ≠ 0 := by exact_mod_cast hb.ne'
    calc (N⁻¹ * (inp.x - center.x) / margin.x) ^ 2 + (N⁻¹ * (inp.y - center.y) / margin.y) ^ 2
        = (N ^ 2)⁻¹ * ((((inp.x : ℝ) - center.x) / margin.x) ^ 2 + (((inp.y : ℝ) - center.y) / margin.y) ^ 2) := by
          field_simp
      _ = 1 := by rw [← hsq, inv_mul_cancel₀ (pow_ne_zero 2 hN)]
  · have := trunc_near ((inp.x : ℝ) - ((inp.x - center.x : Int) : ℝ) /
      dist (inp.x - center.x) (inp.y - center.y) margin.x margin.y)
    push_cast at this ⊢
    rw [div_eq_inv_mul] at this ⊢
    exact this
  · have := trunc_near ((inp.y : ℝ) - ((inp.y - center.y : Int) : ℝ) /
      dist (inp.x - center.x) (inp.y - center.y) margin.x margin.y)
    push_cast at this ⊢
    rw [div_eq_inv_mul] at this ⊢
    exact this

example : Near ⟨108, 98⟩ ⟨100, 100⟩ ∧
    (4 : Int) ^ 2 * 5 ^ 2 ≤ ((108 : Int) - 100) ^ 2 * 5 ^ 2 + ((98 : Int) - 100) ^ 2 * 4 ^ 2 := by
  constructor
  · simp [Near]
  · decide

theorem scaled_between {p d a : Int} {N : ℝ} (hN : 1 ≤ N) (hd : |(d : ℝ)| ≤ a * N) :
    min (p - d) p ≤ trunc ((p : ℝ) - d / N) ∧ trunc ((p : ℝ) - d / N) ≤ max (p - d) p ∧
    |p - trunc ((p : ℝ) - d / N)| ≤ a := by
  have hN0 : 0 < N := by linarith
  have habs : |(d : ℝ) / N| ≤ a := by
    rw [abs_div, abs_of_pos hN0, div_le_iff₀ hN0]; exact hd
  obtain ⟨l, u⟩ := abs_le.1 habs
  have hl : (((p - a : Int)) : ℝ) ≤ (p : ℝ) - d / N := by push_cast; linarith
  have hu : (p : ℝ) - d / N ≤ ((p + a : Int) : ℝ) := by push_cast; linarith
  have l' := le_trunc hl
  have u' := trunc_le hu
  refine ⟨?_, ?_, ?_⟩
  · apply le_trunc
    rcases le_total 0 d with h | h
    · have hd0 : (0 : ℝ) ≤ d := by exact_mod_cast h
      have : (d : ℝ) / N ≤ d := div_le_self hd0 hN
      refine (Int.cast_le.2 (min_le_left (p - d) p)).trans ?_
      push_cast; linarith
    · have hd0 : (d : ℝ) ≤ 0 := by exact_mod_cast h
      have : (d : ℝ) / N ≤ 0 := div_nonpos_of_nonpos_of_nonneg hd0 hN0.le
      refine (Int.cast_le.2 (min_le_right (p - d) p)).trans ?_
      linarith
  · apply trunc_le
    rcases le_total 0 d with h | h
    · have hd0 : (0 : ℝ) ≤ d := by exact_mod_cast h
      have : 0 ≤ (d : ℝ) / N := div_nonneg hd0 hN0.le
      refine le_trans ?_ (Int.cast_le.2 (le_max_right (p - d) p))
      linarith
    · have hd0 : (d : ℝ) ≤ 0 := by exact_mod_cast h
      have : (d : ℝ) ≤ d / N := by
        rw [le_div_iff₀ hN0]; nlinarith
      refine le_trans ?_ (Int.cast_le.2 (le_max_left (p - d) p))
      push_cast; linarith
  · rw [abs_le]; omega

/-- C32.  The reported point never is farther from the finger than the margin, on either axis, and never overshoots: it
is between the previous point and the finger. -/
theorem reported_near_finger (inp center margin r : Pt) (hn : Near inp center) (ha : 0 ≤ margin.x) (hb : 0 ≤ margin.y)
    (ha' : margin.x ≤ 46340) (hb' : margin.y ≤ 46340) (hr : hysteresis inp center margin = some r) :
    |inp.x - r.x| ≤ margin.x ∧ |inp.y - r.y| ≤ margin.y ∧
    (min center.x inp.x ≤ r.x ∧ r.x ≤ max center.x inp.x) ∧ (min center.y inp.y ≤ r.y ∧ r.y ≤ max center.y inp.y) := by
  by_cases h0 : margin.x = 0 ∨ margin.y = 0
  · have : r = inp := by
      unfold hysteresis at hr
      dsimp only at hr
      split at hr
      · cases hr
      · simpa [h0] using hr.symm
    subst this
    simp [ha, hb]
  · have ha1 : 0 < margin.x := by omega
    have hb1 : 0 < margin.y := by omega
    obtain ⟨bx, byy⟩ := dist_bound (inp.x - center.x) (inp.y - center.y) margin.x margin.y ha1 hb1
    rw [hysteresis_eq inp center margin hn ha1 hb1 ha' hb'] at hr
    split at hr
    · rename_i hd
      simp only [Option.some.injEq] at hr
      subst hr
      have hxa : |((inp.x - center.x : Int) : ℝ)| ≤ margin.x := by
        have : (0 : ℝ) < margin.x := by exact_mod_cast ha1
        nlinarith
      have hya : |((inp.y - center.y : Int) : ℝ)| ≤ margin.y := by
        have : (0 : ℝ) < margin.y := by exact_mod_cast hb1
        nlinarith
      refine ⟨by exact_mod_cast hxa, by exact_mod_cast hya, ⟨min_le_left _ _, le_max_left _ _⟩,
        ⟨min_le_left _ _, le_max_left _ _⟩⟩
    · rename_i hd
      simp only [Option.some.injEq] at hr
      subst hr
      obtain ⟨x1, x2, x3⟩ := scaled_between (p := inp.x) (not_lt.1 hd) bx
      obtain ⟨y1, y2, y3⟩ := scaled_between (p := inp.y) (not_lt.1 hd) byy
      rw [show inp.x - (inp.x - center.x) = center.x by ring] at x1 x2
      rw [show inp.y - (inp.y - center.y) = center.y by ring] at y1 y2
      exact ⟨x3, y3, ⟨x1, x2⟩, ⟨y1, y2⟩⟩

theorem hysteresis_some (inp center margin : Pt) (hn : Near inp center) (ha : 0 ≤ margin.x) (hb : 0 ≤ margin.y)
    (ha' : margin.x ≤ 46340) (hb' : margin.y ≤ 46340) : ∃ r, hysteresis inp center margin = some r := by
  by_cases h0 : margin.x = 0 ∨ margin.y = 0
  · obtain ⟨h1, h2⟩ := hn
    have hx := abs_le.1 h1
    have hy := abs_le.1 h2
    have hx2 := sq_le h1
    have hy2 := sq_le h2
    have px := mul_self_nonneg (inp.x - center.x)
    have py := mul_self_nonneg (inp.y - center.y)
    refine ⟨inp, ?_⟩
    unfold hysteresis
    dsimp only
    rw [if_neg (by simp only [fits]; omega), if_pos h0]
  · rw [hysteresis_eq inp center margin hn (by omega) (by omega) ha' hb']
    split
    · exact ⟨_, rfl⟩
    · exact ⟨_, rfl⟩

theorem path_aux (margin : Pt) (ha : 0 ≤ margin.x) (hb : 0 ≤ margin.y) (ha' : margin.x ≤ 46340)
    (hb' : margin.y ≤ 46340) (x0 y0 : Int) (ps : List Pt) :
    ∀ t : Touch, (t.moved = true → (x0 ≤ t.center.x ∧ t.center.x ≤ x0 + 32767) ∧
        (y0 ≤ t.center.y ∧ t.center.y ≤ y0 + 32767)) →
      (∀ p ∈ ps, (x0 ≤ p.x ∧ p.x ≤ x0 + 32767) ∧ (y0 ≤ p.y ∧ p.y ≤ y0 + 32767)) →
      ∃ qs, path margin t ps = some qs ∧ qs.length = ps.length ∧
        ∀ (i : Nat) (p q : Pt), ps[i]? = some p → qs[i]? = some q →
          |p.x - q.x| ≤ margin.x ∧ |p.y - q.y| ≤ margin.y := by
  induction ps with
  | nil => intro t _ _; exact ⟨[], rfl, rfl, by simp⟩
  | cons p ps ih =>
    intro t ht hbox
    have hp := hbox p List.mem_cons_self
    have hps : ∀ p ∈ ps, (x0 ≤ p.x ∧ p.x ≤ x0 + 32767) ∧ (y0 ≤ p.y ∧ p.y ≤ y0 + 32767) :=
      fun q hq => hbox q (List.mem_cons_of_mem _ hq)
    have step : ∃ q, touchpad margin t p = some (⟨true, q⟩, q) ∧ |p.x - q.x| ≤ margin.x ∧ |p.y - q.y| ≤ margin.y ∧
        (x0 ≤ q.x ∧ q.x ≤ x0 + 32767) ∧ (y0 ≤ q.y ∧ q.y ≤ y0 + 32767) := by
      by_cases hm : t.moved = true
      · have hc := ht hm
        have hn : Near p t.center := by
          constructor <;> rw [abs_le] <;> omega
        obtain ⟨r, hr⟩ := hysteresis_some p t.center margin hn ha hb ha' hb'
        obtain ⟨h1, h2, h3, h4⟩ := reported_near_finger p t.center margin r hn ha hb ha' hb' hr
        refine ⟨r, by simp [touchpad, hm, hr], h1, h2, ?_, ?_⟩ <;> omega
      · exact ⟨p, by simp [touchpad, hm], by simpa using ha, by simpa using hb, hp⟩
    obtain ⟨q, hq, h1, h2, h3⟩ := step
    obtain ⟨qs, hqs, hl, hall⟩ := ih ⟨true, q⟩ (fun _ => h3) hps
    refine ⟨q :: qs, by simp [path, hq, hqs], by simp [hl], ?_⟩
    intro i p' q' hp' hq'
    cases i with
    | zero =>
      simp only [List.getElem?_cons_zero, Option.some.injEq] at hp' hq'
      subst hp' hq'
      exact ⟨h1, h2⟩
    | succ i => exact hall i p' q' (by simpa using hp') (by simpa using hq')

/-- C32.  For every finger path within a box of 2^15 units, the touchpad reports a point for every position of the
finger and never one farther from it than the margin. -/
theorem path_follows_finger (margin : Pt) (ha : 0 ≤ margin.x) (hb : 0 ≤ margin.y) (ha' : margin.x ≤ 46340)
    (hb' : margin.y ≤ 46340) (x0 y0 : Int) (ps : List Pt)
    (hbox : ∀ p ∈ ps, (x0 ≤ p.x ∧ p.x ≤ x0 + 32767) ∧ (y0 ≤ p.y ∧ p.y ≤ y0 + 32767)) (start : Pt) :
    ∃ qs, path margin ⟨false, start⟩ ps = some qs ∧ qs.length = ps.length ∧
      ∀ (i : Nat) (p q : Pt), ps[i]? = some p → qs[i]? = some q →
        |p.x - q.x| ≤ margin.x ∧ |p.y - q.y| ≤ margin.y :=
  path_aux margin ha hb ha' hb' x0 y0 ps ⟨false, start⟩ (by simp) hbox

theorem path_chain (margin : Pt) (ps : List Pt) : ∀ (t : Touch) (qs : List Pt), path margin t ps = some qs →
    (t.moved = true → ∀ p, ps[0]? = some p → hysteresis p t.center margin = qs[0]?) ∧
    ∀ (i : Nat) (p q : Pt), ps[i + 1]? = some p → qs[i]? = some q → hysteresis p q margin = qs[i + 1]? := by
  induction ps with
  | nil => intro t qs h; simp
  | cons p0 ps ih =>
    intro t qs h
    simp only [path] at h
    split at h
    · cases h
    · rename_i t' q hq
      cases hp : path margin t' ps with
      | none => simp [hp] at h
      | some qs' =>
        simp only [hp, Option.map_some, Option.some.injEq] at h
        subst h
        obtain ⟨h1, h2⟩ := ih t' qs' hp
        have ht' : t' = ⟨true, q⟩ := by
          unfold touchpad at hq
          split at hq
          · cases hy : hysteresis p0 t.center margin with
            | none => simp [hy] at hq
            | some r => simp [hy] at hq; rw [← hq.1, hq.2]
          · simp at hq; rw [← hq.1, hq.2]
        subst ht'
        constructor
        · intro hm p hp'
          simp only [List.getElem?_cons_zero, Option.some.injEq] at hp'
          subst hp'
          simp only [touchpad, hm, if_true] at hq
          cases hy : hysteresis p0 t.center margin with
          | none => simp [hy] at hq
          | some r => simp [hy] at hq; simp [hq]
        · intro i p q' hpi hqi
          cases i with
          | zero =>
            simp only [List.getElem?_cons_zero, Option.some.injEq] at hqi
            subst hqi
            exact h1 rfl p (by simpa using hpi)
          | succ i => exact h2 i p q' (by simpa using hpi) (by simpa using hqi)

/-- C32.  Along a finger path, while the finger stays inside the ellipse around the point reported last, that point is
reported again. -/
theorem path_rests (margin : Pt) (ha : 0 < margin.x) (hb : 0 < margin.y) (ha' : margin.x ≤ 46340)
    (hb' : margin.y ≤ 46340) (start : Pt) (ps qs : List Pt) (h : path margin ⟨false, start⟩ ps = some qs) (i : Nat)
    (p q : Pt) (hp : ps[i + 1]? = some p) (hq : qs[i]? = some q) (hn : Near p q)
    (hin : (p.x - q.x) ^ 2 * margin.y ^ 2 + (p.y - q.y) ^ 2 * margin.x ^ 2 < margin.x ^ 2 * margin.y ^ 2) :
    qs[i + 1]? = some q := by
  rw [← (path_chain margin ps _ qs h).2 i p q hp hq]
  exact inside_unchanged p q margin hn ha hb ha' hb' hin

example : path ⟨5, 5⟩ ⟨false, ⟨0, 0⟩⟩ [⟨100, 100⟩, ⟨102, 99⟩] = some [⟨100, 100⟩, ⟨100, 100⟩] := by
  have h : hysteresis ⟨102, 99⟩ ⟨100, 100⟩ ⟨5, 5⟩ = some ⟨100, 100⟩ :=
    inside_unchanged _ _ _ (by simp [Near]) (by simp) (by simp) (by simp) (by simp) (by simp)
  simp [path, touchpad, h]

/-- Without the bound on the distance the squares overflow: a finger that moves by 46341 units from one event to the
next makes the program's behaviour undefined. -/
theorem far_jump_overflows (margin : Pt) : hysteresis ⟨46341, 0⟩ ⟨0, 0⟩ margin = none := by
  unfold hysteresis
  dsimp only
  rw [if_pos (by simp [fits])]

end Libinput.Hysteresis
