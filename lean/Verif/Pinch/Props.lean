import Verif.Pinch.Spec
/-!
C67: what a pinch tells.
-/
namespace Libinput.Pinch
open Spec Motion Accel

/-- The resolutions are positive. -/
def Good (r : Res) : Prop := 0 < r.x ∧ 0 < r.y

theorem norm_between (r : Res) (t : Two) : (⟨(normalize r (delta t.a t.b)).x, (normalize r (delta t.a t.b)).y⟩ : ℂ) = ((1000 / 25.4 : ℝ) : ℂ) * between r t := by
  apply Complex.ext
  · rw [Complex.re_ofReal_mul]; simp only [normalize, delta, between]; ring
  · rw [Complex.im_ofReal_mul]; simp only [normalize, delta, between]; ring

theorem distance_eq (r : Res) (t : Two) : distance r t = (1000 / 25.4) * ‖between r t‖ := by
  have h : length (normalize r (delta t.a t.b)) = ‖(⟨(normalize r (delta t.a t.b)).x, (normalize r (delta t.a t.b)).y⟩ : ℂ)‖ := by
    rw [Complex.norm_eq_sqrt_sq_add_sq]; rfl
  unfold distance
  rw [h, norm_between, norm_mul, Complex.norm_real]
  norm_num

theorem bearing_eq (r : Res) (t : Two) : bearing r t = Complex.arg (between r t) * 180 / Real.pi := by
  unfold bearing
  rw [norm_between, Complex.arg_real_mul _ (by norm_num)]

/-- The fields after a frame. -/
structure At (r : Res) (w0 : ℂ) (s : State) (t : Two) : Prop where
  initial : s.initial = (1000 / 25.4) * ‖w0‖
  angle : s.angle = Complex.arg (between r t) * 180 / Real.pi
  center : s.center = middle t
  prev : s.prev = ‖between r t‖ / ‖w0‖

theorem start_at {r : Res} {t : Two} (h : between r t ≠ 0) : At r (between r t) (start r t) t :=
  ⟨distance_eq r t, bearing_eq r t, rfl, by
    show (1 : ℝ) = _
    rw [div_self (norm_ne_zero_iff.mpr h)]⟩

theorem scale_eq {r : Res} {w0 : ℂ} {s : State} {t u : Two} (h : At r w0 s t) : distance r u / s.initial = ‖between r u‖ / ‖w0‖ := by
  rw [distance_eq, h.initial]
  rw [mul_div_mul_left _ _ (by norm_num)]

theorem update_at {r : Res} {w0 : ℂ} {s : State} {t u : Two} (h : At r w0 s t) : At r w0 (update r s u).1 u := by
  have e := scale_eq (u := u) h
  unfold update
  dsimp only
  split
  · rename_i c
    exact ⟨h.initial, bearing_eq r u, rfl, by
      show s.prev = _
      rw [← c.2.1, e]⟩
  · exact ⟨h.initial, bearing_eq r u, rfl, e⟩

theorem turned_range {a b : ℝ} (ha : -180 < a ∧ a ≤ 180) (hb : -180 < b ∧ b ≤ 180) : |turned a b| ≤ 180 := by
  unfold turned
  dsimp only
  rw [abs_le]
  split
  · constructor <;> linarith
  · split
    · constructor <;> linarith
    · constructor <;> linarith

theorem deg_range (w : ℂ) : -180 < Complex.arg w * 180 / Real.pi ∧ Complex.arg w * 180 / Real.pi ≤ 180 := by
  have hp := Real.pi_pos
  have h1 := Complex.neg_pi_lt_arg w
  have h2 := Complex.arg_le_pi w
  constructor
  · rw [lt_div_iff₀ hp]; linarith
  · rw [div_le_iff₀ hp]; linarith

theorem turned_mod (a b : ℝ) : ∃ k : ℤ, turned a b = a - b + 360 * k := by
  unfold turned
  dsimp only
  split
  · exact ⟨-1, by push_cast; ring⟩
  · split
    · exact ⟨1, by push_cast; ring⟩
    · exact ⟨0, by simp⟩

theorem seen_arg {w : ℂ} {θ : ℝ} (h : Seen w θ) (h0 : w ≠ 0) : ∃ k : ℤ, Complex.arg w = θ + 2 * Real.pi * k := by
  have e := Complex.arg_mul_cos_add_sin_mul_I_sub (norm_pos_iff.mpr h0) θ
  rw [← Complex.exp_mul_I, ← h] at e
  exact ⟨_, by linarith⟩

/-- A turn by less than half a circle is told. -/
theorem turned_seen {w w' : ℂ} {θ θ' : ℝ} (h : Seen w θ) (h0 : w ≠ 0) (h' : Seen w' θ') (h0' : w' ≠ 0) (hl : |θ' - θ| < Real.pi) :
    turned (Complex.arg w' * 180 / Real.pi) (Complex.arg w * 180 / Real.pi) = (θ' - θ) * 180 / Real.pi := by
  have hp := Real.pi_pos
  obtain ⟨k, hk⟩ := seen_arg h h0
  obtain ⟨k', hk'⟩ := seen_arg h' h0'
  obtain ⟨m, hm⟩ := turned_mod (Complex.arg w' * 180 / Real.pi) (Complex.arg w * 180 / Real.pi)
  have rg := abs_le.mp (turned_range (deg_range w') (deg_range w))
  obtain ⟨l1, l2⟩ := abs_lt.mp hl
  have e : Complex.arg w' * 180 / Real.pi - Complex.arg w * 180 / Real.pi = (θ' - θ) * 180 / Real.pi + 360 * (k' - k) := by
    rw [hk, hk']; field_simp; ring
  have b1 : -180 < (θ' - θ) * 180 / Real.pi := by rw [lt_div_iff₀ hp]; linarith
  have b2 : (θ' - θ) * 180 / Real.pi < 180 := by rw [div_lt_iff₀ hp]; linarith
  rw [hm, e] at rg
  rw [hm, e]
  have z : k' - k + m = 0 := by
    have u : (((k' - k + m : ℤ)) : ℝ) < ((1 : ℤ) : ℝ) := by push_cast; linarith [rg.2]
    have l : ((-1 : ℤ) : ℝ) < (((k' - k + m : ℤ)) : ℝ) := by push_cast; linarith [rg.1]
    have u' : k' - k + m < 1 := by exact_mod_cast u
    have l' : -1 < k' - k + m := by exact_mod_cast l
    omega
  have z' : (k' : ℝ) - k + m = 0 := by exact_mod_cast z
  linarith

theorem update_turn {r : Res} {s : State} {u : Two} (es : List (Option Event)) :
    turns ((update r s u).2 :: es) = turned (bearing r u) s.angle + turns es := by
  unfold update
  dsimp only
  split
  · rename_i c
    show turns es = _
    rw [c.2.2]; ring
  · rfl

theorem update_moves {r : Res} {s : State} {u : Two} (es : List (Option Event)) :
    movesX ((update r s u).2 :: es) = (middle u).x - s.center.x + movesX es ∧ movesY ((update r s u).2 :: es) = (middle u).y - s.center.y + movesY es := by
  have em : center u = middle u := rfl
  unfold update
  dsimp only
  rw [em]
  split
  · rename_i c
    refine ⟨?_, ?_⟩
    · show movesX es = _
      rw [c.1.1]; ring
    · show movesY es = _
      rw [c.1.2]; ring
  · exact ⟨rfl, rfl⟩

theorem turns_from {r : Res} {w0 : ℂ} : ∀ (fs : List (Two × ℝ)) (s : State) (t : Two) (θ : ℝ), At r w0 s t → between r t ≠ 0 → Seen (between r t) θ →
    Turning r θ fs → turns (run r s (fs.map Prod.fst)).2 = (lastSeen θ fs - θ) * 180 / Real.pi
  | [], s, t, θ, _, _, _, _ => by simp [run, turns, lastSeen]
  | (u, θ') :: fs, s, t, θ, h, h0, hs, ht => by
    obtain ⟨⟨a, b, c⟩, ht'⟩ := ht
    have ih := turns_from fs (update r s u).1 u θ' (update_at h) a b ht'
    show turns ((update r s u).2 :: (run r (update r s u).1 (fs.map Prod.fst)).2) = _
    rw [update_turn, ih, bearing_eq, h.angle, turned_seen hs h0 b a c]
    simp only [lastSeen]
    ring

/-- C67.  The angles told add up to the angle by which the fingers have turned about each other, in degrees and with all full circles, if they turn by less than
half a circle from one frame to the next. -/
theorem turns_add_up {r : Res} {t : Two} {θ : ℝ} {fs : List (Two × ℝ)} (h0 : between r t ≠ 0) (hs : Seen (between r t) θ) (ht : Turning r θ fs) :
    turns (run r (start r t) (fs.map Prod.fst)).2 = (lastSeen θ fs - θ) * 180 / Real.pi :=
  turns_from fs _ t θ (start_at h0) h0 hs ht

theorem scales_from {r : Res} {w0 : ℂ} : ∀ (ts : List Two) (s : State) (t : Two), At r w0 s t →
    lastScale s.prev (run r s ts).2 = ‖between r (ts.getLastD t)‖ / ‖w0‖
  | [], s, t, h => h.prev
  | u :: ts, s, t, h => by
    have ih := scales_from ts (update r s u).1 u (update_at h)
    have e : lastScale s.prev ((update r s u).2 :: (run r (update r s u).1 ts).2) = lastScale (update r s u).1.prev (run r (update r s u).1 ts).2 := by
      unfold update
      dsimp only
      split <;> rfl
    show lastScale s.prev ((update r s u).2 :: (run r (update r s u).1 ts).2) = _
    rw [e, ih, List.getLastD_cons]

/-- C67.  The scale told last (1 at first) is how many times as far apart the fingers are, in millimetres, as they were when the pinch was recognised. -/
theorem scale_is_distance {r : Res} {t : Two} (h0 : between r t ≠ 0) (ts : List Two) :
    lastScale 1 (run r (start r t) ts).2 = ‖between r (ts.getLastD t)‖ / ‖between r t‖ :=
  scales_from ts _ t (start_at h0)

theorem moves_from {r : Res} {w0 : ℂ} : ∀ (ts : List Two) (s : State) (t : Two), At r w0 s t →
    movesX (run r s ts).2 = (middle (ts.getLastD t)).x - (middle t).x ∧ movesY (run r s ts).2 = (middle (ts.getLastD t)).y - (middle t).y
  | [], s, t, _ => by simp [run, movesX, movesY]
  | u :: ts, s, t, h => by
    have ih := moves_from ts (update r s u).1 u (update_at h)
    have e := update_moves (r := r) (s := s) (u := u) (run r (update r s u).1 ts).2
    show movesX ((update r s u).2 :: (run r (update r s u).1 ts).2) = _ ∧ movesY ((update r s u).2 :: (run r (update r s u).1 ts).2) = _
    rw [e.1, e.2, ih.1, ih.2, h.center, List.getLastD_cons]
    constructor <;> ring

/-- C67.  The movements told (before the acceleration) add up to the movement of the middle of the fingers. -/
theorem moves_add_up {r : Res} {t : Two} (h0 : between r t ≠ 0) (ts : List Two) :
    movesX (run r (start r t) ts).2 = (middle (ts.getLastD t)).x - (middle t).x ∧
    movesY (run r (start r t) ts).2 = (middle (ts.getLastD t)).y - (middle t).y :=
  moves_from ts _ t (start_at h0)

theorem run_at {r : Res} {w0 : ℂ} : ∀ (ts : List Two) (s : State) (t : Two), At r w0 s t → At r w0 (run r s ts).1 (ts.getLastD t)
  | [], _, _, h => h
  | u :: ts, s, t, h => by
    have := run_at ts (update r s u).1 u (update_at h)
    rw [List.getLastD_cons]
    exact this

theorem arg_norm_inj {w w' : ℂ} (h1 : ‖w‖ = ‖w'‖) (h2 : Complex.arg w = Complex.arg w') : w = w' := Complex.ext_norm_arg h1 h2

theorem same_fingers {r : Res} (g : Good r) {t u : Two} (h1 : between r t = between r u) (h2 : middle t = middle u) : t = u := by
  have gx : (r.x : ℝ) ≠ 0 := by have := g.1; positivity
  have gy : (r.y : ℝ) ≠ 0 := by have := g.2; positivity
  have ax := congrArg Complex.re h1
  have ay := congrArg Complex.im h1
  have mx := congrArg V.x h2
  have my := congrArg V.y h2
  simp only [between, middle] at ax ay mx my
  rw [div_left_inj' gx] at ax
  rw [div_left_inj' gy] at ay
  have e1 : t.a.x = u.a.x := by
    have : (t.a.x : ℝ) = u.a.x := by linarith
    exact_mod_cast this
  have e2 : t.b.x = u.b.x := by
    have : (t.b.x : ℝ) = u.b.x := by linarith
    exact_mod_cast this
  have e3 : t.a.y = u.a.y := by
    have : (t.a.y : ℝ) = u.a.y := by linarith
    exact_mod_cast this
  have e4 : t.b.y = u.b.y := by
    have : (t.b.y : ℝ) = u.b.y := by linarith
    exact_mod_cast this
  obtain ⟨⟨_, _⟩, ⟨_, _⟩⟩ := t
  obtain ⟨⟨_, _⟩, ⟨_, _⟩⟩ := u
  simp_all

theorem turned_zero {a b : ℝ} (ha : -180 < a ∧ a ≤ 180) (hb : -180 < b ∧ b ≤ 180) : turned a b = 0 ↔ a = b := by
  unfold turned
  dsimp only
  constructor
  · intro h
    split at h
    · linarith
    · split at h
      · linarith
      · linarith
  · intro h
    subst h
    norm_num

/-- C67.  Whatever happened before, a frame tells something exactly if one of the two fingers has moved since the last frame; the angle is never more than half a
circle and the scale is the one of the distances. -/
theorem event_iff_moved {r : Res} (g : Good r) {t : Two} (h0 : between r t ≠ 0) (ts : List Two) (u : Two) :
    ((update r (run r (start r t) ts).1 u).2 = none ↔ u = ts.getLastD t) ∧
    ∀ e, (update r (run r (start r t) ts).1 u).2 = some e → |e.turn| ≤ 180 ∧ e.scale = ‖between r u‖ / ‖between r t‖ := by
  have h := run_at ts _ t (start_at h0)
  have es := scale_eq (u := u) h
  have n0 : ‖between r t‖ ≠ 0 := norm_ne_zero_iff.mpr h0
  have em : center u = middle u := rfl
  generalize (run r (start r t) ts).1 = s at *
  generalize ts.getLastD t = l at *
  constructor
  · constructor
    · intro e
      unfold update at e
      dsimp only at e
      split at e
      · rename_i c
        obtain ⟨⟨c1, c2⟩, c3, c4⟩ := c
        rw [em, h.center] at c1 c2
        rw [es, h.prev, div_left_inj' n0] at c3
        rw [bearing_eq, h.angle, turned_zero (deg_range _) (deg_range _)] at c4
        have hp := Real.pi_pos
        have c5 : Complex.arg (between r u) = Complex.arg (between r l) := by
          field_simp at c4
          linarith
        refine same_fingers g (arg_norm_inj c3 c5) ?_
        apply V.ext
        · linarith
        · linarith
      · cases e
    · intro e
      subst e
      unfold update
      dsimp only
      rw [if_pos]
      refine ⟨⟨?_, ?_⟩, ?_, ?_⟩
      · rw [em, h.center]; ring
      · rw [em, h.center]; ring
      · rw [es, h.prev]
      · rw [bearing_eq, h.angle, turned_zero (deg_range _) (deg_range _)]
  · intro e he
    unfold update at he
    dsimp only at he
    split at he
    · cases he
    · cases he
      refine ⟨?_, es⟩
      rw [bearing_eq, h.angle]
      exact turned_range (deg_range _) (deg_range _)

theorem seen_of {w : ℂ} {ρ θ : ℝ} (h0 : 0 < ρ) (h : w = ρ * Complex.exp (θ * Complex.I)) : Seen w θ := by
  have n : ‖w‖ = ρ := by rw [h, norm_mul, Complex.norm_exp_ofReal_mul_I, Complex.norm_real, Real.norm_eq_abs, abs_of_pos h0, mul_one]
  unfold Seen
  rw [n]
  exact h

/-- Four quarter turns of fingers 20 mm apart, with the directions in which they are seen. -/
noncomputable def circle : List (Two × ℝ) :=
  [(⟨⟨0, 200⟩, ⟨0, 0⟩⟩, Real.pi / 2), (⟨⟨-200, 0⟩, ⟨0, 0⟩⟩, Real.pi), (⟨⟨0, -200⟩, ⟨0, 0⟩⟩, 3 * Real.pi / 2), (⟨⟨200, 0⟩, ⟨0, 0⟩⟩, 2 * Real.pi)]

theorem between_right : between ⟨10, 10⟩ ⟨⟨200, 0⟩, ⟨0, 0⟩⟩ = ((20 : ℝ) : ℂ) := by
  apply Complex.ext <;> norm_num [between]
theorem between_down : between ⟨10, 10⟩ ⟨⟨0, 200⟩, ⟨0, 0⟩⟩ = ((20 : ℝ) : ℂ) * Complex.I := by
  apply Complex.ext <;> norm_num [between]
theorem between_left : between ⟨10, 10⟩ ⟨⟨-200, 0⟩, ⟨0, 0⟩⟩ = ((20 : ℝ) : ℂ) * -1 := by
  apply Complex.ext <;> norm_num [between]
theorem between_up : between ⟨10, 10⟩ ⟨⟨0, -200⟩, ⟨0, 0⟩⟩ = ((20 : ℝ) : ℂ) * -Complex.I := by
  apply Complex.ext <;> norm_num [between]

theorem right_ne : between ⟨10, 10⟩ ⟨⟨200, 0⟩, ⟨0, 0⟩⟩ ≠ 0 := by rw [between_right]; norm_num

theorem circle_turning : Turning ⟨10, 10⟩ 0 circle := by
  have hp := Real.pi_pos
  refine ⟨⟨?_, seen_of (ρ := 20) (by norm_num) ?_, ?_⟩, ⟨?_, seen_of (ρ := 20) (by norm_num) ?_, ?_⟩, ⟨?_, seen_of (ρ := 20) (by norm_num) ?_, ?_⟩,
    ⟨right_ne, seen_of (ρ := 20) (by norm_num) ?_, ?_⟩, trivial⟩
  · rw [between_down]; norm_num
  · rw [between_down]; push_cast; rw [Complex.exp_pi_div_two_mul_I]
  · rw [abs_lt]; constructor <;> linarith
  · rw [between_left]; norm_num
  · rw [between_left, Complex.exp_pi_mul_I]
  · rw [abs_lt]; constructor <;> linarith
  · rw [between_up]; norm_num
  · have e : ((3 * Real.pi / 2 : ℝ) : ℂ) * Complex.I = (-Real.pi / 2 : ℂ) * Complex.I + 2 * Real.pi * Complex.I := by push_cast; ring
    rw [between_up, e, Complex.exp_add, Complex.exp_neg_pi_div_two_mul_I, Complex.exp_two_pi_mul_I, mul_one]
  · rw [abs_lt]; constructor <;> linarith
  · rw [between_right]; push_cast; rw [Complex.exp_two_pi_mul_I, mul_one]
  · rw [abs_lt]; constructor <;> linarith

/-- Non-vacuity: a full circle is told as 360 degrees. -/
example : turns (run ⟨10, 10⟩ (start ⟨10, 10⟩ ⟨⟨200, 0⟩, ⟨0, 0⟩⟩) (circle.map Prod.fst)).2 = 360 := by
  have hp := Real.pi_pos
  rw [turns_add_up (θ := 0) right_ne (seen_of (ρ := 20) (by norm_num) (by rw [between_right]; simp)) circle_turning]
  simp only [circle, lastSeen]
  field_simp
  ring

/-- Non-vacuity: twice as far apart in millimetres, along the other axis and on a touchpad with unequal resolutions, is a scale of 2. -/
example : lastScale 1 (run ⟨10, 20⟩ (start ⟨10, 20⟩ ⟨⟨200, 0⟩, ⟨0, 0⟩⟩) [⟨⟨0, 300⟩, ⟨0, 0⟩⟩, ⟨⟨0, 800⟩, ⟨0, 0⟩⟩]).2 = 2 := by
  have e : between ⟨10, 20⟩ ⟨⟨200, 0⟩, ⟨0, 0⟩⟩ = ((20 : ℝ) : ℂ) := by apply Complex.ext <;> norm_num [between]
  have e' : between ⟨10, 20⟩ ⟨⟨0, 800⟩, ⟨0, 0⟩⟩ = ((40 : ℝ) : ℂ) * Complex.I := by apply Complex.ext <;> norm_num [between]
  rw [scale_is_distance (by rw [e]; norm_num)]
  simp only [List.getLastD_cons, List.getLastD_nil, e, e', norm_mul, Complex.norm_real, Complex.norm_I]
  norm_num

/-- Non-vacuity: a finger that moves is told and resting fingers are not. -/
example : (update ⟨10, 10⟩ (run ⟨10, 10⟩ (start ⟨10, 10⟩ ⟨⟨200, 0⟩, ⟨0, 0⟩⟩) [⟨⟨200, 5⟩, ⟨0, 0⟩⟩]).1 ⟨⟨200, 5⟩, ⟨0, 0⟩⟩).2 = none ∧
    (update ⟨10, 10⟩ (run ⟨10, 10⟩ (start ⟨10, 10⟩ ⟨⟨200, 0⟩, ⟨0, 0⟩⟩) [⟨⟨200, 5⟩, ⟨0, 0⟩⟩]).1 ⟨⟨200, 6⟩, ⟨0, 0⟩⟩).2 ≠ none := by
  have g : Good ⟨10, 10⟩ := ⟨by decide, by decide⟩
  rw [Ne, (event_iff_moved g right_ne _ _).1, (event_iff_moved g right_ne _ _).1]
  decide

/-- Non-vacuity: the movement of the middle. -/
example : movesX (run ⟨10, 10⟩ (start ⟨10, 10⟩ ⟨⟨200, 0⟩, ⟨0, 0⟩⟩) [⟨⟨210, 0⟩, ⟨0, 0⟩⟩, ⟨⟨220, 0⟩, ⟨10, 0⟩⟩]).2 = 15 := by
  rw [(moves_add_up right_ne _).1]
  norm_num [middle]

end Libinput.Pinch
