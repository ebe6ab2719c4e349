import Verif.Axis.Spec
/-!
C69: scrolling along an axis.
-/
namespace Libinput.Axis
open Spec

/-! ## Numbers -/

theorem steep_iff {s : ℚ} {v : V} : steep s v = true ↔ v.x = 0 ∨ s * |v.x| ≤ |v.y| := by
  unfold steep
  rw [decide_eq_true_iff]
  by_cases h : v.x = 0
  · simp [h]
  · simp only [h, false_or]
    rw [abs_div, le_div_iff₀ (abs_pos.mpr h)]

theorem steep_of {s : ℚ} {v : V} (h : s * |v.x| ≤ |v.y|) : steep s v = true := steep_iff.mpr (Or.inr h)

theorem not_steep {s : ℚ} {v : V} (h : |v.y| < s * |v.x|) : steep s v = false := by
  rw [← Bool.not_eq_true, steep_iff]
  rintro (e | e)
  · rw [e, abs_zero, mul_zero] at h
    exact absurd h (not_lt.mpr (abs_nonneg _))
  · linarith

theorem decay_range {t : ℕ} (h : t ≤ 100000) : 0 ≤ decay t := by
  have h' : (t : ℚ) ≤ 100000 := by exact_mod_cast h
  unfold decay
  split
  · split
    · rename_i c
      have c' : (t : ℚ) ≤ 33000 := by exact_mod_cast c
      apply div_nonneg <;> linarith
    · apply div_nonneg <;> linarith
  · exact le_refl _

theorem since_le (s : State) (time : ℕ) : since s time ≤ 100000 := by
  unfold since; dsimp only
  generalize (if s.prev ≠ 0 then time - s.prev else 0) = t
  split <;> omega

theorem abs_sign {σ x : ℚ} (h : Sign σ) (hx : 0 ≤ σ * x) : |x| = σ * x := by
  rcases h with rfl | rfl
  · rw [one_mul] at hx ⊢; exact abs_of_nonneg hx
  · have : x ≤ 0 := by linarith
    rw [abs_of_nonpos this]; ring

/-- The vector of a movement. -/
def vector (s : State) (time : ℕ) (mm : V) : V := ⟨s.vec.x * decay (since s time) + mm.x, s.vec.y * decay (since s time) + mm.y⟩

/-- Near the vertical. -/
def WUp (k σ : ℚ) (v : V) : Prop := k * |v.x| ≤ σ * v.y
/-- Near the horizontal. -/
def WLevel (k σ : ℚ) (v : V) : Prop := |v.y| ≤ k * (σ * v.x)
/-- In a quadrant. -/
def WDiag (σ τ : ℚ) (v : V) : Prop := (0 ≤ σ * v.x ∧ 0 ≤ τ * v.y) ∧ 57 / 100 * (σ * v.x) ≤ τ * v.y ∧ τ * v.y ≤ 173 / 100 * (σ * v.x)

theorem up_vector {k σ : ℚ} (hk : 0 ≤ k) (hσ : Sign σ) {s : State} {time : ℕ} {m : V} (hs : WUp k σ s.vec) (h1 : 0 < σ * m.y) (h2 : k * |m.x| ≤ |m.y|) :
    WUp k σ (vector s time m) ∧ k * |(vector s time m).x| ≤ |(vector s time m).y| ∧ |m.y| ≤ |(vector s time m).y| := by
  have d := decay_range (since_le s time)
  have hm := abs_sign hσ h1.le
  unfold vector
  generalize decay (since s time) = e at *
  have a : |s.vec.x * e + m.x| ≤ |s.vec.x| * e + |m.x| := by
    refine (abs_add_le _ _).trans ?_
    rw [abs_mul, abs_of_nonneg d]
  have b := mul_le_mul_of_nonneg_right hs d
  have c := mul_le_mul_of_nonneg_left a hk
  have z : 0 ≤ k * |s.vec.x| * e := mul_nonneg (mul_nonneg hk (abs_nonneg _)) d
  have w : k * |s.vec.x * e + m.x| ≤ σ * (s.vec.y * e + m.y) := by
    calc k * |s.vec.x * e + m.x| ≤ k * (|s.vec.x| * e + |m.x|) := c
      _ = k * |s.vec.x| * e + k * |m.x| := by ring
      _ ≤ σ * s.vec.y * e + σ * m.y := by linarith
      _ = σ * (s.vec.y * e + m.y) := by ring
  have p : 0 ≤ σ * (s.vec.y * e + m.y) := le_trans (mul_nonneg hk (abs_nonneg _)) w
  refine ⟨w, ?_, ?_⟩
  · show k * |s.vec.x * e + m.x| ≤ |s.vec.y * e + m.y|
    rw [abs_sign hσ p]; exact w
  · show |m.y| ≤ |s.vec.y * e + m.y|
    rw [abs_sign hσ p, hm]
    have : σ * (s.vec.y * e + m.y) = σ * s.vec.y * e + σ * m.y := by ring
    linarith

theorem level_vector {k σ : ℚ} (hk : 0 < k) (hσ : Sign σ) {s : State} {time : ℕ} {m : V} (hs : WLevel k σ s.vec) (h1 : 0 < σ * m.x) (h2 : |m.y| < k * |m.x|) :
    WLevel k σ (vector s time m) ∧ |(vector s time m).y| < k * |(vector s time m).x| ∧ |m.x| ≤ |(vector s time m).x| := by
  have d := decay_range (since_le s time)
  have hm := abs_sign hσ h1.le
  unfold vector
  generalize decay (since s time) = e at *
  have a : |s.vec.y * e + m.y| ≤ |s.vec.y| * e + |m.y| := by
    refine (abs_add_le _ _).trans ?_
    rw [abs_mul, abs_of_nonneg d]
  have b := mul_le_mul_of_nonneg_right hs d
  have z : 0 ≤ |s.vec.y| * e := mul_nonneg (abs_nonneg _) d
  have x0 : 0 ≤ σ * s.vec.x := by
    have : 0 ≤ k * (σ * s.vec.x) := le_trans (abs_nonneg _) hs
    exact nonneg_of_mul_nonneg_right this hk
  have xe : 0 ≤ σ * s.vec.x * e := mul_nonneg x0 d
  have w : |s.vec.y * e + m.y| < k * (σ * (s.vec.x * e + m.x)) := by
    calc |s.vec.y * e + m.y| ≤ |s.vec.y| * e + |m.y| := a
      _ < k * (σ * s.vec.x) * e + k * (σ * m.x) := by rw [hm] at h2; linarith
      _ = k * (σ * (s.vec.x * e + m.x)) := by ring
  have eq : σ * (s.vec.x * e + m.x) = σ * s.vec.x * e + σ * m.x := by ring
  have p : 0 ≤ σ * (s.vec.x * e + m.x) := by rw [eq]; linarith
  refine ⟨w.le, ?_, ?_⟩
  · show |s.vec.y * e + m.y| < k * |s.vec.x * e + m.x|
    rw [abs_sign hσ p]; exact w
  · show |m.x| ≤ |s.vec.x * e + m.x|
    rw [abs_sign hσ p, hm, eq]; linarith

theorem diag_vector {σ τ : ℚ} (hσ : Sign σ) (hτ : Sign τ) {s : State} {time : ℕ} {m : V} (hs : WDiag σ τ s.vec) (h : Diagonal σ τ m) :
    WDiag σ τ (vector s time m) ∧ 57 / 100 * |(vector s time m).x| ≤ |(vector s time m).y| ∧ |(vector s time m).y| < 173 / 100 * |(vector s time m).x| ∧
      |m.x| ≤ |(vector s time m).x| ∧ |m.y| ≤ |(vector s time m).y| := by
  have d := decay_range (since_le s time)
  obtain ⟨⟨m1, m2⟩, m3, m4⟩ := h
  obtain ⟨⟨s1, s2⟩, s3, s4⟩ := hs
  have mx := abs_sign hσ m1.le
  have my := abs_sign hτ m2.le
  unfold vector
  generalize decay (since s time) = e at *
  rw [mx, my] at m3 m4
  have a1 := mul_nonneg s1 d
  have a2 := mul_nonneg s2 d
  have a3 := mul_le_mul_of_nonneg_right s3 d
  have a4 := mul_le_mul_of_nonneg_right s4 d
  have ex : σ * (s.vec.x * e + m.x) = σ * s.vec.x * e + σ * m.x := by ring
  have ey : τ * (s.vec.y * e + m.y) = τ * s.vec.y * e + τ * m.y := by ring
  have px : 0 ≤ σ * (s.vec.x * e + m.x) := by rw [ex]; linarith
  have py : 0 ≤ τ * (s.vec.y * e + m.y) := by rw [ey]; linarith
  unfold WDiag
  dsimp only
  rw [abs_sign hσ px, abs_sign hτ py, mx, my, ex, ey]
  refine ⟨⟨⟨?_, ?_⟩, ?_, ?_⟩, ?_, ?_, ?_, ?_⟩ <;> linarith

theorem longer_of {r : ℚ} {m v : V} (h : r ^ 2 < m.x ^ 2 + m.y ^ 2) (hx : |m.x| ≤ |v.x|) (hy : |m.y| ≤ |v.y|) : longer r v = true := by
  unfold longer
  rw [decide_eq_true_iff]
  have a := sq_le_sq.mpr hx
  have b := sq_le_sq.mpr hy
  linarith

/-! ## The steps -/

theorem apply_free {s : State} (h : s.h = true) (v : s.v = true) (time : ℕ) (mm d : V) : apply s time mm d = (s, d) := by
  unfold apply; rw [h, v]; rfl

theorem run_free : ∀ (fs : List Frame) (s : State), s.h = true → s.v = true → (run s fs).1 = s ∧ (run s fs).2 = fs.map Frame.d
  | [], _, _, _ => ⟨rfl, rfl⟩
  | f :: fs, s, h, v => by
    have e := apply_free h v f.time f.mm f.d
    simp only [run, e, List.map_cons]
    obtain ⟨a, b⟩ := run_free fs s h v
    exact ⟨a, by rw [b]⟩

theorem apply_eq {s : State} (h : ¬ (s.h = true ∧ s.v = true)) (time : ℕ) (mm d : V) :
    let w := vector s time mm
    let ds := horizontal w (since s time) (vertical w (since s time) (s.dv, s.dh))
    let a := active w ds.1 ds.2 (s.h, s.v)
    apply s time mm d = ({ h := a.1, v := a.2, dh := ds.2, dv := ds.1, vec := w, prev := time }, constrain w a.1 a.2 d) := by
  unfold apply
  rw [if_neg (by simpa using h)]
  rfl

/-- C69.  A movement is told as it is, or one of its axes is left out; never anything else. -/
theorem one_axis_at_most (s : State) (time : ℕ) (mm d : V) :
    (apply s time mm d).2 = d ∨ (apply s time mm d).2 = ⟨0, d.y⟩ ∨ (apply s time mm d).2 = ⟨d.x, 0⟩ := by
  by_cases hf : s.h = true ∧ s.v = true
  · left; rw [apply_free hf.1 hf.2]
  · have e := apply_eq hf time mm d
    dsimp only at e
    rw [e]
    dsimp only
    generalize vector s time mm = w
    generalize active w _ _ _ = a
    obtain ⟨h, v⟩ := a
    cases h <;> cases v
    · show constrain w false false d = d ∨ _
      simp only [constrain, Bool.not_false, Bool.and_true, Bool.and_false, Bool.false_and, if_true, Bool.false_eq_true, if_false]
      cases h1 : steep (173 / 100) w
      · cases h2 : steep (57 / 100) w
        · right; right; simp
        · left; simp
      · have h2 : steep (57 / 100) w = true := by
          rw [steep_iff] at h1 ⊢
          rcases h1 with h1 | h1
          · exact Or.inl h1
          · exact Or.inr (by have := abs_nonneg w.x; linarith)
        right; left; simp [h2]
    · right; left; rfl
    · right; right; rfl
    · left; rfl

/-- C69.  Once both axes are free they remain so for the rest of the scroll. -/
theorem free_stays_free (before fs : List Frame) (h : (run init before).1.h = true) (v : (run init before).1.v = true) :
    (run (run init before).1 fs).2 = fs.map Frame.d := (run_free fs _ h v).2

/-! ### Straight on -/

structure UpInv (σ : ℚ) (s : State) : Prop where
  vec : WUp (173 / 100) σ s.vec
  h : s.h = false
  dh : s.dh = 0

theorem up_step {σ : ℚ} (hσ : Sign σ) {s : State} (i : UpInv σ s) {time : ℕ} {m d : V} (hm : Upright σ m) :
    UpInv σ (apply s time m d).1 ∧ (apply s time m d).2 = ⟨0, d.y⟩ := by
  obtain ⟨w1, w2, -⟩ := up_vector (by norm_num) hσ (time := time) i.vec hm.1 hm.2
  have e := apply_eq (s := s) (by rw [i.h]; simp) time m d
  dsimp only at e
  rw [e]
  generalize vector s time m = w at *
  have st := steep_of w2
  have st' : steep (57 / 100) w = true := steep_of (by have := abs_nonneg w.x; linarith)
  have hh : ∀ q, horizontal w (since s time) q = q := by intro q; simp [horizontal, st]
  have dh : (vertical w (since s time) (s.dv, s.dh)).2 = 0 := by
    unfold vertical
    split
    · dsimp only; rw [i.dh]; split
      · unfold less; simp
      · rfl
    · exact i.dh
  rw [hh]
  generalize vertical w (since s time) (s.dv, s.dh) = q at *
  have a1 : (active w q.1 q.2 (s.h, s.v)).1 = false := by
    by_cases c : q.1 = 100000 <;> simp [active, dh, i.h, st, c]
  refine ⟨⟨w1, a1, dh⟩, ?_⟩
  dsimp only
  rw [a1]
  generalize (active w q.1 q.2 (s.h, s.v)).2 = v
  cases v <;> simp [constrain, st, st']

theorem up_run {σ : ℚ} (hσ : Sign σ) : ∀ (fs : List Frame) (s : State), UpInv σ s → (∀ f ∈ fs, Upright σ f.mm) → (run s fs).2 = fs.map fun f => ⟨0, f.d.y⟩
  | [], _, _, _ => rfl
  | f :: fs, s, i, h => by
    obtain ⟨a, b⟩ := up_step hσ i (time := f.time) (d := f.d) (h f List.mem_cons_self)
    simp only [run, List.map_cons, b]
    rw [up_run hσ fs _ a fun g hg => h g (List.mem_cons_of_mem _ hg)]

/-- C69.  Who scrolls up (or down), 60 degrees or more from the horizontal in each movement, never scrolls to the side, and all of the vertical movement is told. -/
theorem upright_stays {σ : ℚ} (hσ : Sign σ) (fs : List Frame) (h : ∀ f ∈ fs, Upright σ f.mm) : (run init fs).2 = fs.map fun f => ⟨0, f.d.y⟩ :=
  up_run hσ fs init ⟨by simp [WUp, init], rfl, rfl⟩ h

structure LevelInv (σ : ℚ) (s : State) : Prop where
  vec : WLevel (57 / 100) σ s.vec
  v : s.v = false
  dv : s.dv = 0

theorem level_step {σ : ℚ} (hσ : Sign σ) {s : State} (i : LevelInv σ s) {time : ℕ} {m d : V} (hm : Level σ m) :
    LevelInv σ (apply s time m d).1 ∧ (apply s time m d).2 = ⟨d.x, 0⟩ := by
  obtain ⟨w1, w2, -⟩ := level_vector (by norm_num) hσ (time := time) i.vec hm.1 hm.2
  have e := apply_eq (s := s) (by rw [i.v]; simp) time m d
  dsimp only at e
  rw [e]
  generalize vector s time m = w at *
  have st := not_steep w2
  have st' : steep (173 / 100) w = false := not_steep (by have := abs_nonneg w.x; linarith)
  have hv : vertical w (since s time) (s.dv, s.dh) = (s.dv, s.dh) := by simp [vertical, st]
  rw [hv]
  have dv : (horizontal w (since s time) (s.dv, s.dh)).1 = 0 := by
    unfold horizontal
    split
    · dsimp only; rw [i.dv]; split
      · unfold less; simp
      · rfl
    · exact i.dv
  generalize horizontal w (since s time) (s.dv, s.dh) = q at *
  have a1 : (active w q.1 q.2 (s.h, s.v)).2 = false := by
    by_cases c : q.2 = 100000 <;> simp [active, dv, i.v, st, c]
  refine ⟨⟨w1, a1, dv⟩, ?_⟩
  dsimp only
  rw [a1]
  generalize (active w q.1 q.2 (s.h, s.v)).1 = v
  cases v <;> simp [constrain, st, st']

theorem level_run {σ : ℚ} (hσ : Sign σ) : ∀ (fs : List Frame) (s : State), LevelInv σ s → (∀ f ∈ fs, Level σ f.mm) → (run s fs).2 = fs.map fun f => ⟨f.d.x, 0⟩
  | [], _, _, _ => rfl
  | f :: fs, s, i, h => by
    obtain ⟨a, b⟩ := level_step hσ i (time := f.time) (d := f.d) (h f List.mem_cons_self)
    simp only [run, List.map_cons, b]
    rw [level_run hσ fs _ a fun g hg => h g (List.mem_cons_of_mem _ hg)]

/-- C69.  Who scrolls to one side, less than 30 degrees from the horizontal in each movement, never scrolls up or down, and all of the horizontal movement is told. -/
theorem level_stays {σ : ℚ} (hσ : Sign σ) (fs : List Frame) (h : ∀ f ∈ fs, Level σ f.mm) : (run init fs).2 = fs.map fun f => ⟨f.d.x, 0⟩ :=
  level_run hσ fs init ⟨by simp [WLevel, init], rfl, rfl⟩ h

/-! ### Diagonally -/

theorem diag_durations {w : V} {t : ℕ} (h1 : 57 / 100 * |w.x| ≤ |w.y|) (h2 : |w.y| < 173 / 100 * |w.x|) (dv dh : ℕ) :
    horizontal w t (vertical w t (dv, dh)) = if longer (15 / 100) w then (more dv t, more dh t) else (dv, dh) := by
  have a := steep_of h1
  have b := not_steep h2
  have x0 := abs_nonneg w.x
  have c : steep (373 / 100) w = false := not_steep (by linarith)
  have d : steep (27 / 100) w = true := steep_of (by linarith)
  unfold horizontal vertical
  simp only [a, b, c, d, Bool.true_and, Bool.not_false, Bool.not_true, Bool.false_eq_true, if_false]
  cases longer (15 / 100) w <;> simp

structure DiagInv (σ τ : ℚ) (s : State) : Prop where
  vec : WDiag σ τ s.vec
  same : s.dv = s.dh
  act : s.h = s.v

theorem diag_step {σ τ : ℚ} (hσ : Sign σ) (hτ : Sign τ) {s : State} (i : DiagInv σ τ s) {time : ℕ} {m d : V} (hm : Diagonal σ τ m) :
    DiagInv σ τ (apply s time m d).1 ∧ (apply s time m d).2 = d := by
  by_cases hf : s.h = true ∧ s.v = true
  · rw [apply_free hf.1 hf.2]; exact ⟨i, rfl⟩
  · obtain ⟨w1, w2, w3, -⟩ := diag_vector hσ hτ (time := time) i.vec hm
    have e := apply_eq hf time m d
    dsimp only at e
    rw [e]
    generalize vector s time m = w at *
    rw [diag_durations w2 w3]
    have a := steep_of w2
    have b := not_steep w3
    have q1 : (if longer (15 / 100) w then (more s.dv (since s time), more s.dh (since s time)) else (s.dv, s.dh)).1 =
        (if longer (15 / 100) w then (more s.dv (since s time), more s.dh (since s time)) else (s.dv, s.dh)).2 := by
      rw [i.same]; split <;> rfl
    generalize (if longer (15 / 100) w then (more s.dv (since s time), more s.dh (since s time)) else (s.dv, s.dh)) = q at *
    obtain ⟨dv, dh⟩ := q
    dsimp only at q1 ⊢
    subst q1
    have a1 : (active w dv dv (s.h, s.v)).1 = (active w dv dv (s.h, s.v)).2 := by
      by_cases c : dv = 100000 <;> cases e : longer 5 w <;> simp [active, i.act, c, a, b, e]
    refine ⟨⟨w1, rfl, a1⟩, ?_⟩
    rw [a1]
    generalize (active w dv dv (s.h, s.v)).2 = v
    cases v <;> simp [constrain, a, b]

theorem diag_run {σ τ : ℚ} (hσ : Sign σ) (hτ : Sign τ) : ∀ (fs : List Frame) (s : State), DiagInv σ τ s → (∀ f ∈ fs, Diagonal σ τ f.mm) →
    (run s fs).2 = fs.map Frame.d
  | [], _, _, _ => rfl
  | f :: fs, s, i, h => by
    obtain ⟨a, b⟩ := diag_step hσ hτ i (time := f.time) (d := f.d) (h f List.mem_cons_self)
    simp only [run, List.map_cons, b]
    rw [diag_run hσ hτ fs _ a fun g hg => h g (List.mem_cons_of_mem _ hg)]

/-- C69.  Who scrolls diagonally from the beginning, into one quadrant and from 30 to 60 degrees in each movement, is not constrained at all. -/
theorem diagonal_free {σ τ : ℚ} (hσ : Sign σ) (hτ : Sign τ) (fs : List Frame) (h : ∀ f ∈ fs, Diagonal σ τ f.mm) : (run init fs).2 = fs.map Frame.d :=
  diag_run hσ hτ fs init ⟨⟨by simp [init], by simp [init]⟩, rfl, rfl⟩ h

/-! ### Breaking out -/

theorem apply_prev (s : State) (time : ℕ) (m d : V) : (apply s time m d).1.prev = s.prev ∨ (apply s time m d).1.prev = time := by
  unfold apply; split
  · exact Or.inl rfl
  · exact Or.inr rfl

theorem run_prev : ∀ (fs : List Frame) (s : State), (run s fs).1.prev = s.prev ∨ ∃ f ∈ fs, (run s fs).1.prev = f.time
  | [], _ => Or.inl rfl
  | f :: fs, s => by
    show (run (apply s f.time f.mm f.d).1 fs).1.prev = s.prev ∨ ∃ g ∈ f :: fs, (run (apply s f.time f.mm f.d).1 fs).1.prev = g.time
    rcases run_prev fs (apply s f.time f.mm f.d).1 with e | ⟨g, hg, e⟩
    · rcases apply_prev s f.time f.mm f.d with e' | e'
      · exact Or.inl (e.trans e')
      · exact Or.inr ⟨f, List.mem_cons_self, e.trans e'⟩
    · exact Or.inr ⟨g, List.mem_cons_of_mem _ hg, e⟩

theorem since_pause {before : List Frame} {f : Frame} (h : Pause before f) : since (run init before).1 f.time = 0 := by
  unfold since
  dsimp only
  rcases run_prev before init with e | ⟨g, hg, e⟩
  · rw [e]; rfl
  · have := h.2 g hg
    rw [e]
    split
    · rw [if_pos (by omega)]
    · rfl

theorem since_steady {s : State} {t time : ℕ} (hp : s.prev = t) (h0 : 0 < t) (h1 : t < time) (h2 : time ≤ t + 100000) : since s time = time - t := by
  unfold since
  dsimp only
  have e : (if t ≠ 0 then time - t else 0) = time - t := if_pos (by omega)
  rw [hp, e, if_neg (by omega)]

theorem vector_pause {s : State} {time : ℕ} (h : since s time = 0) (m : V) : vector s time m = m := by
  unfold vector; rw [h]
  have : decay 0 = 0 := rfl
  rw [this, mul_zero, mul_zero, zero_add, zero_add]

/-- Scrolling diagonally since the time `T`, at the time `t`. -/
def Breaking (σ τ : ℚ) (T t : ℕ) (s : State) : Prop :=
  (s.h = true ∧ s.v = true) ∨ (WDiag σ τ s.vec ∧ s.prev = t ∧ (T ≤ t ∧ t < T + 100000) ∧ t - T ≤ s.dv ∧ t - T ≤ s.dh)

theorem break_start {σ τ : ℚ} (hσ : Sign σ) (hτ : Sign τ) {s : State} {time : ℕ} {m d : V} (hp : since s time = 0) (hm : Diagonal σ τ m) :
    Breaking σ τ time time (apply s time m d).1 := by
  by_cases hf : s.h = true ∧ s.v = true
  · left; rw [apply_free hf.1 hf.2]; exact hf
  · have e := apply_eq hf time m d
    dsimp only at e
    rw [e, vector_pause hp]
    right
    obtain ⟨⟨m1, m2⟩, m3, m4⟩ := hm
    rw [abs_sign hσ m1.le, abs_sign hτ m2.le] at m3 m4
    exact ⟨⟨⟨m1.le, m2.le⟩, m3, m4.le⟩, rfl, ⟨le_refl _, by omega⟩, by omega, by omega⟩

theorem break_step {σ τ : ℚ} (hσ : Sign σ) (hτ : Sign τ) {s : State} {T t time : ℕ} {m d : V} (hT : 0 < T) (i : Breaking σ τ T t s)
    (h1 : t < time) (h2 : time ≤ t + 100000) (hm : Diagonal σ τ m) (hl : Long m) : Breaking σ τ T time (apply s time m d).1 := by
  by_cases hf : s.h = true ∧ s.v = true
  · left; rw [apply_free hf.1 hf.2]; exact hf
  · obtain ⟨iv, ip, ⟨i1, i2⟩, i3, i4⟩ := i.resolve_left hf
    obtain ⟨w1, w2, w3, w4, w5⟩ := diag_vector hσ hτ (time := time) iv hm
    have e := apply_eq hf time m d
    dsimp only at e
    rw [e]
    rw [since_steady ip (by omega) h1 h2]
    generalize vector s time m = w at *
    rw [diag_durations w2 w3, if_pos (longer_of hl w4 w5)]
    dsimp only
    by_cases c : time < T + 100000
    · right
      refine ⟨w1, rfl, ⟨by omega, c⟩, ?_, ?_⟩
      · show time - T ≤ more s.dv (time - t)
        unfold more; split <;> omega
      · show time - T ≤ more s.dh (time - t)
        unfold more; split <;> omega
    · left
      have a1 : more s.dv (time - t) = 100000 := by unfold more; split <;> omega
      have a2 : more s.dh (time - t) = 100000 := by unfold more; split <;> omega
      rw [a1, a2]
      unfold active
      dsimp only
      rw [if_pos rfl, if_pos rfl]
      split
      · exact ⟨rfl, rfl⟩
      · exact ⟨rfl, rfl⟩

theorem break_run {σ τ : ℚ} (hσ : Sign σ) (hτ : Sign τ) {T : ℕ} (hT : 0 < T) : ∀ (fs : List Frame) (s : State) (t : ℕ), Breaking σ τ T t s →
    Steady (fun m => Diagonal σ τ m ∧ Long m) t fs → Breaking σ τ T (lastTime t fs) (run s fs).1
  | [], _, _, i, _ => i
  | f :: fs, s, t, i, h => by
    obtain ⟨⟨h1, h2, h3⟩, hr⟩ := h
    exact break_run hσ hτ hT fs _ f.time (break_step hσ hτ hT i h1 h2 h3.1 h3.2) hr

/-- C69.  Whatever was scrolled before: who pauses for more than 100 ms and then scrolls diagonally for 100 ms, into one quadrant and by more than 0.15 mm in each
movement, is free from then on. -/
theorem diagonal_breaks_out {σ τ : ℚ} (hσ : Sign σ) (hτ : Sign τ) (before fs after : List Frame) (f : Frame) (hp : Pause before f) (hf : Diagonal σ τ f.mm)
    (hs : Steady (fun m => Diagonal σ τ m ∧ Long m) f.time fs) (ht : f.time + 100000 ≤ lastTime f.time fs) :
    (run (run (run init before).1 (f :: fs)).1 after).2 = after.map Frame.d := by
  have b := break_run hσ hτ hp.1 fs _ f.time (break_start hσ hτ (d := f.d) (since_pause hp) hf) hs
  rcases b with b | ⟨_, _, ⟨_, b⟩, _⟩
  · exact (run_free after _ b.1 b.2).2
  · omega

/-! ### Another axis -/

theorem level_durations {w : V} {t : ℕ} (h : |w.y| < 27 / 100 * |w.x|) (hl : longer (15 / 100) w = true) (dv dh : ℕ) :
    horizontal w t (vertical w t (dv, dh)) = (less dv t, more dh t) := by
  have x0 := abs_nonneg w.x
  have a : steep (57 / 100) w = false := not_steep (by linarith)
  have b : steep (173 / 100) w = false := not_steep (by linarith)
  have c : steep (27 / 100) w = false := not_steep h
  simp [horizontal, vertical, a, b, c, hl]

theorem up_durations {w : V} {t : ℕ} (h : 373 / 100 * |w.x| ≤ |w.y|) (hl : longer (15 / 100) w = true) (dv dh : ℕ) :
    horizontal w t (vertical w t (dv, dh)) = (more dv t, less dh t) := by
  have x0 := abs_nonneg w.x
  have a : steep (57 / 100) w = true := steep_of (by linarith)
  have b : steep (173 / 100) w = true := steep_of (by linarith)
  have c : steep (373 / 100) w = true := steep_of h
  simp [horizontal, vertical, a, b, c, hl]

theorem longer_one {a b : ℚ} (h : 15 / 100 < |a|) : (15 / 100 : ℚ) ^ 2 < a ^ 2 + b ^ 2 := by
  have : (15 / 100 : ℚ) ^ 2 < |a| ^ 2 := by
    apply pow_lt_pow_left₀ h (by norm_num) (by norm_num)
  rw [sq_abs] at this
  have := sq_nonneg b
  linarith

theorem longer_x {v : V} (h : 15 / 100 < |v.x|) : longer (15 / 100) v = true := by
  unfold longer; rw [decide_eq_true_iff]; exact longer_one h

theorem longer_y {v : V} (h : 15 / 100 < |v.y|) : longer (15 / 100) v = true := by
  unfold longer; rw [decide_eq_true_iff, add_comm]; exact longer_one h

/-- Scrolling to one side since the time `T`, at the time `t`. -/
def Levelling (σ : ℚ) (T t : ℕ) (s : State) : Prop :=
  (s.h = true ∧ s.v = true) ∨ (WLevel (27 / 100) σ s.vec ∧ s.prev = t ∧ T ≤ t ∧ (t - T ≤ s.dh ∨ s.dh = 100000))

theorem constrain_h (w : V) (v : Bool) (d : V) : (constrain w true v d).x = d.x := by cases v <;> rfl
theorem constrain_v (w : V) (h : Bool) (d : V) : (constrain w h true d).y = d.y := by cases h <;> rfl

theorem levelling_start {σ : ℚ} (hσ : Sign σ) {s : State} {time : ℕ} {m d : V} (hp : since s time = 0) (hm : VeryLevel σ m) :
    Levelling σ time time (apply s time m d).1 := by
  by_cases hf : s.h = true ∧ s.v = true
  · left; rw [apply_free hf.1 hf.2]; exact hf
  · have e := apply_eq hf time m d
    dsimp only at e
    rw [e, vector_pause hp]
    right
    obtain ⟨⟨m1, m2⟩, m3⟩ := hm
    refine ⟨?_, rfl, le_refl _, by omega⟩
    show |m.y| ≤ 27 / 100 * (σ * m.x)
    rw [← abs_sign hσ m1.le]; exact m2.le

theorem levelling_step {σ : ℚ} (hσ : Sign σ) {s : State} {T t time : ℕ} {m d : V} (hT : 0 < T) (i : Levelling σ T t s)
    (h1 : t < time) (h2 : time ≤ t + 100000) (hm : VeryLevel σ m) :
    Levelling σ T time (apply s time m d).1 ∧ (T + 100000 ≤ time → (apply s time m d).2.x = d.x) := by
  by_cases hf : s.h = true ∧ s.v = true
  · rw [apply_free hf.1 hf.2]; exact ⟨Or.inl hf, fun _ => rfl⟩
  · obtain ⟨iv, ip, i1, i3⟩ := i.resolve_left hf
    obtain ⟨w1, w2, w4⟩ := level_vector (by norm_num) hσ (time := time) iv hm.1.1 hm.1.2
    have e := apply_eq hf time m d
    dsimp only at e
    rw [e]
    rw [since_steady ip (by omega) h1 h2]
    have hl := longer_x (lt_of_lt_of_le hm.2 w4)
    generalize vector s time m = w at *
    rw [level_durations w2 hl]
    dsimp only
    refine ⟨Or.inr ⟨w1, rfl, by omega, ?_⟩, fun c => ?_⟩
    · show time - T ≤ more s.dh (time - t) ∨ more s.dh (time - t) = 100000
      unfold more; split <;> omega
    · have a2 : more s.dh (time - t) = 100000 := by unfold more; split <;> omega
      rw [a2]
      have : ∀ dv, (active w dv 100000 (s.h, s.v)).1 = true := by
        intro dv
        unfold active
        dsimp only
        rw [if_pos rfl]
        split
        · rfl
        · split <;> rfl
      rw [this]
      exact constrain_h _ _ _

theorem levelling_run {σ : ℚ} (hσ : Sign σ) {T : ℕ} (hT : 0 < T) : ∀ (fs : List Frame) (s : State) (t : ℕ), Levelling σ T t s →
    Steady (VeryLevel σ) t fs → Levelling σ T (lastTime t fs) (run s fs).1
  | [], _, _, i, _ => i
  | f :: fs, s, t, i, h => by
    obtain ⟨⟨h1, h2, h3⟩, hr⟩ := h
    exact levelling_run hσ hT fs _ f.time (levelling_step hσ hT i h1 h2 h3).1 hr

/-- C69.  Whatever was scrolled before: who pauses for more than 100 ms and then scrolls to one side, less than 15 degrees from the horizontal and by more than
0.15 mm in each movement, scrolls to the side from 100 ms on. -/
theorem level_taken {σ : ℚ} (hσ : Sign σ) (before fs : List Frame) (f g : Frame) (hp : Pause before f) (hf : VeryLevel σ f.mm)
    (hs : Steady (VeryLevel σ) f.time fs) (hg : Steady (VeryLevel σ) (lastTime f.time fs) [g]) (ht : f.time + 100000 ≤ g.time) :
    (apply (run (run init before).1 (f :: fs)).1 g.time g.mm g.d).2.x = g.d.x := by
  have b := levelling_run hσ hp.1 fs _ f.time (levelling_start hσ (d := f.d) (since_pause hp) hf) hs
  exact (levelling_step hσ hp.1 b hg.1.1 hg.1.2.1 hg.1.2.2).2 ht

/-- Scrolling up or down since the time `T`, at the time `t`. -/
def Rising (σ : ℚ) (T t : ℕ) (s : State) : Prop :=
  (s.h = true ∧ s.v = true) ∨ (WUp (373 / 100) σ s.vec ∧ s.prev = t ∧ T ≤ t ∧ (t - T ≤ s.dv ∨ s.dv = 100000))

theorem rising_start {σ : ℚ} (hσ : Sign σ) {s : State} {time : ℕ} {m d : V} (hp : since s time = 0) (hm : VeryUpright σ m) :
    Rising σ time time (apply s time m d).1 := by
  by_cases hf : s.h = true ∧ s.v = true
  · left; rw [apply_free hf.1 hf.2]; exact hf
  · have e := apply_eq hf time m d
    dsimp only at e
    rw [e, vector_pause hp]
    right
    obtain ⟨⟨m1, m2⟩, m3⟩ := hm
    refine ⟨?_, rfl, le_refl _, by omega⟩
    show 373 / 100 * |m.x| ≤ σ * m.y
    rw [← abs_sign hσ m1.le]; exact m2

theorem rising_step {σ : ℚ} (hσ : Sign σ) {s : State} {T t time : ℕ} {m d : V} (hT : 0 < T) (i : Rising σ T t s)
    (h1 : t < time) (h2 : time ≤ t + 100000) (hm : VeryUpright σ m) :
    Rising σ T time (apply s time m d).1 ∧ (T + 100000 ≤ time → (apply s time m d).2.y = d.y) := by
  by_cases hf : s.h = true ∧ s.v = true
  · rw [apply_free hf.1 hf.2]; exact ⟨Or.inl hf, fun _ => rfl⟩
  · obtain ⟨iv, ip, i1, i3⟩ := i.resolve_left hf
    obtain ⟨w1, w2, w4⟩ := up_vector (by norm_num) hσ (time := time) iv hm.1.1 hm.1.2
    have e := apply_eq hf time m d
    dsimp only at e
    rw [e]
    rw [since_steady ip (by omega) h1 h2]
    have hl := longer_y (lt_of_lt_of_le hm.2 w4)
    generalize vector s time m = w at *
    rw [up_durations w2 hl]
    dsimp only
    refine ⟨Or.inr ⟨w1, rfl, by omega, ?_⟩, fun c => ?_⟩
    · show time - T ≤ more s.dv (time - t) ∨ more s.dv (time - t) = 100000
      unfold more; split <;> omega
    · have a2 : more s.dv (time - t) = 100000 := by unfold more; split <;> omega
      rw [a2]
      have : ∀ dh, (active w 100000 dh (s.h, s.v)).2 = true := by
        intro dh
        unfold active
        dsimp only
        rw [if_pos rfl]
        split <;> rfl
      rw [this]
      exact constrain_v _ _ _

theorem rising_run {σ : ℚ} (hσ : Sign σ) {T : ℕ} (hT : 0 < T) : ∀ (fs : List Frame) (s : State) (t : ℕ), Rising σ T t s →
    Steady (VeryUpright σ) t fs → Rising σ T (lastTime t fs) (run s fs).1
  | [], _, _, i, _ => i
  | f :: fs, s, t, i, h => by
    obtain ⟨⟨h1, h2, h3⟩, hr⟩ := h
    exact rising_run hσ hT fs _ f.time (rising_step hσ hT i h1 h2 h3).1 hr

/-- C69.  Whatever was scrolled before: who pauses for more than 100 ms and then scrolls up (or down), 75 degrees or more from the horizontal and by more than
0.15 mm in each movement, scrolls up (or down) from 100 ms on. -/
theorem upright_taken {σ : ℚ} (hσ : Sign σ) (before fs : List Frame) (f g : Frame) (hp : Pause before f) (hf : VeryUpright σ f.mm)
    (hs : Steady (VeryUpright σ) f.time fs) (hg : Steady (VeryUpright σ) (lastTime f.time fs) [g]) (ht : f.time + 100000 ≤ g.time) :
    (apply (run (run init before).1 (f :: fs)).1 g.time g.mm g.d).2.y = g.d.y := by
  have b := rising_run hσ hp.1 fs _ f.time (rising_start hσ (d := f.d) (since_pause hp) hf) hs
  exact (rising_step hσ hp.1 b hg.1.1 hg.1.2.1 hg.1.2.2).2 ht

/-! ## Examples -/

/-- A movement that is told in the same unit. -/
def mv (time : ℕ) (x y : ℚ) : Frame := ⟨time, ⟨x, y⟩, ⟨x, y⟩⟩

/-- C69, the exception: who turns around scrolls to the side for a moment, and what they scrolled up is lost, although both movements are 75 degrees or more from
the horizontal. -/
theorem turning_round_is_lost : VeryUpright 1 (mv 1000 (1 / 2) 2).mm ∧ VeryUpright (-1) (mv 9000 (2 / 5) (-8 / 5)).mm ∧
    (run init [mv 1000 (1 / 2) 2, mv 9000 (2 / 5) (-8 / 5)]).2 = [⟨0, 2⟩, ⟨2 / 5, 0⟩] := by
  unfold VeryUpright
  decide +kernel

/-- Non-vacuity: four movements, with a drift to the side. -/
example : (∀ f ∈ [mv 1000 1 2, mv 60000 0 1, mv 120000 (-1) 4, mv 130000 (1 / 2) 3], Upright 1 f.mm) ∧
    (run init [mv 1000 1 2, mv 60000 0 1, mv 120000 (-1) 4, mv 130000 (1 / 2) 3]).2 = [⟨0, 2⟩, ⟨0, 1⟩, ⟨0, 4⟩, ⟨0, 3⟩] := by
  unfold Upright
  decide +kernel
example : (∀ f ∈ [mv 1000 (-2) 1, mv 60000 (-1) 0, mv 120000 (-4) (-2)], Level (-1) f.mm) ∧
    (run init [mv 1000 (-2) 1, mv 60000 (-1) 0, mv 120000 (-4) (-2)]).2 = [⟨-2, 0⟩, ⟨-1, 0⟩, ⟨-4, 0⟩] := by
  unfold Level
  decide +kernel
example : (∀ f ∈ [mv 1000 1 1, mv 60000 1 (3 / 2), mv 120000 3 2], Diagonal 1 1 f.mm) ∧
    (run init [mv 1000 1 1, mv 60000 1 (3 / 2), mv 120000 3 2]).2 = [⟨1, 1⟩, ⟨1, 3 / 2⟩, ⟨3, 2⟩] := by
  unfold Diagonal
  decide +kernel

/-- Scrolling up for 120 ms, which takes the axis: a diagonal movement is then told as one up. -/
def up_ : List Frame := [mv 1000 0 1, mv 61000 0 1, mv 121000 0 1]
example : (run init (up_ ++ [mv 131000 1 1])).2 = [⟨0, 1⟩, ⟨0, 1⟩, ⟨0, 1⟩, ⟨0, 1⟩] := by decide +kernel

/-- Non-vacuity: breaking out of it, and another axis after it. -/
example : Pause up_ (mv 300000 1 1) ∧ Steady (fun m => Diagonal 1 1 m ∧ Long m) 300000 [mv 350000 1 1, mv 400000 1 1] ∧
    300000 + 100000 ≤ lastTime 300000 [mv 350000 1 1, mv 400000 1 1] ∧
    (run init (up_ ++ [mv 300000 1 1, mv 350000 1 1, mv 400000 1 1, mv 410000 1 9])).2 =
      [⟨0, 1⟩, ⟨0, 1⟩, ⟨0, 1⟩, ⟨0, 1⟩, ⟨0, 1⟩, ⟨1, 1⟩, ⟨1, 9⟩] := by
  unfold Pause Diagonal Long
  simp only [Steady]
  decide +kernel
example : Pause up_ (mv 300000 1 0) ∧ Steady (VeryLevel 1) 300000 [mv 350000 1 0] ∧ Steady (VeryLevel 1) 350000 [mv 400000 1 0] ∧
    (run init (up_ ++ [mv 300000 1 0, mv 350000 1 0, mv 400000 1 0])).2 = [⟨0, 1⟩, ⟨0, 1⟩, ⟨0, 1⟩, ⟨0, 0⟩, ⟨0, 0⟩, ⟨1, 0⟩] := by
  unfold Pause
  simp only [Steady, VeryLevel]
  decide +kernel
example : Pause [mv 1000 1 0, mv 91000 1 0, mv 181000 1 0] (mv 300000 0 1) ∧ Steady (VeryUpright 1) 300000 [mv 350000 0 1] ∧
    Steady (VeryUpright 1) 350000 [mv 400000 0 1] ∧
    (run init [mv 1000 1 0, mv 91000 1 0, mv 181000 1 0, mv 300000 0 1, mv 350000 0 1, mv 400000 0 1]).2 =
      [⟨1, 0⟩, ⟨1, 0⟩, ⟨1, 0⟩, ⟨0, 0⟩, ⟨0, 0⟩, ⟨0, 1⟩] := by
  unfold Pause
  simp only [Steady, VeryUpright]
  decide +kernel
/-- Both axes are free after one long diagonal movement. -/
example : (run init [mv 1000 4 4]).1.h = true ∧ (run init [mv 1000 4 4]).1.v = true := by decide +kernel

end Libinput.Axis
