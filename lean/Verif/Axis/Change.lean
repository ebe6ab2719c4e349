import Verif.Axis.Props
/-!
Changing the axis of a scroll, and leaving it with one movement.
-/
namespace Libinput.Axis
open Spec

/-- C69.  Whatever was scrolled before: one diagonal movement of more than 5 mm after a pause of more than 100 ms is told as it is, and so is all that follows. -/
theorem long_diagonal_frees {σ τ : ℚ} (before after : List Frame) (f : Frame) (hp : Pause before f) (hf : Diagonal σ τ f.mm)
    (hl : 5 ^ 2 < f.mm.x ^ 2 + f.mm.y ^ 2) : (run (run init before).1 (f :: after)).2 = f.d :: after.map Frame.d := by
  have key : (apply (run init before).1 f.time f.mm f.d).2 = f.d ∧ (apply (run init before).1 f.time f.mm f.d).1.h = true ∧
      (apply (run init before).1 f.time f.mm f.d).1.v = true := by
    by_cases c : (run init before).1.h = true ∧ (run init before).1.v = true
    · rw [apply_free c.1 c.2]; exact ⟨rfl, c⟩
    · have e := apply_eq c f.time f.mm f.d
      dsimp only at e
      rw [e, vector_pause (since_pause hp)]
      have a : ∀ dv dh q, active f.mm dv dh q = (true, true) := by
        intro dv dh q
        have l : longer 5 f.mm = true := by unfold longer; rw [decide_eq_true_iff]; exact hl
        unfold active
        rw [l, not_steep hf.2.2, steep_of hf.2.1]
        rfl
      rw [a]
      exact ⟨rfl, rfl, rfl⟩
  simp only [run, key.1, (run_free after _ key.2.1 key.2.2).2]

/-! ### The durations are 100 ms at most -/

theorem more_le (d t : ℕ) : more d t ≤ 100000 := by unfold more; split <;> omega
theorem less_le (d t : ℕ) : less d t ≤ d := by unfold less; split <;> omega

theorem durations_le (w : V) (t dv dh : ℕ) (h1 : dv ≤ 100000) (h2 : dh ≤ 100000) :
    (horizontal w t (vertical w t (dv, dh))).1 ≤ 100000 ∧ (horizontal w t (vertical w t (dv, dh))).2 ≤ 100000 := by
  have a := more_le dv t
  have b := less_le dh t
  have v : (vertical w t (dv, dh)).1 ≤ 100000 ∧ (vertical w t (dv, dh)).2 ≤ 100000 := by
    unfold vertical; split
    · refine ⟨a, ?_⟩; dsimp only; split <;> omega
    · exact ⟨h1, h2⟩
  generalize vertical w t (dv, dh) = q at *
  have c := more_le q.2 t
  have d := less_le q.1 t
  unfold horizontal; split
  · refine ⟨?_, c⟩; dsimp only; split <;> omega
  · exact v

theorem apply_le {s : State} (h : s.dv ≤ 100000 ∧ s.dh ≤ 100000) (time : ℕ) (m d : V) :
    (apply s time m d).1.dv ≤ 100000 ∧ (apply s time m d).1.dh ≤ 100000 := by
  unfold apply; split
  · exact h
  · exact durations_le _ _ _ _ h.1 h.2

theorem run_le : ∀ (fs : List Frame) (s : State), s.dv ≤ 100000 ∧ s.dh ≤ 100000 → (run s fs).1.dv ≤ 100000 ∧ (run s fs).1.dh ≤ 100000
  | [], _, h => h
  | f :: fs, _, h => run_le fs _ (apply_le h f.time f.mm f.d)

theorem up_run_inv {σ : ℚ} (hσ : Sign σ) : ∀ (fs : List Frame) (s : State), UpInv σ s → (∀ f ∈ fs, Upright σ f.mm) → UpInv σ (run s fs).1
  | [], _, i, _ => i
  | f :: fs, _, i, h =>
    up_run_inv hσ fs _ (up_step hσ i (time := f.time) (d := f.d) (h f List.mem_cons_self)).1 fun g hg => h g (List.mem_cons_of_mem _ hg)

theorem level_run_inv {σ : ℚ} (hσ : Sign σ) : ∀ (fs : List Frame) (s : State), LevelInv σ s → (∀ f ∈ fs, Level σ f.mm) → LevelInv σ (run s fs).1
  | [], _, i, _ => i
  | f :: fs, _, i, h =>
    level_run_inv hσ fs _ (level_step hσ i (time := f.time) (d := f.d) (h f List.mem_cons_self)).1 fun g hg => h g (List.mem_cons_of_mem _ hg)

/-! ### From the vertical to the horizontal -/

/-- Scrolling to one side since the time `T`, at the time `t`, after scrolling up or down. -/
structure ToLevel (σ : ℚ) (T t : ℕ) (s : State) : Prop where
  vec : WLevel (27 / 100) σ s.vec
  prev : s.prev = t
  le : T ≤ t
  dh : s.dh = min (t - T) 100000
  dv : s.dv ≤ 100000 - (t - T)
  act : if T + 100000 ≤ t then s.h = true ∧ s.v = false else s.h = false

theorem to_level_start {σ ρ : ℚ} (hσ : Sign σ) {s : State} {time : ℕ} {m d : V} (i : UpInv ρ s) (l : s.dv ≤ 100000) (hp : since s time = 0)
    (hm : VeryLevel σ m) : ToLevel σ time time (apply s time m d).1 := by
  have e := apply_eq (s := s) (by rw [i.h]; simp) time m d
  dsimp only at e
  rw [e, vector_pause hp, hp]
  obtain ⟨⟨m1, m2⟩, m3⟩ := hm
  rw [level_durations m2 (longer_x m3)]
  have st : steep (57 / 100) m = false := not_steep (by have := abs_nonneg m.x; linarith)
  have b := less_le s.dv 0
  have c : more s.dh 0 = 0 := by rw [i.dh]; rfl
  refine ⟨?_, rfl, le_refl _, ?_, ?_, ?_⟩
  · show |m.y| ≤ 27 / 100 * (σ * m.x)
    rw [← abs_sign hσ m1.le]; exact m2.le
  · dsimp only; rw [c]; omega
  · dsimp only; omega
  · rw [if_neg (by omega)]
    dsimp only
    rw [c, i.h]
    by_cases c : less s.dv 0 = 100000 <;> simp [active, c, st]

theorem to_level_step {σ : ℚ} (hσ : Sign σ) {s : State} {T t time : ℕ} {m d : V} (hT : 0 < T) (i : ToLevel σ T t s)
    (h1 : t < time) (h2 : time ≤ t + 100000) (hm : VeryLevel σ m) :
    ToLevel σ T time (apply s time m d).1 ∧ (T + 100000 ≤ time → (apply s time m d).2 = ⟨d.x, 0⟩) := by
  have le := i.le
  have hf : ¬ (s.h = true ∧ s.v = true) := by
    have := i.act
    split at this
    · rw [this.2]; simp
    · rw [this]; simp
  obtain ⟨w1, w2, w4⟩ := level_vector (by norm_num) hσ (time := time) i.vec hm.1.1 hm.1.2
  have e := apply_eq hf time m d
  dsimp only at e
  rw [e, since_steady i.prev (by omega) h1 h2]
  have hl := longer_x (lt_of_lt_of_le hm.2 w4)
  generalize vector s time m = w at *
  rw [level_durations w2 hl]
  dsimp only
  have st : steep (57 / 100) w = false := not_steep (by have := abs_nonneg w.x; linarith)
  have dh : more s.dh (time - t) = min (time - T) 100000 := by
    have := i.dh
    unfold more; split <;> omega
  have dv : less s.dv (time - t) ≤ 100000 - (time - T) := by
    have := i.dv
    unfold less; split <;> omega
  rw [dh]
  generalize less s.dv (time - t) = v at *
  have nv : v ≠ 100000 := by omega
  have act : if T + 100000 ≤ time then active w v (min (time - T) 100000) (s.h, s.v) = (true, false)
      else (active w v (min (time - T) 100000) (s.h, s.v)).1 = false := by
    split
    · rename_i c
      have e1 : min (time - T) 100000 = 100000 := by omega
      have e2 : v < 50000 := by omega
      rw [e1]
      simp [active, nv, e2, st]
    · rename_i c
      have e1 : min (time - T) 100000 ≠ 100000 := by omega
      have e2 := i.act
      rw [if_neg (by omega)] at e2
      simp [active, nv, e1, e2, st]
  refine ⟨⟨w1, rfl, by omega, rfl, dv, ?_⟩, fun c => ?_⟩
  · show if T + 100000 ≤ time then _ else _
    split
    · rename_i c
      rw [if_pos c] at act
      dsimp only; rw [act]; exact ⟨rfl, rfl⟩
    · rename_i c
      rw [if_neg c] at act
      exact act
  · rw [if_pos c] at act
    rw [act]; rfl

theorem to_level_run {σ : ℚ} (hσ : Sign σ) {T : ℕ} (hT : 0 < T) : ∀ (fs : List Frame) (s : State) (t : ℕ), ToLevel σ T t s →
    Steady (VeryLevel σ) t fs → ToLevel σ T (lastTime t fs) (run s fs).1
  | [], _, _, i, _ => i
  | f :: fs, s, t, i, h => by
    obtain ⟨⟨h1, h2, h3⟩, hr⟩ := h
    exact to_level_run hσ hT fs _ f.time (to_level_step hσ hT i h1 h2 h3).1 hr

/-- C69.  Who scrolled up (or down), pauses for more than 100 ms and then scrolls to one side, less than 15 degrees from the horizontal and by more than 0.15 mm
in each movement, scrolls to the side and no more up or down from 100 ms on. -/
theorem upright_to_level {ρ σ : ℚ} (hρ : Sign ρ) (hσ : Sign σ) (before fs : List Frame) (f g : Frame) (hb : ∀ f ∈ before, Upright ρ f.mm)
    (hp : Pause before f) (hf : VeryLevel σ f.mm) (hs : Steady (VeryLevel σ) f.time fs) (hg : Steady (VeryLevel σ) (lastTime f.time fs) [g])
    (ht : f.time + 100000 ≤ g.time) :
    (apply (run (run init before).1 (f :: fs)).1 g.time g.mm g.d).2 = ⟨g.d.x, 0⟩ := by
  have u := up_run_inv hρ before init ⟨by simp [WUp, init], rfl, rfl⟩ hb
  have l := run_le before init ⟨by simp [init], by simp [init]⟩
  have b := to_level_run hσ hp.1 fs _ f.time (to_level_start hσ (d := f.d) u l.1 (since_pause hp) hf) hs
  exact (to_level_step hσ hp.1 b hg.1.1 hg.1.2.1 hg.1.2.2).2 ht

/-! ### From the horizontal to the vertical -/

/-- Scrolling up or down since the time `T`, at the time `t`, after scrolling to a side. -/
structure ToUpright (σ : ℚ) (T t : ℕ) (s : State) : Prop where
  vec : WUp (373 / 100) σ s.vec
  prev : s.prev = t
  le : T ≤ t
  dv : s.dv = min (t - T) 100000
  dh : s.dh ≤ 100000 - (t - T)
  act : if T + 100000 ≤ t then s.h = false ∧ s.v = true else s.v = false

theorem to_up_start {σ ρ : ℚ} (hσ : Sign σ) {s : State} {time : ℕ} {m d : V} (i : LevelInv ρ s) (l : s.dh ≤ 100000) (hp : since s time = 0)
    (hm : VeryUpright σ m) : ToUpright σ time time (apply s time m d).1 := by
  have e := apply_eq (s := s) (by rw [i.v]; simp) time m d
  dsimp only at e
  rw [e, vector_pause hp, hp]
  obtain ⟨⟨m1, m2⟩, m3⟩ := hm
  rw [up_durations m2 (longer_y m3)]
  have st : steep (173 / 100) m = true := steep_of (by have := abs_nonneg m.x; linarith)
  have b := less_le s.dh 0
  have c : more s.dv 0 = 0 := by rw [i.dv]; rfl
  refine ⟨?_, rfl, le_refl _, ?_, ?_, ?_⟩
  · show 373 / 100 * |m.x| ≤ σ * m.y
    rw [← abs_sign hσ m1.le]; exact m2
  · dsimp only; rw [c]; omega
  · dsimp only; omega
  · rw [if_neg (by omega)]
    dsimp only
    rw [c, i.v]
    by_cases c : less s.dh 0 = 100000 <;> simp [active, c, st]

theorem to_up_step {σ : ℚ} (hσ : Sign σ) {s : State} {T t time : ℕ} {m d : V} (hT : 0 < T) (i : ToUpright σ T t s)
    (h1 : t < time) (h2 : time ≤ t + 100000) (hm : VeryUpright σ m) :
    ToUpright σ T time (apply s time m d).1 ∧ (T + 100000 ≤ time → (apply s time m d).2 = ⟨0, d.y⟩) := by
  have le := i.le
  have hf : ¬ (s.h = true ∧ s.v = true) := by
    have := i.act
    split at this
    · rw [this.1]; simp
    · rw [this]; simp
  obtain ⟨w1, w2, w4⟩ := up_vector (by norm_num) hσ (time := time) i.vec hm.1.1 hm.1.2
  have e := apply_eq hf time m d
  dsimp only at e
  rw [e, since_steady i.prev (by omega) h1 h2]
  have hl := longer_y (lt_of_lt_of_le hm.2 w4)
  generalize vector s time m = w at *
  rw [up_durations w2 hl]
  dsimp only
  have st : steep (173 / 100) w = true := steep_of (by have := abs_nonneg w.x; linarith)
  have dv : more s.dv (time - t) = min (time - T) 100000 := by
    have := i.dv
    unfold more; split <;> omega
  have dh : less s.dh (time - t) ≤ 100000 - (time - T) := by
    have := i.dh
    unfold less; split <;> omega
  rw [dv]
  generalize less s.dh (time - t) = v at *
  have nv : v ≠ 100000 := by omega
  have act : if T + 100000 ≤ time then active w (min (time - T) 100000) v (s.h, s.v) = (false, true)
      else (active w (min (time - T) 100000) v (s.h, s.v)).2 = false := by
    split
    · rename_i c
      have e1 : min (time - T) 100000 = 100000 := by omega
      have e2 : v < 50000 := by omega
      rw [e1]
      simp [active, e2, st]
    · rename_i c
      have e1 : min (time - T) 100000 ≠ 100000 := by omega
      have e2 := i.act
      rw [if_neg (by omega)] at e2
      simp [active, nv, e1, e2, st]
  refine ⟨⟨w1, rfl, by omega, rfl, dh, ?_⟩, fun c => ?_⟩
  · show if T + 100000 ≤ time then _ else _
    split
    · rename_i c
      rw [if_pos c] at act
      dsimp only; rw [act]; exact ⟨rfl, rfl⟩
    · rename_i c
      rw [if_neg c] at act
      exact act
  · rw [if_pos c] at act
    rw [act]; rfl

theorem to_up_run {σ : ℚ} (hσ : Sign σ) {T : ℕ} (hT : 0 < T) : ∀ (fs : List Frame) (s : State) (t : ℕ), ToUpright σ T t s →
    Steady (VeryUpright σ) t fs → ToUpright σ T (lastTime t fs) (run s fs).1
  | [], _, _, i, _ => i
  | f :: fs, s, t, i, h => by
    obtain ⟨⟨h1, h2, h3⟩, hr⟩ := h
    exact to_up_run hσ hT fs _ f.time (to_up_step hσ hT i h1 h2 h3).1 hr

/-- C69.  Who scrolled to a side, pauses for more than 100 ms and then scrolls up (or down), 75 degrees or more from the horizontal and by more than 0.15 mm
in each movement, scrolls up (or down) and no more to the side from 100 ms on. -/
theorem level_to_upright {ρ σ : ℚ} (hρ : Sign ρ) (hσ : Sign σ) (before fs : List Frame) (f g : Frame) (hb : ∀ f ∈ before, Level ρ f.mm)
    (hp : Pause before f) (hf : VeryUpright σ f.mm) (hs : Steady (VeryUpright σ) f.time fs) (hg : Steady (VeryUpright σ) (lastTime f.time fs) [g])
    (ht : f.time + 100000 ≤ g.time) :
    (apply (run (run init before).1 (f :: fs)).1 g.time g.mm g.d).2 = ⟨0, g.d.y⟩ := by
  have u := level_run_inv hρ before init ⟨by simp [WLevel, init], rfl, rfl⟩ hb
  have l := run_le before init ⟨by simp [init], by simp [init]⟩
  have b := to_up_run hσ hp.1 fs _ f.time (to_up_start hσ (d := f.d) u l.2 (since_pause hp) hf) hs
  exact (to_up_step hσ hp.1 b hg.1.1 hg.1.2.1 hg.1.2.2).2 ht

/-- Non-vacuity: a long diagonal movement after scrolling up; and both changes of the axis, where the last movement is not quite straight. -/
example : Pause up_ (mv 300000 4 4) ∧ Diagonal 1 1 (mv 300000 4 4).mm ∧ (5 : ℚ) ^ 2 < 4 ^ 2 + 4 ^ 2 ∧
    (run init (up_ ++ [mv 300000 4 4, mv 310000 1 9])).2 = [⟨0, 1⟩, ⟨0, 1⟩, ⟨0, 1⟩, ⟨4, 4⟩, ⟨1, 9⟩] := by
  unfold Pause Diagonal
  decide +kernel
example : (∀ f ∈ up_, Upright 1 f.mm) ∧ Pause up_ (mv 300000 1 0) ∧ Steady (VeryLevel 1) 300000 [mv 350000 1 0, mv 400000 1 (1 / 5)] ∧
    (run init (up_ ++ [mv 300000 1 0, mv 350000 1 0, mv 400000 1 (1 / 5)])).2 = [⟨0, 1⟩, ⟨0, 1⟩, ⟨0, 1⟩, ⟨0, 0⟩, ⟨0, 0⟩, ⟨1, 0⟩] := by
  unfold Pause Upright
  simp only [Steady, VeryLevel]
  decide +kernel
example : (∀ f ∈ [mv 1000 1 0, mv 91000 1 0, mv 181000 1 0], Level 1 f.mm) ∧ Pause [mv 1000 1 0, mv 91000 1 0, mv 181000 1 0] (mv 300000 0 1) ∧
    Steady (VeryUpright 1) 300000 [mv 350000 0 1, mv 400000 (1 / 5) 1] ∧
    (run init [mv 1000 1 0, mv 91000 1 0, mv 181000 1 0, mv 300000 0 1, mv 350000 0 1, mv 400000 (1 / 5) 1]).2 =
      [⟨1, 0⟩, ⟨1, 0⟩, ⟨1, 0⟩, ⟨0, 0⟩, ⟨0, 0⟩, ⟨0, 1⟩] := by
  unfold Pause Level
  simp only [Steady, VeryUpright]
  decide +kernel

end Libinput.Axis
