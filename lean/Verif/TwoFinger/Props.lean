import Verif.TwoFinger.Spec
import Verif.Together.Props
import Verif.Axis.Props
/-!
C73.
-/
namespace Libinput.TwoFinger
open Follow Follow.Spec Together.Spec Axis.Spec Spec

theorem middle_eq (c : Config) (on : Nat → Bool) (f : Frame) : middle c on f = phys c (Together.touchesDelta on true f.ds) := by
  obtain ⟨h1, h2, h3⟩ := Together.loop_fingers on f.ds
  have sx : sum (fun i => ((moved i f.ds).x : Rat) / c.rx) (fingers f.ds.length on) = (Together.loop on 0 f.ds).2.x * (1 / c.rx) := by
    rw [h2, ← Together.sum_mul]; exact Together.sum_congr fun j _ => by ring
  have sy : sum (fun i => ((moved i f.ds).y : Rat) / c.ry) (fingers f.ds.length on) = (Together.loop on 0 f.ds).2.y * (1 / c.ry) := by
    rw [h3, ← Together.sum_mul]; exact Together.sum_congr fun j _ => by ring
  unfold middle phys meanX meanY Together.touchesDelta
  rw [sx, sy, ← h1]
  generalize Together.loop on 0 f.ds = L at *
  obtain ⟨n, x, y⟩ := L
  dsimp only
  by_cases hn : n = 0
  · subst hn
    have e : fingers f.ds.length on = [] := List.length_eq_zero_iff.mp h1.symm
    rw [e] at h2 h3
    simp only [sum] at h2 h3
    simp [h2, h3]
  · simp only [Bool.true_eq_false, hn, or_self, if_false]
    congr 1 <;> ring

/-- One frame: either nothing moves and nothing is told, or it is a movement of the axis model by the movement of the middle. -/
theorem frame_eq {c : Config} (hx : 0 < c.rx) (hy : 0 < c.ry) {k : Rat} (hk : k ≠ 0) (on : Nat → Bool) (s : Axis.State) (f : Frame) :
    (middle c on f = ⟨0, 0⟩ → frame c k on s f = (s, none)) ∧
    (middle c on f ≠ ⟨0, 0⟩ → let r := Axis.apply s f.time (middle c on f) ⟨k * c.rx * (middle c on f).x, k * c.rx * (middle c on f).y⟩
      frame c k on s f = (r.1, some ⟨r.2.x, r.2.y⟩)) := by
  have rx : (c.rx : Rat) ≠ 0 := by exact_mod_cast hx.ne'
  have ry : (c.ry : Rat) ≠ 0 := by exact_mod_cast hy.ne'
  rw [middle_eq]
  have r := Together.raw_zero (c := c) (v := Together.touchesDelta on true f.ds) (k := k)
  unfold frame Together.scroll
  dsimp only
  generalize hR : Together.touchesDelta on true f.ds = raw at *
  obtain ⟨x, y⟩ := raw
  generalize Together.unaccelerated c k ⟨x, y⟩ = u at *
  obtain ⟨ux, uy⟩ := u
  dsimp only at r
  obtain ⟨rfl, rfl⟩ := r
  unfold phys
  constructor
  · intro h
    simp only [Axis.V.mk.injEq, div_eq_zero_iff, rx, ry, or_false] at h
    obtain ⟨rfl, rfl⟩ := h
    rw [if_pos (by simp)]
  · intro h
    rw [if_neg]
    · dsimp only
      have e1 : x * k = k * c.rx * (x / c.rx) := by field_simp
      have e2 : y * ((c.rx : Rat) / c.ry) * k = k * c.rx * (y / c.ry) := by field_simp
      rw [e1, e2]
    · intro e
      apply h
      simp only [Together.Vec.mk.injEq, mul_eq_zero, div_eq_zero_iff, rx, ry, hk, or_false] at e
      rw [e.1, e.2]; simp

theorem kept {c : Config} (hx : 0 < c.rx) (hy : 0 < c.ry) {k : Rat} (hk : k ≠ 0) (on : Nat → Bool) (P : Axis.V → Prop) (I : Axis.State → Prop)
    (px py : Rat) (step : ∀ s, I s → ∀ time m d, P m → I (Axis.apply s time m d).1 ∧ (Axis.apply s time m d).2 = ⟨px * d.x, py * d.y⟩) :
    ∀ (fs : List Frame) (s : Axis.State), I s → Always c on P fs →
      (run c k on s fs).2.map told = fs.map fun f => ⟨px * (k * c.rx * (middle c on f).x), py * (k * c.rx * (middle c on f).y)⟩
  | [], _, _, _ => rfl
  | f :: fs, s, i, h => by
    have hr : Always c on P fs := fun g hg => h g (List.mem_cons_of_mem _ hg)
    obtain ⟨a, b⟩ := frame_eq hx hy hk on s f
    simp only [run, List.map_cons]
    by_cases z : middle c on f = ⟨0, 0⟩
    · rw [a z, kept hx hy hk on P I px py step fs s i hr, z]
      simp [told]
    · have p := (h f List.mem_cons_self).resolve_left z
      have e := b z
      dsimp only at e
      obtain ⟨j, t⟩ := step s i f.time (middle c on f) ⟨k * c.rx * (middle c on f).x, k * c.rx * (middle c on f).y⟩ p
      rw [e, kept hx hy hk on P I px py step fs _ j hr, t]
      rfl

/-- C73.  While the middle of the fingers only moves up (or down), 60 degrees or more from the horizontal, each frame scrolls by exactly as many mm as it moves
vertically, times a number that is that of the touchpad, and never to the side. -/
theorem scrolls_up {c : Config} (hx : 0 < c.rx) (hy : 0 < c.ry) {k : Rat} (hk : k ≠ 0) (on : Nat → Bool) {σ : Rat} (hσ : Sign σ) (fs : List Frame)
    (h : Always c on (Upright σ) fs) : (run c k on Axis.init fs).2.map told = fs.map fun f => ⟨0, k * c.rx * (middle c on f).y⟩ := by
  have := kept hx hy hk on (Upright σ) (Axis.UpInv σ) 0 1 (fun s i time m d p => by
    obtain ⟨a, b⟩ := Axis.up_step hσ i (time := time) (d := d) p
    exact ⟨a, by rw [b]; simp⟩) fs Axis.init ⟨by simp [Axis.WUp, Axis.init], rfl, rfl⟩ h
  simpa using this

/-- C73.  And to the side, less than 30 degrees from the horizontal. -/
theorem scrolls_sideways {c : Config} (hx : 0 < c.rx) (hy : 0 < c.ry) {k : Rat} (hk : k ≠ 0) (on : Nat → Bool) {σ : Rat} (hσ : Sign σ) (fs : List Frame)
    (h : Always c on (Level σ) fs) : (run c k on Axis.init fs).2.map told = fs.map fun f => ⟨k * c.rx * (middle c on f).x, 0⟩ := by
  have := kept hx hy hk on (Level σ) (Axis.LevelInv σ) 1 0 (fun s i time m d p => by
    obtain ⟨a, b⟩ := Axis.level_step hσ i (time := time) (d := d) p
    exact ⟨a, by rw [b]; simp⟩) fs Axis.init ⟨by simp [Axis.WLevel, Axis.init], rfl, rfl⟩ h
  simpa using this

/-- C73.  And diagonally into one quadrant, from 30 to 60 degrees, where it scrolls along both axes. -/
theorem scrolls_diagonally {c : Config} (hx : 0 < c.rx) (hy : 0 < c.ry) {k : Rat} (hk : k ≠ 0) (on : Nat → Bool) {σ τ : Rat} (hσ : Sign σ) (hτ : Sign τ)
    (fs : List Frame) (h : Always c on (Diagonal σ τ) fs) :
    (run c k on Axis.init fs).2.map told = fs.map fun f => ⟨k * c.rx * (middle c on f).x, k * c.rx * (middle c on f).y⟩ := by
  have := kept hx hy hk on (Diagonal σ τ) (Axis.DiagInv σ τ) 1 1 (fun s i time m d p => by
    obtain ⟨a, b⟩ := Axis.diag_step hσ hτ i (time := time) (d := d) p
    exact ⟨a, by rw [b]; simp⟩) fs Axis.init ⟨⟨by simp [Axis.init], by simp [Axis.init]⟩, rfl, rfl⟩ h
  simpa using this

theorem told_sum (g : Together.Vec → Rat) (es : List (Option Together.Vec)) : sum (fun e => g (told e)) es = sum g (es.map told) := (Together.sum_map told es).symm

/-- C73.  Altogether: as many mm as the middle of the fingers went up, and nothing to the side, whatever the times are and however the way is divided into frames. -/
theorem whole_way_up {c : Config} (hx : 0 < c.rx) (hy : 0 < c.ry) {k : Rat} (hk : k ≠ 0) (on : Nat → Bool) {σ : Rat} (hσ : Sign σ) (fs : List Frame)
    (h : Always c on (Upright σ) fs) :
    toldX (run c k on Axis.init fs).2 = 0 ∧ toldY (run c k on Axis.init fs).2 / c.rx = k * sum (fun f => (middle c on f).y) fs := by
  have rx : (c.rx : Rat) ≠ 0 := by exact_mod_cast hx.ne'
  have e := scrolls_up hx hy hk on hσ fs h
  have x := told_sum (fun v => v.x) (run c k on Axis.init fs).2
  have y := told_sum (fun v => v.y) (run c k on Axis.init fs).2
  unfold toldX toldY
  rw [x, y, e, Together.sum_map, Together.sum_map]
  dsimp only
  refine ⟨Together.sum_zero fun _ _ => rfl, ?_⟩
  have : sum (fun f => k * c.rx * (middle c on f).y) fs = sum (fun f => (middle c on f).y) fs * (k * c.rx) := by
    rw [← Together.sum_mul]; exact Together.sum_congr fun _ _ => by ring
  rw [this]
  field_simp

/-- C73.  And to the side. -/
theorem whole_way_sideways {c : Config} (hx : 0 < c.rx) (hy : 0 < c.ry) {k : Rat} (hk : k ≠ 0) (on : Nat → Bool) {σ : Rat} (hσ : Sign σ) (fs : List Frame)
    (h : Always c on (Level σ) fs) :
    toldX (run c k on Axis.init fs).2 / c.rx = k * sum (fun f => (middle c on f).x) fs ∧ toldY (run c k on Axis.init fs).2 = 0 := by
  have rx : (c.rx : Rat) ≠ 0 := by exact_mod_cast hx.ne'
  have e := scrolls_sideways hx hy hk on hσ fs h
  have x := told_sum (fun v => v.x) (run c k on Axis.init fs).2
  have y := told_sum (fun v => v.y) (run c k on Axis.init fs).2
  unfold toldX toldY
  rw [x, y, e, Together.sum_map, Together.sum_map]
  dsimp only
  refine ⟨?_, Together.sum_zero fun _ _ => rfl⟩
  have : sum (fun f => k * c.rx * (middle c on f).x) fs = sum (fun f => (middle c on f).x) fs * (k * c.rx) := by
    rw [← Together.sum_mul]; exact Together.sum_congr fun _ _ => by ring
  rw [this]
  field_simp

/-- C73.  And diagonally: along both axes by the whole way. -/
theorem whole_way_diagonally {c : Config} (hx : 0 < c.rx) (hy : 0 < c.ry) {k : Rat} (hk : k ≠ 0) (on : Nat → Bool) {σ τ : Rat} (hσ : Sign σ) (hτ : Sign τ)
    (fs : List Frame) (h : Always c on (Diagonal σ τ) fs) :
    toldX (run c k on Axis.init fs).2 / c.rx = k * sum (fun f => (middle c on f).x) fs ∧
    toldY (run c k on Axis.init fs).2 / c.rx = k * sum (fun f => (middle c on f).y) fs := by
  have rx : (c.rx : Rat) ≠ 0 := by exact_mod_cast hx.ne'
  have e := scrolls_diagonally hx hy hk on hσ hτ fs h
  have x := told_sum (fun v => v.x) (run c k on Axis.init fs).2
  have y := told_sum (fun v => v.y) (run c k on Axis.init fs).2
  unfold toldX toldY
  rw [x, y, e, Together.sum_map, Together.sum_map]
  dsimp only
  have a : sum (fun f => k * c.rx * (middle c on f).x) fs = sum (fun f => (middle c on f).x) fs * (k * c.rx) := by
    rw [← Together.sum_mul]; exact Together.sum_congr fun _ _ => by ring
  have b : sum (fun f => k * c.rx * (middle c on f).y) fs = sum (fun f => (middle c on f).y) fs * (k * c.rx) := by
    rw [← Together.sum_mul]; exact Together.sum_congr fun _ _ => by ring
  rw [a, b]
  constructor <;> field_simp

/-- Non-vacuity: a touchpad with 10 and 20 units per mm; two fingers of which one moves, then both, then none, then both with a drift to the side. -/
def frames_ : List Frame := [⟨1000, [⟨0, 40⟩, ⟨0, 0⟩]⟩, ⟨9000, [⟨2, 60⟩, ⟨-2, 60⟩]⟩, ⟨17000, [⟨0, 0⟩, ⟨0, 0⟩]⟩, ⟨200000, [⟨4, 80⟩, ⟨4, 80⟩]⟩]
example : Always Together.demo (fun _ => true) (Upright 1) frames_ ∧
    (run Together.demo 2 (fun _ => true) Axis.init frames_).2 = [some ⟨0, 20⟩, some ⟨0, 60⟩, none, some ⟨0, 80⟩] := by
  unfold Always Upright frames_
  decide +kernel
example : Always Together.demo (fun _ => true) (Level (-1)) [⟨1000, [⟨-20, 4⟩, ⟨-20, 0⟩]⟩] ∧
    (run Together.demo 2 (fun _ => true) Axis.init [⟨1000, [⟨-20, 4⟩, ⟨-20, 0⟩]⟩]).2 = [some ⟨-40, 0⟩] := by
  unfold Always Level
  decide +kernel
example : Always Together.demo (fun _ => true) (Diagonal 1 (-1)) [⟨1000, [⟨20, -40⟩, ⟨20, -40⟩]⟩] ∧
    (run Together.demo 2 (fun _ => true) Axis.init [⟨1000, [⟨20, -40⟩, ⟨20, -40⟩]⟩]).2 = [some ⟨40, -40⟩] := by
  unfold Always Diagonal
  decide +kernel

end Libinput.TwoFinger
