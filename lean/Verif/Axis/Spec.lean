import Verif.Axis.Model
/-!
The words the properties of scrolling along an axis are stated with.
-/
namespace Libinput.Axis.Spec

/-- A direction: 1 or -1. -/
def Sign (σ : ℚ) : Prop := σ = 1 ∨ σ = -1

/-- Up (or down), 60 degrees or more from the horizontal (the code takes 1.73 for the root of 3). -/
def Upright (σ : ℚ) (m : V) : Prop := 0 < σ * m.y ∧ 173 / 100 * |m.x| ≤ |m.y|

/-- To the right (or to the left), less than 30 degrees from the horizontal (the code takes 0.57). -/
def Level (σ : ℚ) (m : V) : Prop := 0 < σ * m.x ∧ |m.y| < 57 / 100 * |m.x|

/-- Into one quadrant, from 30 to 60 degrees from the horizontal. -/
def Diagonal (σ τ : ℚ) (m : V) : Prop := (0 < σ * m.x ∧ 0 < τ * m.y) ∧ 57 / 100 * |m.x| ≤ |m.y| ∧ |m.y| < 173 / 100 * |m.x|

/-- More than 0.15 mm. -/
def Long (m : V) : Prop := (15 / 100) ^ 2 < m.x ^ 2 + m.y ^ 2

/-- Up (or down) by more than 0.15 mm, 75 degrees or more from the horizontal (the code takes 3.73). -/
def VeryUpright (σ : ℚ) (m : V) : Prop := (0 < σ * m.y ∧ 373 / 100 * |m.x| ≤ |m.y|) ∧ 15 / 100 < |m.y|

/-- To one side by more than 0.15 mm, less than 15 degrees from the horizontal (the code takes 0.27). -/
def VeryLevel (σ : ℚ) (m : V) : Prop := (0 < σ * m.x ∧ |m.y| < 27 / 100 * |m.x|) ∧ 15 / 100 < |m.x|

/-- From the time `t` on, movements of one kind, 100 ms or less apart. -/
def Steady (P : V → Prop) (t : ℕ) : List Frame → Prop
  | [] => True
  | f :: fs => (t < f.time ∧ f.time ≤ t + 100000 ∧ P f.mm) ∧ Steady P f.time fs

/-- The time of the last movement. -/
def lastTime (t : ℕ) : List Frame → ℕ
  | [] => t
  | f :: fs => lastTime f.time fs

/-- A new start after a pause of more than 100 ms. -/
def Pause (before : List Frame) (f : Frame) : Prop := 0 < f.time ∧ ∀ g ∈ before, g.time + 100000 < f.time

end Libinput.Axis.Spec
