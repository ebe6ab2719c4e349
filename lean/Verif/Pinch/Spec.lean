import Verif.Pinch.Model
/-!
The words the properties of pinches are stated with.
-/
namespace Libinput.Pinch.Spec
open Motion Accel

/-- From the second finger to the first, in mm. -/
noncomputable def between (r : Res) (t : Two) : ℂ := ⟨((t.a.x : ℝ) - (t.b.x : ℝ)) / r.x, ((t.a.y : ℝ) - (t.b.y : ℝ)) / r.y⟩

/-- The middle of the fingers, in units. -/
noncomputable def middle (t : Two) : V := ⟨((t.a.x : ℝ) + (t.b.x : ℝ)) / 2, ((t.a.y : ℝ) + (t.b.y : ℝ)) / 2⟩

/-- What was told so far. -/
noncomputable def turns : List (Option Event) → ℝ
  | [] => 0
  | none :: es => turns es
  | some e :: es => e.turn + turns es
noncomputable def movesX : List (Option Event) → ℝ
  | [] => 0
  | none :: es => movesX es
  | some e :: es => e.moved.x + movesX es
noncomputable def movesY : List (Option Event) → ℝ
  | [] => 0
  | none :: es => movesY es
  | some e :: es => e.moved.y + movesY es

/-- The scale of the last event, or `k` if there is none. -/
noncomputable def lastScale (k : ℝ) : List (Option Event) → ℝ
  | [] => k
  | none :: es => lastScale k es
  | some e :: es => lastScale e.scale es

/-- The fingers are seen in the direction `θ`. -/
def Seen (w : ℂ) (θ : ℝ) : Prop := w = ‖w‖ * Complex.exp (θ * Complex.I)

/-- Frames in which the fingers turn, each with the direction in which the fingers are seen; from one to the next they turn by less than half a circle. -/
def Turning (r : Res) (θ : ℝ) : List (Two × ℝ) → Prop
  | [] => True
  | (t, θ') :: fs => (between r t ≠ 0 ∧ Seen (between r t) θ' ∧ |θ' - θ| < Real.pi) ∧ Turning r θ' fs

/-- The direction at the end. -/
noncomputable def lastSeen (θ : ℝ) : List (Two × ℝ) → ℝ
  | [] => θ
  | (_, θ') :: fs => lastSeen θ' fs

end Libinput.Pinch.Spec
