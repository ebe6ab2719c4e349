import Verif.Coords.Model
import Verif.Accel.Spec
/-
Specification of the coordinates: what the kernel sent since the last report, what was set last, and what a matrix and
an angle mean.
-/
namespace Libinput.Coords
open Accel (V)

/-- The width of an axis, in units. -/
def Range.size (r : Range) : ℝ := r.max - r.min + 1

/-- A coordinate as a part of the axis: 0 at the minimum, 1 one unit after the maximum. -/
noncomputable def Range.part (r : Range) (v : ℝ) : ℝ := (v - r.min) / r.size

/-- `z` is `r` without its fraction. -/
def IsCut (r : ℝ) (z : Int) : Prop := |(z : ℝ)| ≤ |r| ∧ |r - z| < 1 ∧ 0 ≤ r * z

/-- The matrix of no calibration. -/
def noCalibration : Six := ⟨1, 0, 0, 0, 1, 0⟩

/-- What the kernel and the client did, told apart from the device.  `rel`: the movement since the last report; `point`: the absolute position;
`moves`: what the pointer acceleration was given. -/
structure World where
  matrix : Six
  angle : Nat
  rel : P
  moved : Bool
  point : P
  placed : Bool
  moves : List Accel.Op

/-- A quarter turn clockwise, the y axis pointing down. -/
def quarter (p : P) : P := ⟨-p.y, p.x⟩

/-- A movement turned clockwise. -/
def turned (p : P) (degrees : Nat) : P := quarter^[degrees / 90] p

/-- The movement a report is about. -/
def World.delta (w : World) : P := turned w.rel w.angle

/-- A movement as the pointer acceleration takes it. -/
def P.raw (p : P) : V := ⟨p.x, p.y⟩

/-- Before anything happened. -/
def World.init (hw : Hw) (p : P) : World :=
  ⟨hw.prop.getD noCalibration, 0, ⟨0, 0⟩, false, p, false, []⟩

open Classical in
/-- What is known after one more operation. -/
noncomputable def World.step (hw : Hw) (w : World) : Op → World
  | .relX v => if hw.pointer then { w with rel := ⟨w.rel.x + v, w.rel.y⟩, moved := true } else w
  | .relY v => if hw.pointer then { w with rel := ⟨w.rel.x, w.rel.y + v⟩, moved := true } else w
  | .absX v => { w with point := ⟨v, w.point.y⟩, placed := true }
  | .absY v => { w with point := ⟨w.point.x, v⟩, placed := true }
  | .syn t scrolling =>
    let moves := if w.moved ∧ scrolling = false then w.moves ++ [.move false w.delta.raw t] else w.moves
    { w with rel := ⟨0, 0⟩, moved := false, placed := false, moves := moves }
  | .setMatrix v => { w with matrix := v }
  | .setAngle a => if hw.turns ∧ (a = 0 ∨ a = 90 ∨ a = 180 ∨ a = 270) then { w with angle := a } else w
  | .setSpeed s => if Accel.IsSpeed s then { w with moves := w.moves ++ [.setSpeed s] } else w

/-- After a history. -/
noncomputable def World.after (hw : Hw) (p : P) (ops : List Op) : World := ops.foldl (World.step hw) (World.init hw p)

/-- The calibrated position of a point of the device, as parts of the axes: the matrix times the point. -/
noncomputable def Six.apply (m : Six) (rx ry : Range) (p : P) : ℝ × ℝ :=
  (m.a * rx.part p.x + m.b * ry.part p.y + m.c, m.d * rx.part p.x + m.e * ry.part p.y + m.f)

/-- `q` is the point `p`, calibrated by `m`: unchanged by the matrix of no calibration, else the point at the calibrated
position, in whole units. -/
def IsCalibrated (m : Six) (rx ry : Range) (p q : P) : Prop :=
  (m = noCalibration → q = p) ∧
  IsCut (rx.min + rx.size * (m.apply rx ry p).1) q.x ∧ IsCut (ry.min + ry.size * (m.apply rx ry p).2) q.y

/-- A device as libinput accepts it: the axes have a minimum below the maximum, the resolutions are positive. -/
structure Hw.Valid (hw : Hw) : Prop where
  axes : ∀ r, hw.abs = some r → r.1.min < r.1.max ∧ r.2.min < r.2.max ∧ 0 < r.1.res ∧ 0 < r.2.res
  dpi : 0 < hw.accel.dpi

end Libinput.Coords
