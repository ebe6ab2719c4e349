import Verif.Accel.Model
import Mathlib.Analysis.SpecialFunctions.Trigonometric.Basic
/-
Model of the coordinates of pointers: calibration matrices (util-matrix.h and evdev.c), the conversion to screen
coordinates and mm, the rotation of trackballs, and how the relative and absolute axes of a fallback device become
motion events (evdev-fallback.c).

Simplified: `float` and `double` are the real numbers here, `int` the integers: rounding errors and overflows are left out.
The touches of a touch screen are in `Verif.TouchSlots`; here only their coordinates matter, which are transformed by
`Abs.transform` too.
-/
namespace Libinput.Coords
open Accel (V)

/-- `struct input_absinfo`, as far as it is used here. -/
structure Range where
  min : Int
  max : Int
  res : Int

/-- `struct device_coords`. -/
structure P where
  x : Int
  y : Int
deriving DecidableEq

/-- `struct matrix`; `v01` is `val[0][1]`.  Models: /repo/src/util-matrix.h:33-35. -/
@[ext] structure Mat where
  v00 : ℝ
  v01 : ℝ
  v02 : ℝ
  v10 : ℝ
  v11 : ℝ
  v12 : ℝ
  v20 : ℝ
  v21 : ℝ
  v22 : ℝ

/-- The six numbers of the API. -/
structure Six where
  a : ℝ
  b : ℝ
  c : ℝ
  d : ℝ
  e : ℝ
  f : ℝ

/-- Models: /repo/src/util-matrix.h:44-51. -/
def Mat.identity : Mat := ⟨1, 0, 0, 0, 1, 0, 0, 0, 1⟩

/-- Models: /repo/src/util-matrix.h:53-63. -/
def Mat.ofSix (v : Six) : Mat := ⟨v.a, v.b, v.c, v.d, v.e, v.f, 0, 0, 1⟩

/-- Models: /repo/src/util-matrix.h:65-71. -/
def Mat.scale (sx sy : ℝ) : Mat := { Mat.identity with v00 := sx, v11 := sy }

/-- Models: /repo/src/util-matrix.h:73-79. -/
def Mat.translate (x y : ℝ) : Mat := { Mat.identity with v02 := x, v12 := y }

/-- Models: /repo/src/util-matrix.h:81-94 and /repo/src/util-matrix.h:38-42. -/
noncomputable def Mat.rotate (degrees : Nat) : Mat :=
  let s := Real.sin (Real.pi * degrees / 180)
  let c := Real.cos (Real.pi * degrees / 180)
  { Mat.identity with v00 := c, v01 := -s, v10 := s, v11 := c }

/-- Models: /repo/src/util-matrix.h:96-108. -/
def Mat.isIdentity (m : Mat) : Prop :=
  m.v00 = 1 ∧ m.v01 = 0 ∧ m.v02 = 0 ∧ m.v10 = 0 ∧ m.v11 = 1 ∧ m.v12 = 0 ∧ m.v20 = 0 ∧ m.v21 = 0 ∧ m.v22 = 1

/-- The loops are written out.  Models: /repo/src/util-matrix.h:110-129. -/
noncomputable def Mat.mult (m n : Mat) : Mat where
  v00 := m.v00 * n.v00 + m.v01 * n.v10 + m.v02 * n.v20
  v01 := m.v00 * n.v01 + m.v01 * n.v11 + m.v02 * n.v21
  v02 := m.v00 * n.v02 + m.v01 * n.v12 + m.v02 * n.v22
  v10 := m.v10 * n.v00 + m.v11 * n.v10 + m.v12 * n.v20
  v11 := m.v10 * n.v01 + m.v11 * n.v11 + m.v12 * n.v21
  v12 := m.v10 * n.v02 + m.v11 * n.v12 + m.v12 * n.v22
  v20 := m.v20 * n.v00 + m.v21 * n.v10 + m.v22 * n.v20
  v21 := m.v20 * n.v01 + m.v21 * n.v11 + m.v22 * n.v21
  v22 := m.v20 * n.v02 + m.v21 * n.v12 + m.v22 * n.v22

/-- The conversion of a floating point number to `int`, toward 0. -/
noncomputable def trunc (r : ℝ) : Int := if 0 ≤ r then ⌊r⌋ else ⌈r⌉

/-- Models: /repo/src/util-matrix.h:131-141. -/
noncomputable def Mat.multVec (m : Mat) (p : P) : P :=
  ⟨trunc (p.x * m.v00 + p.y * m.v01 + m.v02), trunc (p.x * m.v10 + p.y * m.v11 + m.v12)⟩

/-- Models: /repo/src/util-matrix.h:143-152. -/
def Mat.toSix (m : Mat) : Six := ⟨m.v00, m.v01, m.v02, m.v10, m.v11, m.v12⟩

/-- The absolute axes of a device and its calibration.  Models: /repo/src/evdev.h:187-202. -/
structure Abs where
  rx : Range
  ry : Range
  applies : Bool
  calibration : Mat
  user : Mat
  dflt : Mat

open Classical in
/-- Models: /repo/src/evdev.c:2360-2422. -/
noncomputable def Abs.calibrate (a : Abs) (v : Six) : Abs :=
  let transform := Mat.ofSix v
  let a := { a with applies := decide (¬ transform.isIdentity), user := Mat.ofSix v }
  if a.applies = false then { a with calibration := Mat.identity }
  else
    let sx : ℝ := a.rx.max - a.rx.min + 1
    let sy : ℝ := a.ry.max - a.ry.min + 1
    let scale := (Mat.translate a.rx.min a.ry.min).mult (Mat.scale sx sy)
    let transform := scale.mult transform
    let scale := (Mat.translate (-a.rx.min / sx) (-a.ry.min / sy)).mult (Mat.scale (1 / sx) (1 / sy))
    { a with calibration := transform.mult scale }

/-- Models: /repo/src/evdev.c:2352-2358. -/
noncomputable def Abs.setDefault (a : Abs) (v : Six) : Abs := { a with dflt := Mat.ofSix v }.calibrate v

/-- The axes of a new device; `prop`: the property `LIBINPUT_CALIBRATION_MATRIX`, if it has a valid one.
Models: the initialization in /repo/src/evdev.c:2205-2314, and /repo/src/evdev.c:2424-2451. -/
noncomputable def Abs.new (rx ry : Range) (prop : Option Six) : Abs :=
  let a : Abs := ⟨rx, ry, false, Mat.identity, Mat.identity, Mat.identity⟩
  match prop with
  | some v => a.setDefault v
  | none => a

open Classical in
/-- Models: /repo/src/evdev.c:530-539 and /repo/src/libinput.c:3818-3826. -/
noncomputable def Abs.getMatrix (a : Abs) : Six × Bool := (a.user.toSix, decide (¬ a.user.isIdentity))
open Classical in
/-- Models: /repo/src/evdev.c:541-550. -/
noncomputable def Abs.getDefaultMatrix (a : Abs) : Six × Bool := (a.dflt.toSix, decide (¬ a.dflt.isIdentity))

/-- Models: /repo/src/evdev.c:331-339. -/
noncomputable def Abs.transform (a : Abs) (p : P) : P := if a.applies then a.calibration.multVec p else p

/-- Models: /repo/src/evdev.c:354-359. -/
noncomputable def scaleAxis (r : Range) (val : ℝ) (toRange : Nat) : ℝ := (val - r.min) * toRange / (r.max - r.min + 1)

/-- Models: /repo/src/evdev.c:361-367. -/
noncomputable def Abs.transformX (a : Abs) (x : ℝ) (width : Nat) : ℝ := scaleAxis a.rx x width
/-- Models: /repo/src/evdev.c:369-375. -/
noncomputable def Abs.transformY (a : Abs) (y : ℝ) (height : Nat) : ℝ := scaleAxis a.ry y height

/-- Models: /repo/src/evdev.h:629-634. -/
noncomputable def convertToMm (r : Range) (v : ℝ) : ℝ := (v - r.min) / r.res

/-- What a device is.  `turns`: it is a trackball, whose rotation can be set.  `pointer`: it has the pointer capability. -/
structure Hw where
  abs : Option (Range × Range)
  prop : Option Six
  pointer : Bool
  turns : Bool
  accel : Accel.Hw

/-- `struct fallback_dispatch` and `struct evdev_device`, as far as movements are concerned.  `angle`, `matrix`: `dispatch->rotation`. -/
structure Dev where
  hw : Hw
  abs : Option Abs
  angle : Nat
  matrix : Mat
  filter : Accel.Filter
  rel : P
  relPending : Bool
  point : P
  absPending : Bool

/-- What the client is told: a movement accelerated and raw, an absolute position, a scroll movement. -/
inductive Out where
  | motion (time : Nat) (accel raw : V)
  | absolute (time : Nat) (p : P)
  | scroll (time : Nat) (d : V)

/-- What happens.  `scrolling`: the movement is used for on-button scrolling (`Verif.ButtonScroll`). -/
inductive Op where
  | relX (v : Int)
  | relY (v : Int)
  | absX (v : Int)
  | absY (v : Int)
  | syn (time : Nat) (scrolling : Bool)
  | setMatrix (v : Six)
  | setAngle (degrees : Nat)
  | setSpeed (s : ℝ)

/-- A new device; `none`: an assertion failed.  The point is that of the kernel, here `p`.
Models: /repo/src/evdev-fallback.c:1560-1574 and /repo/src/evdev.c:1092-1116. -/
noncomputable def Hw.dev (hw : Hw) (p : P) : Option Dev :=
  match hw.accel.filter 0 with
  | none => none
  | some f =>
    some
      { hw := hw, abs := hw.abs.map fun r => Abs.new r.1 r.2 hw.prop, angle := 0, matrix := Mat.identity, filter := f, rel := ⟨0, 0⟩, relPending := false, point := p, absPending := false }

/-- Models: /repo/src/evdev-fallback.c:831-857 and /repo/src/evdev-fallback.c:815-829. -/
def Dev.processRel (d : Dev) (x y : Int) : Dev :=
  if d.hw.pointer = false then d
  else { d with rel := ⟨d.rel.x + x, d.rel.y + y⟩, relPending := true }

/-- Models: /repo/src/evdev-fallback.c:159-173. -/
noncomputable def Dev.rotateRelative (d : Dev) : Dev :=
  if d.hw.turns = false then d else { d with rel := d.matrix.multVec d.rel }

/-- Models: /repo/src/evdev-fallback.c:96-103. -/
noncomputable def Dev.normalizeDelta (d : Dev) (p : P) : V := ⟨p.x * 1000 / d.hw.accel.dpi, p.y * 1000 / d.hw.accel.dpi⟩

/-- `normalized_is_zero`.  Models: /repo/src/libinput-private.h:763-767. -/
def isZero (v : V) : Prop := v.x = 0 ∧ v.y = 0

open Classical in
/-- Models: /repo/src/evdev-fallback.c:175-215. -/
noncomputable def Dev.flushRelative (d : Dev) (time : Nat) (scrolling : Bool) : List Out × Dev :=
  if d.hw.pointer = false then ([], d)
  else
    let d := d.rotateRelative
    let unaccel := d.normalizeDelta d.rel
    let raw : V := ⟨d.rel.x, d.rel.y⟩
    let d := { d with rel := ⟨0, 0⟩ }
    if scrolling then ([.scroll time unaccel], d)
    else
      let r := d.filter.dispatch false raw time
      let d := { d with filter := r.2 }
      if isZero r.1 ∧ isZero unaccel then ([], d) else ([.motion time r.1 raw], d)

/-- Models: /repo/src/evdev-fallback.c:280-295. -/
noncomputable def Dev.flushAbsolute (d : Dev) (time : Nat) : List Out :=
  if d.hw.pointer = false then []
  else
    match d.abs with
    | some a => [.absolute time (a.transform d.point)]
    | none => []

/-- The part of it that is about movements of pointers.  Models: /repo/src/evdev-fallback.c:976-1040. -/
noncomputable def Dev.handleState (d : Dev) (time : Nat) (scrolling : Bool) : List Out × Dev :=
  let r := if d.relPending then d.flushRelative time scrolling else ([], d)
  let out := if r.2.absPending then r.2.flushAbsolute time else []
  (r.1 ++ out, { r.2 with relPending := false, absPending := false })

/-- Models: /repo/src/libinput.c:4317-4329 and /repo/src/evdev-fallback.c:1532-1543. -/
noncomputable def Dev.setAngle (d : Dev) (degrees : Nat) : Dev :=
  if d.hw.turns = false then d
  else if degrees ≥ 360 ∨ degrees % 90 ≠ 0 then d
  else { d with angle := degrees, matrix := Mat.rotate degrees }

/-- Models: /repo/src/libinput.c:3808-3816 and /repo/src/evdev.c:519-528. -/
noncomputable def Dev.setMatrix (d : Dev) (v : Six) : Dev := { d with abs := d.abs.map fun a => a.calibrate v }

open Classical in
/-- A speed out of range is refused; so is any on devices without pointer acceleration, which have none of these movements.
Models: /repo/src/libinput.c:3885-3897 and /repo/src/evdev.c:1126-1135. -/
noncomputable def Dev.setSpeed (d : Dev) (s : ℝ) : Option Dev :=
  if ¬ (-1 ≤ s ∧ s ≤ 1) then some d
  else
    match d.filter.setSpeed s with
    | some f => some { d with filter := f }
    | none => none

/-- One operation; `none`: an assertion failed.  Models, for the absolute axes: /repo/src/evdev-fallback.c:680-697. -/
noncomputable def Dev.step (d : Dev) : Op → Option (List Out × Dev)
  | .relX v => some ([], d.processRel v 0)
  | .relY v => some ([], d.processRel 0 v)
  | .absX v => some ([], { d with point := { d.point with x := v }, absPending := true })
  | .absY v => some ([], { d with point := { d.point with y := v }, absPending := true })
  | .syn t s => some (d.handleState t s)
  | .setMatrix v => some ([], d.setMatrix v)
  | .setAngle a => some ([], d.setAngle a)
  | .setSpeed s => match d.setSpeed s with
    | some d => some ([], d)
    | none => none

/-- A history, with what the client was told. -/
noncomputable def Dev.run (d : Dev) : List Op → Option (List Out × Dev)
  | [] => some ([], d)
  | op :: ops => match d.step op with
    | none => none
    | some (o, d) => match d.run ops with
      | none => none
      | some (os, d) => some (o ++ os, d)

end Libinput.Coords
