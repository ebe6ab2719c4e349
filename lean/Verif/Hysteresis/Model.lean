import Mathlib.Analysis.SpecialFunctions.Sqrt
/-
Model of the motion hysteresis (evdev.h, evdev-mt-touchpad.c).
Simplified: `double` is the real numbers here, so rounding errors of floating point are left out; the
conversion of the result to `int` is modelled.  The `int` operations are modelled with their overflow.
-/
namespace Libinput.Hysteresis

/-- `struct device_coords`. -/
structure Pt where
  x : Int
  y : Int
deriving DecidableEq, Repr

/-- Fits an `int`. -/
def fits (v : Int) : Prop := -2147483648 ≤ v ∧ v ≤ 2147483647

instance (v : Int) : Decidable (fits v) := inferInstanceAs (Decidable (_ ∧ _))

/-- Conversion from `double` to `int`: towards zero. -/
noncomputable def trunc (v : ℝ) : Int := if 0 ≤ v then ⌊v⌋ else ⌈v⌉

/-- `evdev_hysteresis`; `none`: an `int` operation overflows (undefined behaviour).  `dx2 + dy2` is an `int` sum and
only computed if the finger has left the ellipse.  Models: /repo/src/evdev.h:694-753. -/
noncomputable def hysteresis (inp center margin : Pt) : Option Pt :=
  let dx := inp.x - center.x
  let dy := inp.y - center.y
  let dx2 := dx * dx
  let dy2 := dy * dy
  let a := margin.x
  let b := margin.y
  if ¬ (fits dx ∧ fits dy ∧ fits dx2 ∧ fits dy2) then none
  else if a = 0 ∨ b = 0 then some inp
  else if ¬ (fits (a * a) ∧ fits (b * b)) then none
  else
    let normalized : ℝ := Real.sqrt ((dx2 : ℝ) / ((a * a : Int) : ℝ) + (dy2 : ℝ) / ((b * b : Int) : ℝ))
    open Classical in
    if normalized < 1 then some center
    else if ¬ fits (dx2 + dy2) then none
    else
      let finger : ℝ := Real.sqrt ((dx2 + dy2 : Int) : ℝ)
      let marginDist : ℝ := finger / normalized
      let lag : ℝ × ℝ :=
        if dx ≠ 0 then
          let gradient : ℝ := (dy : ℝ) / (dx : ℝ)
          let lx : ℝ := marginDist / Real.sqrt (gradient * gradient + 1)
          (lx, Real.sqrt ((marginDist + lx) * (marginDist - lx)))
        else (0, marginDist)
      some ⟨trunc (if dx ≥ 0 then (inp.x : ℝ) - lag.1 else (inp.x : ℝ) + lag.1),
            trunc (if dy ≥ 0 then (inp.y : ℝ) - lag.2 else (inp.y : ℝ) + lag.2)⟩

/-- The part of a touch and its touchpad the hysteresis uses: `history.count > 0`, the hysteresis centre. -/
structure Touch where
  moved : Bool
  center : Pt

/-- `tp_motion_hysteresis` with the hysteresis enabled, and the `tp_motion_history_push` that follows it: the reported
point.  Models: /repo/src/evdev-mt-touchpad.c:212-225, /repo/src/evdev-mt-touchpad.c:140-151. -/
noncomputable def touchpad (margin : Pt) (t : Touch) (inp : Pt) : Option (Touch × Pt) :=
  if t.moved then (hysteresis inp t.center margin).map fun p => (⟨true, p⟩, p)
  else some (⟨true, inp⟩, inp)

/-- The points reported for a finger path. -/
noncomputable def path (margin : Pt) : Touch → List Pt → Option (List Pt)
  | _, [] => some []
  | t, p :: ps =>
    match touchpad margin t p with
    | none => none
    | some (t, q) => (path margin t ps).map (q :: ·)

end Libinput.Hysteresis
