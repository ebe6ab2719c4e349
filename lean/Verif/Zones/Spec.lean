import Verif.Zones.Model
/-!
Places on a touchpad, in millimetres.
-/
namespace Libinput.Zones.Spec

/-- The width (or height) of the touchpad in millimetres. -/
def mm (a : Axis) : Rat := ((a.max : Rat) - (a.min : Rat)) / (a.res : Rat)

/-- How far a finger is from the left (or the top), in millimetres. -/
def from0 (a : Axis) (v : Int) : Rat := ((v : Rat) - (a.min : Rat)) / (a.res : Rat)

/-- How far a finger is from the right (or the bottom), in millimetres. -/
def from1 (a : Axis) (v : Int) : Rat := ((a.max : Rat) - (v : Rat)) / (a.res : Rat)

/-- One unit of the axis, in millimetres. -/
def unit (a : Axis) : Rat := 1 / (a.res : Rat)

/-- The coordinate is one the kernel can report. -/
def Fits (v : Int) : Prop := -2147483648 ≤ v ∧ v ≤ 2147483647

/-- How high the bottom buttons are: 10 mm, or 15 % of the touchpad if that is less. -/
def bottomHeight (y : Axis) : Rat := if mm y * 15 / 100 ≤ 10 then mm y * 15 / 100 else 10

/-- Where the left button ends: in the middle if there is no middle button; else 5 mm left of it if there are markers, or at 37.5 %. -/
def leftEnds (x : Axis) (marker emulation : Bool) : Rat :=
  if emulation then mm x / 2 else if marker then mm x / 2 - 5 else mm x * 375 / 1000

/-- Where the right button starts. -/
def rightStarts (x : Axis) (marker emulation : Bool) : Rat :=
  if emulation then mm x / 2 else if marker then mm x / 2 + 5 else mm x * 625 / 1000

/-- How wide the strips at the left and the right are where palms are expected: 8 mm, or 8 % if that is less. -/
def palmWidth (x : Axis) : Rat := if mm x * 8 / 100 ≤ 8 then mm x * 8 / 100 else 8

end Libinput.Zones.Spec
