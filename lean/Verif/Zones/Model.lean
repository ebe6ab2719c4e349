import Verif.SoftButtons.Model
import Verif.Motion.Model
/-!
Where the zones of a touchpad are: from the axes the kernel reports to the edges the models of `Verif.SoftButtons.Model` and
`Verif.Motion.Model` work with (evdev-mt-touchpad.c, evdev-mt-touchpad-buttons.c, evdev-mt-touchpad-edge-scroll.c,
evdev-mt-touchpad-thumb.c).  `double`s are exact rationals here.
-/
namespace Libinput.Zones

/-- An axis: its range, its resolution in units per millimetre and its fuzz.  Models: /repo/src/evdev.h:880-902. -/
structure Axis where
  min : Int
  max : Int
  res : Int
  fuzz : Int := 0
deriving DecidableEq, Repr

/-- A `double` becomes an `int`: towards zero.  Models: the conversion in /repo/src/evdev.h:908-930. -/
def toInt (q : Rat) : Int := if 0 ≤ q then q.floor else q.ceil

/-- `evdev_device_get_size`, one axis; touchpads have a resolution (`assume`).
Models: /repo/src/evdev.c:2524-2542, /repo/src/evdev.h:629-634. -/
def size (a : Axis) : Rat := ((a.max : Rat) - (a.min : Rat)) / (a.res : Rat)

/-- `tp_init_default_resolution`, one axis: a size of `n` mm is assumed.  Models: /repo/src/evdev-mt-touchpad.c:3438-3470. -/
def assume (a : Axis) (n : Int) : Axis := { a with res := ((a.max - a.min).natAbs : Int).tdiv n }

/-- `evdev_device_mm_to_units`, one axis.  Models: /repo/src/evdev.h:908-930. -/
def units (a : Axis) (mm : Rat) : Int := toInt (mm * (a.res : Rat) + (a.min : Rat))

/-- The software buttons.  `marker`: the quirk for touchpads with visible markers; `far` is left open as in `SoftButtons`.
Models: /repo/src/evdev-mt-touchpad-buttons.c:641-699, /repo/src/evdev-mt-touchpad-buttons.c:701-731. -/
def geo (x y : Axis) (marker : Bool) (far : SoftButtons.Pt → SoftButtons.Pt → Bool) : SoftButtons.Geo where
  top := units y (if size y * (15 / 100) > 10 then size y - 10 else size y * (85 / 100))
  half := units x (size x * (1 / 2))
  midL := if marker then units x (size x / 2 - 5) else units x (size x * (375 / 1000))
  midR := if marker then units x (size x / 2 + 5) else units x (size x * (625 / 1000))
  upper := units y 10
  upperBig := units y (10 * 3)
  upL := units x (size x * (40 / 100))
  upR := units x (size x * (60 / 100))
  xres := x.res
  yres := y.res
  ymax := y.max
  height := y.max - y.min
  far := far

/-- What the device is: `external`: `EVDEV_TAG_EXTERNAL_TOUCHPAD`; `below`: `tp_is_tpkb_combo_below`; `tablet`: `tp_is_tablet`;
`hasTop`: `buttons.has_topbuttons`; `clickpad`: `buttons.is_clickpad`.
Models: /repo/src/evdev-mt-touchpad.c:3198-3226. -/
structure Kind where
  external : Bool := false
  below : Bool := false
  tablet : Bool := false
  hasTop : Bool := false
  clickpad : Bool := true
deriving DecidableEq, Repr

/-- `tp_init_palmdetect_edge`: the left, right and upper edge.  Models: /repo/src/evdev-mt-touchpad.c:3244-3278. -/
def palmEdges (x y : Axis) (k : Kind) : Int × Int × Int :=
  if k.external && !k.below then (SoftButtons.INT_MIN, SoftButtons.INT_MAX, SoftButtons.INT_MIN)
  else if size x < 70 then (SoftButtons.INT_MIN, SoftButtons.INT_MAX, SoftButtons.INT_MIN)
  else
    let m := if 8 < size x * (8 / 100) then 8 else size x * (8 / 100)
    (units x m, units x (size x - m),
     if !k.hasTop && decide (size y > 55) then units y (size y * (5 / 100)) else SoftButtons.INT_MIN)

/-- `tp_init_palmdetect`, the edges.  Models: /repo/src/evdev-mt-touchpad.c:3360-3388. -/
def palm (x y : Axis) (k : Kind) : Int × Int × Int :=
  if k.external && !k.below && !k.tablet then (SoftButtons.INT_MIN, SoftButtons.INT_MAX, SoftButtons.INT_MIN)
  else if k.tablet then (SoftButtons.INT_MIN, SoftButtons.INT_MAX, SoftButtons.INT_MIN)
  else palmEdges x y k

/-- `tp_edge_scroll_init`: the right and the bottom edge.  Models: /repo/src/evdev-mt-touchpad-edge-scroll.c:304-350. -/
def scrollEdges (x y : Axis) (k : Kind) : Int × Int :=
  (units x (size x - 7), if k.clickpad || decide (size y ≥ 40) then units y (size y - 7) else SoftButtons.INT_MAX)

/-- `tp_init_thumb`: whether thumbs are looked for, and the upper and the lower line.
Models: /repo/src/evdev-mt-touchpad-thumb.c:383-449. -/
def thumbLines (y : Axis) (k : Kind) : Bool × Int × Int :=
  if !k.clickpad || decide (size y < 50) then (false, 0, 0)
  else (true, units y (size y * (85 / 100)), units y (size y * (92 / 100)))

/-- `tp_init_hysteresis`: the margins, and whether it is enabled.  Models: /repo/src/evdev-mt-touchpad.c:3472-3497. -/
def hysteresis (x y : Axis) : Int × Int × Bool :=
  (if x.fuzz ≠ 0 then x.fuzz else x.res.tdiv 4, if y.fuzz ≠ 0 then y.fuzz else y.res.tdiv 4, decide (x.fuzz ≠ 0) || decide (y.fuzz ≠ 0))

/-- The zones of `Verif.Motion.Model`, put into a configuration.  Models: as the functions above, /repo/src/evdev-mt-touchpad.c:3360-3388. -/
def config (x y : Axis) (k : Kind) (c : Motion.Config) : Motion.Config :=
  { c with
    palmLeft := (palm x y k).1, palmRight := (palm x y k).2.1, palmUpper := (palm x y k).2.2
    rightEdge := (scrollEdges x y k).1, bottomEdge := (scrollEdges x y k).2
    thumbs := (thumbLines y k).1, upperLine := (thumbLines y k).2.1, lowerLine := (thumbLines y k).2.2
    clickpad := k.clickpad }

/-- The edges of the software buttons of a touchpad whose size gives `geo`; `big`: while the touchpad itself is off.
Models: /repo/src/evdev-mt-touchpad-buttons.c:752-775, /repo/src/evdev-mt-touchpad-buttons.c:701-731. -/
def edges (s : SoftButtons.Pad) (big : Bool) : SoftButtons.Edges := (SoftButtons.initTop (SoftButtons.switchMethod s) big).edges

end Libinput.Zones
