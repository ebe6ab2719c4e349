import Verif.TouchSlots.Model
/-!
A pen over a touch screen: where the hand that holds the pen is taken to be, and what the touch screen does with the fingers there
(evdev-tablet.c, evdev-fallback.c).  The touch screen is the one of `Verif.TouchSlots.Model`.
-/
namespace Libinput.Hand
open Libinput.TouchSlots

/-- The axes of a tablet or touch screen: their minima, and their resolutions in units per millimetre.
Models: /repo/src/evdev.h:880-902. -/
structure Axes where
  minX : Int := 0
  minY : Int := 0
  resX : Int := 1
  resY : Int := 1
deriving DecidableEq, Repr

/-- `evdev_device_units_to_mm`: integers are divided.  Models: /repo/src/evdev.h:880-902. -/
def toMm (a : Axes) (p : Pt) : Int × Int := ((p.1 - a.minX).tdiv a.resX, (p.2 - a.minY).tdiv a.resY)

/-- `tablet_calculate_arbitration_rect`.  The numbers are `double`s in the code, but whole ones.
Models: /repo/src/evdev-tablet.c:1478-1517. -/
def arbitrationRect (t : Axes) (p : Pt) (tilt : Rat) : Rect :=
  let mm := toMm t p
  let x := if tilt > 0 then mm.1 - 20 else mm.1 + 20 - 200
  let w := 200
  let (x, w) := if x < 0 then (0, w - x) else (x, w)
  let y := mm.2 - 50
  let h := 200
  let (y, h) := if y < 0 then (0, h - y) else (y, h)
  ⟨x, y, w, h⟩

/-- `evdev_phys_rect_to_units`.  Models: /repo/src/evdev.h:932-956. -/
def toUnits (a : Axes) (r : Rect) : Rect :=
  ⟨r.x * a.resX + a.minX, r.y * a.resY + a.minY, r.w * a.resX, r.h * a.resY⟩

/-- The tablet's `arbitration`, the slots of the seat, and the touch screen of the tablet. -/
structure St where
  arb : Arb := .notActive
  map : Map := 0#32
  dev : Dev

/-- What happens. -/
inductive Op where
  /-- a frame of the tablet while a pen is in proximity, at `p` and with this tilt to the right -/
  | pen (p : Pt) (tilt : Rat)
  /-- a frame of the tablet with which the pen leaves or in which there is none; or the tablet is suspended -/
  | leave
  /-- something happens to the touch screen -/
  | touch (op : TouchSlots.Op)
  /-- touches on other devices take or give back slots of the seat -/
  | elsewhere (m : Map)
deriving Repr

/-- Something happens to the touch screen, which is device 0.  Models: as `TouchSlots.devStep`, /repo/src/evdev-fallback.c:1042-1070. -/
def touch (s : St) (op : TouchSlots.Op) : St × List Ev :=
  let r := devStep s.dev s.map 0 op
  ({ s with map := r.1, dev := r.2.1 }, r.2.2)

/-- `tablet_set_touch_device_enabled`; there is a touch device.  A rectangle that is not given is not looked at.
Models: /repo/src/evdev-tablet.c:1922-1943. -/
def setEnabled (S : Axes) (s : St) (which : Arb) (rect : Rect) : St × List Ev :=
  touch { s with arb := which } (.arbitration which (toUnits S rect))

/-- `tablet_update_touch_device_rect`.  Simplified: it is also called when no axis has changed, which makes no difference, as then
the rectangle has not changed either.  Models: /repo/src/evdev-tablet.c:1519-1539. -/
def updateRect (T S : Axes) (s : St) (p : Pt) (tilt : Rat) : St × List Ev :=
  if s.arb ≠ .ignoreRect then (s, [])
  else touch s (.updateRect (toUnits S (arbitrationRect T p tilt)))

/-- `tablet_toggle_touch_device` while a pen is in proximity.  Models: /repo/src/evdev-tablet.c:1945-1978. -/
def toggle (T S : Axes) (s : St) (p : Pt) (tilt : Rat) : St × List Ev :=
  if tilt = 0 then setEnabled S s .ignoreAll ⟨0, 0, 0, 0⟩
  else if s.arb ≠ .ignoreRect then setEnabled S s .ignoreRect (arbitrationRect T p tilt)
  else (s, [])

/-- Only the tablet switches the arbitration of its touch device.
Models: /repo/src/evdev-tablet.c:1695-1727, /repo/src/evdev-tablet.c:2042-2076, /repo/src/evdev-tablet.c:2078-2095. -/
def step (T S : Axes) (s : St) : Op → St × List Ev
  | .pen p tilt =>
    let r := updateRect T S s p tilt
    let r' := toggle T S r.1 p tilt
    (r'.1, r.2 ++ r'.2)
  | .leave => setEnabled S s .notActive ⟨0, 0, 0, 0⟩
  | .touch (.arbitration _ _) => (s, [])
  | .touch (.updateRect _) => (s, [])
  | .touch op => touch s op
  | .elsewhere m => ({ s with map := m }, [])

/-- A history. -/
def run (T S : Axes) (s : St) : List Op → St × List Ev
  | [] => (s, [])
  | op :: ops =>
    let r := step T S s op
    let r' := run T S r.1 ops
    (r'.1, r.2 ++ r'.2)

/-- A touch screen with `n` slots, without touches and without a pen.  Models: as `TouchSlots.newDev`, /repo/src/evdev-fallback.c:1576-1637. -/
def start (n cur : Nat) (hasPalm : Bool) (hyst : Option (Pt → Pt → Pt)) : St := { dev := newDev true n cur hasPalm hyst }

end Libinput.Hand
