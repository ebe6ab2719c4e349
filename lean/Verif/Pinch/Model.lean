import Verif.Accel.Model
import Verif.Motion.Model
import Mathlib.Analysis.SpecialFunctions.Complex.Arg
/-!
What a pinch gesture tells: how far apart the two fingers are, how they turn and where their middle is (evdev-mt-touchpad-gestures.c).
`double`s are real numbers here.  When a pinch begins and ends is the subject of `Verif.Motion.Model` and `Verif.Ways.Model`.
-/
namespace Libinput.Pinch
open Motion Accel

/-- The two fingers that are watched, `tp->gesture.touches`.  Models: /repo/src/evdev-mt-touchpad.h:347-361. -/
structure Two where
  a : Point
  b : Point
deriving DecidableEq, Repr

/-- The resolution of the axes, in units per mm.  Models: /repo/src/evdev-mt-touchpad.c:2966-2967. -/
structure Res where
  x : Nat
  y : Nat
deriving DecidableEq, Repr

/-- `device_delta`.  Models: /repo/src/libinput-private.h:707-716. -/
noncomputable def delta (p q : Point) : V := ⟨(p.x : ℝ) - (q.x : ℝ), (p.y : ℝ) - (q.y : ℝ)⟩

/-- `device_average`.  Models: /repo/src/libinput-private.h:718-727. -/
noncomputable def average (p q : Point) : V := ⟨((p.x : ℝ) + (q.x : ℝ)) / 2, ((p.y : ℝ) + (q.y : ℝ)) / 2⟩

/-- `tp_normalize_delta`, with the factors `tp_init_accel` sets (the DPI of mice is 1000).
Models: /repo/src/evdev-mt-touchpad.h:548-558, /repo/src/evdev-mt-touchpad.c:2976-2977. -/
noncomputable def normalize (r : Res) (d : V) : V := ⟨d.x * ((1000 / 25.4) / r.x), d.y * ((1000 / 25.4) / r.y)⟩

/-- `normalized_length`: `hypot`.  Models: /repo/src/libinput-private.h:757-761. -/
noncomputable def length (v : V) : ℝ := Real.sqrt (v.x ^ 2 + v.y ^ 2)

/-- `tp_gesture_get_pinch_info`: the distance.  Models: /repo/src/evdev-mt-touchpad-gestures.c:245-262. -/
noncomputable def distance (r : Res) (t : Two) : ℝ := length (normalize r (delta t.a t.b))

/-- `tp_gesture_get_pinch_info`: the angle; `Complex.arg (x + y i)` is `atan2(y, x)`.
Models: /repo/src/evdev-mt-touchpad-gestures.c:245-262. -/
noncomputable def bearing (r : Res) (t : Two) : ℝ :=
  Complex.arg ⟨(normalize r (delta t.a t.b)).x, (normalize r (delta t.a t.b)).y⟩ * 180 / Real.pi

/-- `tp_gesture_get_pinch_info`: the centre.  Models: /repo/src/evdev-mt-touchpad-gestures.c:245-262. -/
noncomputable def center (t : Two) : V := average t.a t.b

/-- The fields of `tp->gesture` for pinches.  Models: /repo/src/evdev-mt-touchpad.h:347-361. -/
@[ext] structure State where
  initial : ℝ
  angle : ℝ
  center : V
  prev : ℝ

/-- What an event says: the movement in units of the device before the acceleration, the scale and the angle.
Models: /repo/src/evdev-mt-touchpad-gestures.c:695-698. -/
structure Event where
  moved : V
  scale : ℝ
  turn : ℝ

/-- `tp_gesture_init_pinch`.  Models: /repo/src/evdev-mt-touchpad-gestures.c:264-272. -/
noncomputable def start (r : Res) (t : Two) : State := ⟨distance r t, bearing r t, center t, 1⟩

/-- The difference of two angles.  Models: /repo/src/evdev-mt-touchpad-gestures.c:677-682. -/
noncomputable def turned (new old : ℝ) : ℝ :=
  let d := new - old
  if d > 180 then d - 360 else if d < -180 then d + 360 else d

open Classical in
/-- `tp_gesture_handle_state_pinch`.  The accelerated movement is zero if the movement is, so it does not matter whether there is an event.
Models: /repo/src/evdev-mt-touchpad-gestures.c:666-703, /repo/src/evdev-mt-touchpad.c:61-76, /repo/src/libinput-private.h:729-738,
/repo/src/libinput-private.h:751-755, /repo/src/libinput-private.h:763-767. -/
noncomputable def update (r : Res) (s : State) (t : Two) : State × Option Event :=
  let scale := distance r t / s.initial
  let turn := turned (bearing r t) s.angle
  let moved : V := ⟨(center t).x - s.center.x, (center t).y - s.center.y⟩
  let s := { s with angle := bearing r t, center := center t }
  if (moved.x = 0 ∧ moved.y = 0) ∧ scale = s.prev ∧ turn = 0 then (s, none)
  else ({ s with prev := scale }, some ⟨moved, scale, turn⟩)

/-- The frames of a pinch, one after the other.  Models: /repo/src/evdev-mt-touchpad-gestures.c:705-735. -/
noncomputable def run (r : Res) (s : State) : List Two → State × List (Option Event)
  | [] => (s, [])
  | t :: ts =>
    let q := update r s t
    let rest := run r q.1 ts
    (rest.1, q.2 :: rest.2)

end Libinput.Pinch
