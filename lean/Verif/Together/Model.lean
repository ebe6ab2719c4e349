import Verif.Follow.Model
/-!
How the movements of several fingers become one movement (evdev-mt-touchpad-gestures.c), on top of what each of them moves (`Verif.Follow.Model`).
`double`s are rational numbers here.
-/
namespace Libinput.Together
open Follow

/-- `struct device_float_coords`.  Models: /repo/src/libinput-private.h:55-57. -/
structure Vec where
  x : Rat
  y : Rat
deriving DecidableEq, Repr

/-- The loop of `tp_get_touches_delta` from slot `i` on: how many touches are active, and the sum of what they moved.  `on` says which touches are active for
gestures (no palm, no thumb, not in a button); what a touch moved is `Follow.moves`.  Models: /repo/src/evdev-mt-touchpad-gestures.c:48-80. -/
def loop (on : Nat → Bool) (i : Nat) : List Pt → Nat × Vec
  | [] => (0, ⟨0, 0⟩)
  | d :: ds =>
    let r := loop on (i + 1) ds
    if on i = false then r
    else (r.1 + 1, ⟨(d.x : Rat) + r.2.x, (d.y : Rat) + r.2.y⟩)

/-- `tp_get_touches_delta`, `tp_get_combined_touches_delta` and `tp_get_average_touches_delta`.
Models: /repo/src/evdev-mt-touchpad-gestures.c:48-80, /repo/src/evdev-mt-touchpad-gestures.c:94-104. -/
def touchesDelta (on : Nat → Bool) (average : Bool) (ds : List Pt) : Vec :=
  let r := loop on 0 ds
  if average = false ∨ r.1 = 0 then r.2 else ⟨r.2.x / r.1, r.2.y / r.1⟩

/-- `tp_get_raw_pointer_motion`.  Models: /repo/src/evdev-mt-touchpad-gestures.c:141-153. -/
def rawMotion (c : Config) (pressed : Bool) (on : Nat → Bool) (ds : List Pt) : Vec :=
  if c.clickpad && pressed then touchesDelta on false ds else touchesDelta on true ds

/-- `tp_scale_to_xaxis`, with the factor `tp_init_accel` sets.  Models: /repo/src/evdev-mt-touchpad.h:576-586, /repo/src/evdev-mt-touchpad.c:2978. -/
def toXAxis (c : Config) (v : Vec) : Vec := ⟨v.x, v.y * ((c.rx : Rat) / c.ry)⟩

/-- `tp_gesture_post_pointer_motion`: the movement without acceleration that the event has, if there is an event.  The acceleration filter gives zero for zero.
Models: /repo/src/evdev-mt-touchpad-gestures.c:155-173. -/
def pointer (c : Config) (pressed : Bool) (on : Nat → Bool) (ds : List Pt) : Option Vec :=
  let raw := rawMotion c pressed on ds
  if raw = ⟨0, 0⟩ then none else some (toXAxis c raw)

/-- `tp_filter_motion_unaccelerated`, with a filter that multiplies by `k`, as the constant filters of all touchpads do (`Accel.Filter.constant`).
Models: /repo/src/evdev-mt-touchpad.c:78-94. -/
def unaccelerated (c : Config) (k : Rat) (raw : Vec) : Vec :=
  if raw = ⟨0, 0⟩ then ⟨0, 0⟩ else ⟨(toXAxis c raw).x * k, (toXAxis c raw).y * k⟩

/-- `tp_gesture_handle_state_swipe`: the movement without acceleration that the event has, if there is an event.
Models: /repo/src/evdev-mt-touchpad-gestures.c:645-664. -/
def swipe (c : Config) (k : Rat) (on : Nat → Bool) (ds : List Pt) : Option Vec :=
  let raw := touchesDelta on true ds
  if raw = ⟨0, 0⟩ then none else some (unaccelerated c k raw)

/-- `tp_gesture_handle_state_scroll`: the movement that is scrolled by, before it is constrained to an axis, if there is one.
Models: /repo/src/evdev-mt-touchpad-gestures.c:618-643. -/
def scroll (c : Config) (k : Rat) (on : Nat → Bool) (ds : List Pt) : Option Vec :=
  let delta := unaccelerated c k (touchesDelta on true ds)
  if delta = ⟨0, 0⟩ then none else some delta

end Libinput.Together
