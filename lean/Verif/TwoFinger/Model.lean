import Verif.Together.Model
import Verif.Axis.Model
/-!
Two-finger scrolling from the movements of the fingers to what is scrolled by (evdev-mt-touchpad-gestures.c): `Together.scroll` and `Axis.apply` one after the other.
-/
namespace Libinput.TwoFinger
open Follow

/-- A frame while two fingers scroll: when, and what each finger moved.  Models: /repo/src/evdev-mt-touchpad-gestures.c:618-643. -/
structure Frame where
  time : Nat
  ds : List Pt
deriving DecidableEq, Repr

/-- `tp_phys_delta`.  Models: /repo/src/evdev-mt-touchpad.h:560-570. -/
def phys (c : Config) (raw : Together.Vec) : Axis.V := ⟨raw.x / c.rx, raw.y / c.ry⟩

/-- `tp_gesture_handle_state_scroll`: what is handed to `evdev_post_scroll`, if anything.  Models: /repo/src/evdev-mt-touchpad-gestures.c:618-643. -/
def frame (c : Config) (k : Rat) (on : Nat → Bool) (s : Axis.State) (f : Frame) : Axis.State × Option Together.Vec :=
  match Together.scroll c k on f.ds with
  | none => (s, none)
  | some delta =>
    let r := Axis.apply s f.time (phys c (Together.touchesDelta on true f.ds)) ⟨delta.x, delta.y⟩
    (r.1, some ⟨r.2.x, r.2.y⟩)

/-- A scroll.  Models: /repo/src/evdev-mt-touchpad-gestures.c:618-643. -/
def run (c : Config) (k : Rat) (on : Nat → Bool) (s : Axis.State) : List Frame → Axis.State × List (Option Together.Vec)
  | [] => (s, [])
  | f :: fs =>
    let r := frame c k on s f
    let q := run c k on r.1 fs
    (q.1, r.2 :: q.2)

end Libinput.TwoFinger
