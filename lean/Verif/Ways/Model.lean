import Verif.Accel.Model
import Verif.Motion.Model
/-!
The ways fingers take: the directions `Verif.Motion.Model` leaves open (for gestures and for palms that leave their edge), computed from
the positions with the `xy_get_direction` of `Verif.Accel.Model` (evdev-mt-touchpad-gestures.c, evdev-mt-touchpad.c).  `double`s are real
numbers here.
-/
namespace Libinput.Ways
open Motion

/-- The way from `b` to `a` in mm.  Models: `device_delta` and `tp_phys_delta`, /repo/src/libinput-private.h:707-716,
/repo/src/evdev-mt-touchpad.h:560-570. -/
noncomputable def way (c : Config) (a b : Point) : Accel.V := ⟨((a.x : ℝ) - (b.x : ℝ)) / c.rx, ((a.y : ℝ) - (b.y : ℝ)) / c.ry⟩

/-- `phys_get_direction`.  Models: /repo/src/libinput-private.h:832-836. -/
noncomputable def dirs (v : Accel.V) : Nat := Accel.xyDirection v.x v.y

/-- `tp_gesture_get_direction`.  Models: /repo/src/evdev-mt-touchpad-gestures.c:233-243. -/
noncomputable def fingerDirs (c : Config) (t : Finger) : Nat := dirs (way c t.pos t.start)

/-- `tp_gesture_post_gesture` with these directions.  Models: /repo/src/evdev-mt-touchpad-gestures.c:705-735. -/
noncomputable def gesture (s : Pad) (g : Frame) (now : Nat) : Pad × List Out := s.postGesture g (fun i => fingerDirs s.cfg (s.touch i)) now

/-- `tp_palm_detect_move_out_of_edge` with the directions the finger moved in.  Models: /repo/src/evdev-mt-touchpad.c:969-994. -/
noncomputable def leaves (s : Pad) (t : Finger) (now : Nat) : Bool := s.palmMovedOut t (dirs (way s.cfg t.pos t.palmFirst)) now

end Libinput.Ways
