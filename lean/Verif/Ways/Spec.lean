import Verif.Ways.Model
import Mathlib.Analysis.Complex.Angle
/-!
The words the properties of the ways of fingers are stated with.
-/
namespace Libinput.Ways.Spec
open Motion

/-- A way in the plane; `y` grows downwards. -/
noncomputable def vec (v : Accel.V) : ℂ := ⟨v.x, v.y⟩

/-- So many degrees. -/
noncomputable def deg (d : ℝ) : ℝ := d * Real.pi / 180

/-- The angle between two ways, from 0 to 180 degrees. -/
noncomputable def angle (u v : Accel.V) : ℝ := InnerProductGeometry.angle (vec u) (vec v)

/-- The way is 2 mm or more, left or right or up or down. -/
def Long (v : Accel.V) : Prop := 2 ≤ |v.x| ∨ 2 ≤ |v.y|

def up : Accel.V := ⟨0, -1⟩
def down : Accel.V := ⟨0, 1⟩

/-- One goes left and the other right (or neither), one up and the other down (or neither). -/
def Contrary (u v : Accel.V) : Prop :=
  (u.x < 0 ↔ 0 < v.x) ∧ (0 < u.x ↔ v.x < 0) ∧ (u.y < 0 ↔ 0 < v.y) ∧ (0 < u.y ↔ v.y < 0)

/-- Both go left or both right (or neither), both up or both down (or neither). -/
def Alike (u v : Accel.V) : Prop :=
  (u.x < 0 ↔ v.x < 0) ∧ (0 < u.x ↔ 0 < v.x) ∧ (u.y < 0 ↔ v.y < 0) ∧ (0 < u.y ↔ 0 < v.y)

/-- What an event is about. -/
def scrollEvent : Out → Prop
  | .two _ => True
  | _ => False
def swipeEvent : Out → Prop
  | .begin .swipe _ => True
  | .update .swipe _ => True
  | _ => False
def pinchEvent : Out → Prop
  | .begin .pinch _ => True
  | .update .pinch _ => True
  | _ => False

/-- Two fingers scroll, more swipe. -/
def ScrollOrSwipe (n : Nat) (r : Pad × List Out) : Prop :=
  (n = 2 → r.1.gest.st = .scroll ∧ ∀ o ∈ r.2, scrollEvent o) ∧ (n ≠ 2 → r.1.gest.st = .swipe ∧ ∀ o ∈ r.2, swipeEvent o)

/-- They pinch. -/
def Pinch (r : Pad × List Out) : Prop := r.1.gest.st = .pinch ∧ ∀ o ∈ r.2, pinchEvent o

/-- The moment it is decided by the directions what a gesture is: both fingers that are watched have moved (n + 1) / 2 mm or more, the
touchpad can tell all fingers apart, and the fingers did not rest next to each other for 150 ms. -/
structure Decided (s : Pad) (now : Nat) : Prop where
  waiting : s.gest.st = .unknown
  fresh : s.gest.started = false
  enabled : s.cfg.gestures = true
  slots : s.gest.count ≤ s.cfg.numSlots
  two : 2 ≤ s.gest.count
  first : s.cfg.far (s.touch s.gest.first) (s.gest.count + 1) = true
  second : s.cfg.far (s.touch s.gest.second) (s.gest.count + 1) = true
  apart : ¬ (s.cfg.nearX (s.touch s.gest.first).pos (s.touch s.gest.second).pos 40 = true ∧
    s.cfg.nearY (s.touch s.gest.first).pos (s.touch s.gest.second).pos 7 = true ∧ s.gest.time + 150000 < now)

/-- The way from `b` to `a` in mm: the axes have `rx` and `ry` units per mm. -/
noncomputable def wayMm (s : Pad) (a b : Point) : Accel.V := ⟨((a.x : ℝ) - (b.x : ℝ)) / s.cfg.rx, ((a.y : ℝ) - (b.y : ℝ)) / s.cfg.ry⟩

/-- The way the first (second) of the fingers that are watched has taken since the gesture may begin. -/
noncomputable def way1 (s : Pad) : Accel.V := wayMm s (s.touch s.gest.first).pos (s.touch s.gest.first).start
noncomputable def way2 (s : Pad) : Accel.V := wayMm s (s.touch s.gest.second).pos (s.touch s.gest.second).start

/-- The way a finger took since it was taken for a palm. -/
noncomputable def palmWay (s : Pad) (t : Finger) : Accel.V := wayMm s t.pos t.palmFirst

end Libinput.Ways.Spec
