/-
What following the finger means, without the history, the counts and the marks that the code keeps.
-/
import Verif.Follow.Model
namespace Libinput.Follow.Spec
open Libinput.Follow

/-- Where the finger is after a frame, if it was at `p` before: the kernel sends what changed. -/
def place (p : Pt) (v : View) : Pt := { x := v.x.getD p.x, y := v.y.getD p.y }

/-- The difference of two places. -/
def diff (a b : Pt) : Pt := { x := a.x - b.x, y := a.y - b.y }

/-- The sum of what a touch moved. -/
def total : List Pt → Pt
  | [] => {}
  | p :: ps => { x := p.x + (total ps).x, y := p.y + (total ps).y }

/-- On a touchpad that is upside down it moves the other way. -/
def turn (on : Bool) (d : Pt) : Pt := if on then { x := -d.x, y := -d.y } else d

/-- Whether the touchpad is to be taken for upside down: what was asked for last, at a time when no finger was down.  `now` is what it
is, `want` what is asked for, `down` the number of fingers that are down. -/
def upside (now want : Bool) (down : Nat) : List Op → Bool
  | [] => now
  | .left on :: ops => upside (if down = 0 then on else now) on down ops
  | .frame f :: ops => upside (if f.fingers = 0 then want else now) want f.fingers ops

/-- The view of a frame for touch `i` (none at all if the frame has none for it). -/
def see (i : Nat) (f : Frame) : View := f.views.getD i {}

/-- What touch `i` moved in a frame. -/
def moved (i : Nat) (out : List Pt) : Pt := out.getD i {}

/-- Touch `i` stays down in a frame, as it was: it is neither new nor landing. -/
def Stays (i : Nat) (f : Frame) : Prop := (see i f).st = .update ∧ (see i f).fresh = false ∧ (see i f).landed = false

/-- Every frame of a history is about `n` touches. -/
def Full (n : Nat) (ops : List Op) : Prop := ∀ f, .frame f ∈ ops → f.views.length = n

/-- The button of the touchpad is not pressed in a history. -/
def NoPress (ops : List Op) : Prop := ∀ f, .frame f ∈ ops → f.press = false

/-- The number of fingers that are down after a history, if `k` were before. -/
def down (k : Nat) : List Op → Nat
  | [] => k
  | .frame f :: ops => down f.fingers ops
  | .left _ :: ops => down k ops

/-- Where touch `i` is after frames, if it was at `p`. -/
def places (i : Nat) (p : Pt) : List Op → Pt
  | [] => p
  | .frame f :: ops => places i (place p (see i f)) ops
  | .left _ :: ops => places i p ops

/-- How long a difference is, in mm, on a touchpad. -/
def size (c : Config) (d : Pt) : Rat := c.len ((d.x.natAbs : Rat) / c.rx) ((d.y.natAbs : Rat) / c.ry)

/-- Touch `i`, which was at `p` at the time `since`, never moves more than 7 mm in 12 ms, and the frames have no timestamps of
the device. -/
def Slow (c : Config) (i : Nat) (p : Pt) (since : Nat) : List Op → Prop
  | [] => True
  | .frame f :: ops =>
    f.stamp = none ∧ size c (diff (place p (see i f)) p) * 12000 ≤ 7 * ((f.time - since : Nat) : Rat) ∧
      Slow c i (place p (see i f)) f.time ops
  | .left _ :: ops => Slow c i p since ops

/-- Touch `i`, which was at `p` at the time `since`, never moves faster than 20 mm/s. -/
def Leisurely (c : Config) (i : Nat) (p : Pt) (since : Nat) : List Op → Prop
  | [] => True
  | .frame f :: ops =>
    f.stamp = none ∧ since < f.time ∧ size c (diff (place p (see i f)) p) * 1000000 ≤ 20 * ((f.time - since : Nat) : Rat) ∧
      Leisurely c i (place p (see i f)) f.time ops
  | .left _ :: ops => Leisurely c i p since ops

/-- Touch `i`, which was at `p` at the time `since`, moves in each frame, faster than 20 mm/s. -/
def Brisk (c : Config) (i : Nat) (p : Pt) (since : Nat) : List Frame → Prop
  | [] => True
  | f :: fs =>
    f.stamp = none ∧ since < f.time ∧ 20 * ((f.time - since : Nat) : Rat) < size c (diff (place p (see i f)) p) * 1000000 ∧
      ((see i f).x ≠ none ∨ (see i f).y ≠ none) ∧ Brisk c i (place p (see i f)) f.time fs

/-- Touch `i`, which was at `p`, only goes one way in a history, to smaller x (`back`) or to larger ones, and when there is motion it
moves. -/
def OneWay (back : Bool) (i : Nat) (p : Pt) : List Op → Prop
  | [] => True
  | .frame f :: ops =>
    (if back then (place p (see i f)).x ≤ p.x else p.x ≤ (place p (see i f)).x) ∧ (f.motion = true → place p (see i f) ≠ p) ∧
      OneWay back i (place p (see i f)) ops
  | .left _ :: ops => OneWay back i p ops

/-- Touch `i`, which was at `p`, stays within 1.5 mm of `q`. -/
def Near (c : Config) (i : Nat) (q p : Pt) : List Frame → Prop
  | [] => True
  | f :: fs => size c (diff (place p (see i f)) q) < 3 / 2 ∧ Near c i q (place p (see i f)) fs

/-- The timestamps of the frames of a history. -/
def stamps : List Op → List Nat
  | [] => []
  | .frame f :: ops => f.stamp.toList ++ stamps ops
  | .left _ :: ops => stamps ops

/-- The timestamp `now`, after those of `before`, says that events are missing, `by_` µs of them: the device woke up (0), sent its
interval of at most 20 ms, and now is more than twice that. -/
def Missing (before : List Nat) (now by_ : Nat) : Prop :=
  ∃ pre v mid, before = pre ++ 0 :: v :: mid ∧ v ≠ 0 ∧ v ≤ 20000 ∧ (∀ m ∈ mid, m ≠ 0 ∧ m ≤ 2 * v) ∧ now > 2 * v ∧ by_ = now - v

end Libinput.Follow.Spec
