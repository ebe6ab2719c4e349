import Verif.Motion.Model
import Verif.Touch.Spec
/-
What a user of the events of a touchpad relies on, said without the touchpad's state.
-/
namespace Libinput.Motion

/-! ### Gestures and scrolling -/

/-- What is going on, as seen from the events. -/
inductive Now where
  | idle
  | scrolling
  | gesture (k : Kind) (n : Nat)
deriving DecidableEq, Repr

/-- How many fingers a gesture may have. -/
def fingersFor : Kind → Nat → Bool
  | .swipe, n => n == 3 || n == 4
  | .pinch, n => n == 2 || n == 3 || n == 4

/-- What is going on after one more event; `none`: the event must not come now.
A gesture begins when nothing else is going on, with the right number of fingers.  It is updated and ended as the same
kind with the same number of fingers.  The pointer moves, and two-finger scrolling begins, only when no gesture is going
on; the pointer does not move during a two-finger scroll either.  Edge scrolling is independent of this. -/
def follow : Now → Out → Option Now
  | .idle, .begin k n => if fingersFor k n then some (.gesture k n) else none
  | .gesture k n, .update k' n' => if k' = k ∧ n' = n then some (.gesture k n) else none
  | .gesture k n, .end_ k' n' _ => if k' = k ∧ n' = n then some .idle else none
  | .idle, .motion _ => some .idle
  | .idle, .two (.axis ..) => some .scrolling
  | .scrolling, .two (.axis ..) => some .scrolling
  | .idle, .two (.stop ..) => some .idle
  | .scrolling, .two (.stop ..) => some .idle
  | c, .edge .. => some c
  | c, .edgeStop .. => some c
  | c, .bug => some c
  | _, _ => none

/-- What is going on after some events, if they may come in this order. -/
def followAll : Now → List Out → Option Now
  | c, [] => some c
  | c, o :: os =>
    match follow c o with
    | some c => followAll c os
    | none => none

/-- A touch counts as a finger: it is down, it is not taken for a palm or for a thumb at rest, it has moved since the
clickpad was pressed, and it is neither in a software button area nor on an edge used for scrolling. -/
def Counts (s : Pad) (t : Finger) : Prop :=
  (t.st = .begin ∨ t.st = .update) ∧ t.palm = .none ∧ t.pinned = false ∧ t.active = true ∧ t.edgeSt = .area ∧
    ¬ (s.cfg.thumbs = true ∧ s.thumb.index = some t.index ∧
        (s.thumb.st = .jailed ∨ s.thumb.st = .suppressed ∨ s.thumb.st = .revivedJailed ∨ s.thumb.st = .dead))

instance (s : Pad) (t : Finger) : Decidable (Counts s t) := by unfold Counts; exact inferInstance

/-- How many touches count. -/
def counting (s : Pad) : Nat := s.touches.countP fun t => decide (Counts s t)

/-- The arithmetic of scrolling knows that zero is zero. -/
def Sound (c : Config) : Prop := c.arith.isZero c.arith.zero = true

/-- How many of the touches that are reported are down. -/
def downs (vs : List View) : Nat := vs.countP fun v => v.st == .begin || v.st == .update

/-- No touch is down after the frame. -/
def noneDown (vs : List View) : Prop := ∀ v ∈ vs, v.st ≠ .begin ∧ v.st ≠ .update

/-! ### Edge scrolling -/

/-- The axis a touch is scrolling on, from the events so far: that of its last scroll event, unless a stop came after it. -/
def scrollingFrom (i : Nat) : Option Axis → List Out → Option Axis
  | c, [] => c
  | c, .edge j a _ :: os => scrollingFrom i (if j = i then some a else c) os
  | c, .edgeStop j _ :: os => scrollingFrom i (if j = i then none else c) os
  | c, _ :: os => scrollingFrom i c os

def scrolling (i : Nat) (os : List Out) : Option Axis := scrollingFrom i none os

/-- What a touch may send next when it is scrolling on `c`: a scroll event that is not zero, on the same axis if it is
scrolling; a stop, if it is scrolling, on that axis. -/
def followEdge (i : Nat) : Option Axis → List Out → Bool
  | _, [] => true
  | c, .edge j a v :: os => if j = i then decide (v ≠ 0) && (c == none || c == some a) && followEdge i (some a) os else followEdge i c os
  | c, .edgeStop j a :: os => if j = i then c == some a && followEdge i none os else followEdge i c os
  | c, _ :: os => followEdge i c os

/-- The touch is reported as heavy, big or flat enough for a palm. -/
def PalmLike (c : Config) (v : View) : Prop :=
  (∃ p, c.palmPressure = some p ∧ p < v.pressure) ∨ (∃ z, c.palmSize = some z ∧ (z < v.touchMajor ∨ z < v.touchMinor)) ∨
    (c.palmTool = true ∧ v.toolPalm = true)

/-- Which touches are down after an operation. -/
def downsAfter (s : Pad) (ds : List Bool) : Op → List Bool
  | .frame _ vs _ _ => vs.map fun v => v.st == .begin || v.st == .update
  | .clear _ _ _ => ds.map fun _ => false
  | .arbitrate _ _ _ => if s.arb then ds else ds.map fun _ => false
  | _ => ds

/-- What is asked of one operation; `ds`: the touches that are down, `past`: the events so far.
Each touch of a frame fits what it was before (C39).  A touch that is scrolling does not end while the device is marked as
suspended, nor while it is reported like a palm, nor, if thumbs are detected, in the very frame in which another touch
begins.  The scroll method is not changed while a finger is down. -/
def CarefulOp (s : Pad) (ds : List Bool) (past : List Out) : Op → Prop
  | .frame _ vs _ _ =>
    Touch.Spec.fitsAll ds (vs.map fun v => (v.st, v.dirty)) = true ∧
      ∀ (i : Nat) (v : View), vs[i]? = some v → v.st = .end_ → scrolling i past ≠ none →
        s.suspended = false ∧ ¬ PalmLike s.cfg v ∧ (s.cfg.thumbs = true → ∀ w ∈ vs, w.st ≠ .begin)
  | .clear _ vs _ | .arbitrate _ vs _ =>
    ∀ (i : Nat), scrolling i past ≠ none → s.suspended = false ∧ ¬ PalmLike s.cfg (vs.getD i { st := .none })
  | .setMethod _ _ => ∀ d ∈ ds, d = false
  | _ => True

def Careful (s : Pad) (ds : List Bool) (past : List Out) : List Op → Prop
  | [] => True
  | op :: ops => CarefulOp s ds past op ∧ Careful (step s op).1 (downsAfter s ds op) (past ++ (step s op).2) ops

end Libinput.Motion
