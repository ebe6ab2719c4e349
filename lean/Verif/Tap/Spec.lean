import Verif.Tap.Model
import Verif.Common.Alternation
/-
What a history of a touchpad looks like, independent of the tapping code.
-/
namespace Libinput.Tap.Spec
open Libinput Libinput.Tap

/-- A touch in phase `p` can appear as `v` in the next frame: it begins only if it is not down, and
ends or continues only if it is. Beginning and ending touches are marked changed (`dirty`). -/
def fits (p : Phase) (v : View) : Bool :=
  match v.ts with
  | .none | .hovering => p != .down
  | .begin => p != .down && v.dirty
  | .update => p == .down
  | .end_ => p == .down && v.dirty

/-- Every touch of the touchpad appears in the frame, as `fits` allows. -/
def fitsAll : List Phase → List View → Bool
  | [], [] => true
  | p :: ps, v :: vs => fits p v && fitsAll ps vs
  | _, _ => false

/-- Where the touches are after an operation. -/
def follow (ps : List Phase) : Op → List Phase
  | .frame _ _ vs => vs.map fun v => phaseAfter v.ts
  | .clear _ _ | .devSuspend _ _ | .devResume _ _ => ps.map fun _ => .none
  | _ => ps

/-- Where the touches are after a history on a touchpad with `n` touches. -/
def phases (n : Nat) (ops : List Op) : List Phase :=
  ops.foldl follow (List.replicate n .none)

/-- A history the hardware can produce: each frame fits what happened before. -/
def Possible : List Phase → List Op → Prop
  | _, [] => True
  | ps, op :: ops =>
    (match op with
      | .frame _ _ vs => fitsAll ps vs = true
      | _ => True) ∧ Possible (follow ps op) ops

/-- The button events as press/release edges. -/
def buttons (cs : List Buttons.Call) : List (Edge Nat) := cs.map fun c => ⟨c.code, c.pressed⟩

/-- The button `c` is held by tapping for a client that has seen the events `cs`. -/
def held (cs : List Buttons.Call) (c : Nat) : Bool := Libinput.Spec.heldAfter (buttons cs) c

/-- The view of a touch that is not doing anything: not there, hovering, or resting still. -/
def still (v : View) : Bool :=
  (v.ts == .none || v.ts == .hovering || v.ts == .update) && !v.palm && !v.thumb && !v.exceeds

/-- A finger is put down, and it is neither a palm nor a thumb. -/
def lands (v : View) : Bool := v.ts == .begin && v.dirty && !v.palm && !v.thumbTap && !v.palmTap

/-- A finger is lifted. -/
def lifts (v : View) : Bool := v.ts == .end_ && v.dirty && !v.palm

/-- Number of fingers put down (lifted) in a frame. -/
def nLands (vs : List View) : Nat := (vs.filter lands).length
def nLifts (vs : List View) : Nat := (vs.filter lifts).length

/-- An operation in which fingers are only put down; the button map may be set too. -/
def landing : Op → Bool
  | .frame _ btn vs => !btn && vs.all fun v => still v || lands v
  | .setMap _ => true
  | _ => false

/-- An operation in which fingers are only lifted; the button map may be set too. -/
def lifting : Op → Bool
  | .frame _ btn vs => !btn && vs.all fun v => still v || lifts v
  | .setMap _ => true
  | _ => false

/-- Fingers put down (lifted) in a list of operations. -/
def landed : List Op → Nat
  | [] => 0
  | .frame _ _ vs :: ops => nLands vs + landed ops
  | _ :: ops => landed ops
def lifted : List Op → Nat
  | [] => 0
  | .frame _ _ vs :: ops => nLifts vs + lifted ops
  | _ :: ops => lifted ops

/-- No new finger touches. -/
def noNewTouch : Op → Bool
  | .frame _ _ vs => vs.all fun v => v.ts != .begin
  | _ => true

/-- The drag setting is not switched on. -/
def noDragOn : Op → Bool
  | .setDrag e => !e
  | _ => true

/-- The documented tap button maps: one, two and three fingers are left, right, middle for
`LIBINPUT_CONFIG_TAP_MAP_LRM` and left, middle, right for `LIBINPUT_CONFIG_TAP_MAP_LMR`; four or
more fingers have no button. -/
def tapButton : Map → Nat → Option Nat
  | _, 1 => some BTN_LEFT
  | .lrm, 2 => some BTN_RIGHT
  | .lrm, 3 => some BTN_MIDDLE
  | .lmr, 2 => some BTN_MIDDLE
  | .lmr, 3 => some BTN_RIGHT
  | _, _ => none

/-- What a completed tap of `n` fingers sends. -/
def tapEdges (m : Map) (drag : Bool) (n : Nat) : List (Edge Nat) :=
  match tapButton m n with
  | some b => ⟨b, true⟩ :: (if drag then [] else [⟨b, false⟩])
  | none => []

/-- The calls that turn tapping off: the setting, disable-while-typing and the like (`suspend`),
and suspending, removing or resuming the touchpad. -/
def turnsOff : Op → Bool
  | .setEnabled e _ => !e
  | .suspend _ | .clear _ _ | .devSuspend _ _ | .devResume _ _ => true
  | _ => false

end Libinput.Tap.Spec
