import Verif.Touch.Model
/-
What the fingers on a touchpad are, as the kernel reports them, independent of the code.
-/
namespace Libinput.Touch.Spec
open Libinput.Touch

/-- The kernel's side.  `slot`: the slot it is talking about; `on`: a touch sequence is going on in a slot; `landed`: one
that started after the touchpad was last cleared (suspended or resumed); `quiet`: nothing was reported since then. -/
structure Kernel where
  slot : Nat
  on : Nat → Bool
  landed : Nat → Bool
  quiet : Bool

/-- `f` with the value at `i` changed. -/
def put (f : Nat → Bool) (i : Nat) (b : Bool) : Nat → Bool := fun j => if j = i then b else f j

/-- The slots as they are when the kernel is asked. -/
def going (ks : List Slot) (i : Nat) : Bool := match ks[i]? with | some k => k.active | none => false

/-- The kernel when the touchpad is found. -/
def Kernel.start (slot : Nat) (ks : List Slot) : Kernel := ⟨slot, going ks, fun _ => false, false⟩

/-- How the kernel's side changes. -/
def Kernel.follow (k : Kernel) : Op → Kernel
  | .slot v => { k with slot := v, quiet := false }
  | .tracking b => { k with on := put k.on k.slot b, landed := put k.landed k.slot b, quiet := false }
  | .clear => { k with landed := fun _ => false, quiet := true }
  | .sync v ks => { k with slot := v, on := going ks }
  | _ => { k with quiet := false }

/-- The kernel's side after a history. -/
def Kernel.after (k : Kernel) (ops : List Op) : Kernel := ops.foldl Kernel.follow k

/-- What a kernel can report about a touchpad with `num` slots: it talks about these slots only, ends only sequences that
are going on, and the touchpad is resumed right after it was cleared. -/
def Valid (num : Nat) : Kernel → List Op → Prop
  | _, [] => True
  | k, op :: ops =>
    (match op with
      | .slot v => v < num
      | .tracking false => k.on k.slot = true
      | .sync v ks => k.quiet = true ∧ v < num ∧ ks.length = num
      | _ => True) ∧ Valid num (k.follow op) ops

/-- When the touchpad is resumed, the kernel talks about the same slot as before. -/
def SameSlot : Kernel → List Op → Prop
  | _, [] => True
  | k, op :: ops => (match op with | .sync v _ => v = k.slot | _ => True) ∧ SameSlot (k.follow op) ops

/-- What is shown of one touch fits what was before; `d`: it was down after the last frame.  It begins only if it was not
down, it continues and ends only if it was, and beginning and ending are marked as changes. -/
def fits (d : Bool) (v : St × Bool) : Bool :=
  match v.1 with
  | .none | .hovering => !d
  | .update => d
  | .begin => !d && v.2
  | .end_ => d && v.2
  | .maybeEnd => false

/-- Every touch fits, and none is left out. -/
def fitsAll : List Bool → List (St × Bool) → Bool
  | [], [] => true
  | d :: ds, v :: vs => fits d v && fitsAll ds vs
  | _, _ => false

/-- The touch is down after it was shown like this. -/
def downAfter (v : St × Bool) : Bool := v.1 == .begin || v.1 == .update

/-- The touch is not there, or is being lifted. -/
def lifted (v : St × Bool) : Bool := v.1 == .none || v.1 == .end_

/-- A possible life of all touches, from what the rest of the code is shown; all are lifted when the state is cleared. -/
def Lives : List Bool → List Out → Prop
  | _, [] => True
  | ds, .frame vs :: os => fitsAll ds vs = true ∧ Lives (vs.map downAfter) os
  | ds, .cleared vs :: os => (fitsAll ds vs = true ∧ vs.all lifted = true) ∧ Lives (vs.map downAfter) os

/-- The key was last reported as pressed; `b`: it was pressed before.  Clearing the state forgets it. -/
def held (k : Key) : Bool → List Op → Bool
  | b, [] => b
  | b, .key k' p :: ops => held k (if k' = k then p else b) ops
  | _, .clear :: ops => held k false ops
  | b, _ :: ops => held k b ops

/-- Five fingers or more: `BTN_TOOL_QUINTTAP` was pressed, and since then no button for fewer fingers was pressed,
`BTN_TOUCH` did not change, and the state was not cleared. -/
def many : Bool → List Op → Bool
  | b, [] => b
  | b, .key .quint p :: ops => many (b || p) ops
  | _, .key .touch _ :: ops => many false ops
  | b, .key _ p :: ops => many (b && !p) ops
  | _, .clear :: ops => many false ops
  | b, _ :: ops => many b ops

/-- The number of fingers the buttons say there are, if it is known: the smallest number whose button is pressed. -/
def said (finger : Bool) (ops : List Op) : Option Nat :=
  if many false ops then none
  else some (
    if held .finger finger ops then 1
    else if held .double false ops then 2
    else if held .triple false ops then 3
    else if held .quad false ops then 4
    else 0)

/-- What was reported about the slots.  `value`: the last value of an axis; `moved`: the value of an axis was reported
since the last frame; `any`: anything was. -/
structure Heard where
  slot : Nat
  value : Axis → Nat → Int
  moved : Nat → Bool
  any : Nat → Bool

/-- The value of an axis, of a slot that is read. -/
def asked (ks : List Slot) (ax : Axis) (i : Nat) : Int :=
  match ks[i]? with
  | some k =>
    match ax with
    | .y => k.y
    | .pressure => k.pressure
    | .touchMajor => k.touchMajor
    | .touchMinor => k.touchMinor
    | .other => 0
  | none => 0

/-- When the touchpad is found, its slots are read. -/
def Heard.start (slot : Nat) (ks : List Slot) : Heard := ⟨slot, asked ks, fun _ => false, fun _ => false⟩

def Heard.follow (h : Heard) : Op → Heard
  | .slot v => { h with slot := v }
  | .tracking _ => { h with any := put h.any h.slot true }
  | .axis ax v => { h with
      value := fun ax' i => if ax' = ax ∧ i = h.slot then v else h.value ax' i,
      moved := put h.moved h.slot true, any := put h.any h.slot true }
  | .key _ _ => h
  | .syn => { h with moved := fun _ => false, any := fun _ => false }
  | .clear => { h with moved := fun _ => false, any := fun _ => false }
  | .sync v ks => { h with slot := v, value := asked ks }

/-- What was reported in a history. -/
def Heard.after (h : Heard) (ops : List Op) : Heard := ops.foldl Heard.follow h

/-- How a touch that was `st` before is shown when its size decides.  It begins when one of its axes is above the high and
the other above the low threshold, and ends when one of them is below the low one; `changed`: something was reported. -/
def bySize (low high : Int) (st : St) (changed : Bool) (big small : Int) : St :=
  match st with
  | .hovering => if changed ∧ ((big > high ∧ small > low) ∨ (small > high ∧ big > low)) then .begin else .hovering
  | .update => if changed ∧ (big < low ∨ small < low) then .end_ else .update
  | .maybeEnd => .end_
  | st => st

/-- How a touch that was `st` before is shown when its pressure decides, with a high threshold to begin and a low one to
end. -/
def byPressure (low high : Int) (st : St) (changed : Bool) (pressure : Int) : St :=
  match st with
  | .hovering => if changed ∧ pressure ≥ high then .begin else .hovering
  | .update => if changed ∧ pressure < low then .end_ else .update
  | .maybeEnd => .end_
  | st => st

/-- A touch in a slot is pressed hard enough, if there are more fingers than slots; `one`: there is only one slot.  With
several slots a touch is not ended by its pressure then. -/
def pressed (low high : Int) (one : Bool) (st : St) (changed : Bool) (pressure : Int) : Bool :=
  match st with
  | .hovering => changed && decide (pressure ≥ high)
  | .update => !(one && changed && decide (pressure < low))
  | _ => false

/-- The touch is shown as being there. -/
def seen (v : St × Bool) : Bool := v.1 != .none && v.1 != .end_

end Libinput.Touch.Spec
