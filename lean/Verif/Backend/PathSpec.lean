import Verif.Backend.Path

/-! # What the path backend should do, in terms of what the client sees -/
namespace Libinput.Backend.PathSeat.Spec
open Libinput.Backend PathSeat

/-- The device was added and not removed. -/
def Live (out : List Ev) (d : Dev) : Prop := .added d ∈ out ∧ .removed d.id ∉ out

/-- The events about the device with number `i`. -/
def about (i : Nat) : Ev → Bool
  | .added d => d.id == i
  | .removed j => j == i
  | .result _ => false

/-- udev has a usable device under the path. -/
def Usable (sys : List Entry) (path : Path) : Prop := ∃ e, lookup sys path = some e ∧ e.node.usable = true

/-- Whether the context runs: from the start, until it is suspended, and again once resuming succeeded. -/
def nextOn (on : Bool) (s : State) : Op → Bool
  | .suspend => false
  | .resume => decide ((step s .resume).out.getLast? = some (.result true))
  | _ => on

/-- The client adds paths only while running, resumes only what is suspended, moves only devices that are there, and removes devices that are there, or any while suspended. -/
def CarefulOp (on : Bool) (s : State) : Op → Prop
  | .add _ => on = true
  | .resume => on = false
  | .changeSeat id (some _) => ∃ d, Live s.out d ∧ d.id = id
  | .remove id => on = false ∨ ∃ d, Live s.out d ∧ d.id = id
  | _ => True

/-- A careful history; the result says whether the context runs afterwards. -/
inductive Careful : List Op → State → Bool → Prop
  | start : Careful [] {} true
  | step {ops s on op} : Careful ops s on → CarefulOp on s op → Careful (ops ++ [op]) (PathSeat.step s op) (nextOn on s op)

/-- udev changes, the context is suspended once more, or is resumed in vain. -/
def idle (s : State) : Op → Bool
  | .appear _ _ | .getReady _ | .vanish _ | .suspend => true
  | .resume => decide ((step s .resume).out.getLast? = some (.result false))
  | _ => false

inductive Idle : State → List Op → State → Prop
  | nil {s} : Idle s [] s
  | cons {s op ops t} : idle s op = true → Idle (PathSeat.step s op) ops t → Idle s (op :: ops) t

end Libinput.Backend.PathSeat.Spec
