import Verif.Backend.Udev

/-!
# What the udev backend should do

In terms of what the client sees: the devices added and removed, and the results of its calls.  Udev's own state is the list of device nodes.
-/
namespace Libinput.Backend.Spec
open Libinput.Backend

/-- The device was added and not removed. -/
def Live (out : List Ev) (d : Dev) : Prop := .added d ∈ out ∧ .removed d.id ∉ out

/-- The events about the device with number `i`. -/
def about (i : Nat) : Ev → Bool
  | .added d => d.id == i
  | .removed j => j == i
  | .result _ => false

/-- udev has a device node, ready and usable, for the seat. -/
def Wanted (sys : List Entry) (seat : Option String) (path : Path) (n : Node) : Prop :=
  (∃ e ∈ sys, e.path = path ∧ e.node = n ∧ e.ready = true) ∧ "event".toList <+: path.sysname.toList ∧ n.usable = true ∧ n.ignored = false ∧
  some (n.idSeat.getD "seat0") = seat

/-- The devices are those of udev, each once. -/
def Follows (s : State) : Prop :=
  (∀ path n, (∃ d, Live s.out d ∧ d.path = path ∧ d.node = n) ↔ Wanted s.sys s.seatId path n) ∧
  ∀ a b, Live s.out a → Live s.out b → a.path = b.path → a = b

/-- The client moves a device to another logical seat only while the device is there and udev has said nothing new about it. -/
def CarefulOp (s : State) : Op → Prop
  | .changeSeat id (some _) => s.scan = none → ∃ d, Live s.out d ∧ d.id = id ∧ ∀ m ∈ s.queue, m.path ≠ d.path
  | _ => True

def Careful (s : State) : List Op → Prop
  | [] => True
  | op :: ops => CarefulOp s op ∧ ∀ t, step s op = some t → Careful t ops

/-- The monitor could not be filtered. -/
def filterFault : Op → Bool
  | .assign _ f => f == some .filter
  | .resume f => f == some .filter
  | _ => false

end Libinput.Backend.Spec
