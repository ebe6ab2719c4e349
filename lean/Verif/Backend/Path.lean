import Verif.Backend.Udev

/-
Model of the path backend: path-seat.c.

Simplifications.  The devnode and the syspath of a device are one path (`evdev_device_create` fails if they disagree).  `libinput_path_add_device` waits at most two
seconds for udev; here the device is ready or the call fails.  Seats stay in the list, which is what path-seat.c does: they are created with a reference that nobody drops.
Creating a device succeeds if a usable node is ready under the path.  Allocations do not fail.  The mismatch of backends and paths longer than `PATH_MAX` are in `add`'s
argument: `none` is such a call.
-/
namespace Libinput.Backend.PathSeat
open Libinput.Backend

/-- A `struct path_device`.  `handle` stands for the pointer to the `struct udev_device`.  Models: /repo/src/path-seat.c:38-41 -/
structure Remembered where
  handle : Nat
  path : Path
  node : Node
deriving DecidableEq, Repr

/-- A device of libinput.  `handle`: what `libinput_device_get_udev_device` returns; `phys`, `seat`: the names of its seat. -/
structure Dev where
  id : Nat
  handle : Nat
  path : Path
  node : Node
  phys : String
  seat : String
deriving DecidableEq, Repr

/-- What the client sees. -/
inductive Ev where
  | added (d : Dev)
  | removed (id : Nat)
  | result (ok : Bool)
deriving DecidableEq, Repr

/-- udev (`sys`, `serial`) and `struct path_input`; `paths` is `path_list`, `next` the next handle, `known` all devices there ever were.
Models: /repo/src/path-seat.c:32-36 -/
structure State where
  sys : List Entry := []
  serial : Nat := 0
  next : Nat := 0
  paths : List Remembered := []
  seats : List (String × String) := []
  devs : List Dev := []
  known : List Dev := []
  out : List Ev := []

/-! ### udev -/

def appear (s : State) (path : Path) (n : Node) : State :=
  match lookup s.sys path with
  | some _ => s
  | none => { s with sys := s.sys ++ [⟨path, { n with serial := s.serial }, false⟩], serial := s.serial + 1 }

def getReady (s : State) (path : Path) : State := { s with sys := s.sys.map fun x => if x.path = path then { x with ready := true } else x }

def vanish (s : State) (path : Path) : State := { s with sys := s.sys.filter fun x => x.path ≠ path }

/-! ### path-seat.c -/

/-- Whether `evdev_device_create` succeeds.  Models: /repo/src/evdev.c:2205-2314 -/
def canCreate (s : State) (path : Path) (n : Node) : Bool := n.usable && (lookup s.sys path).any fun e => e.node.usable

/-- `none` if the device could not be created; the seat is created all the same.
Models: /repo/src/path-seat.c:173-214, /repo/src/path-seat.c:121-171, /repo/src/path-seat.c:105-119 and /repo/src/path-seat.c:90-103 -/
def deviceEnable (s : State) (r : Remembered) (seatName : Option String) : State × Bool :=
  let phys := r.node.idSeat.getD "seat0"
  let seat := (seatName.or r.node.wlSeat).getD "default"
  let s := { s with seats := if (phys, seat) ∈ s.seats then s.seats else (phys, seat) :: s.seats }
  if canCreate s r.path r.node then
    let d : Dev := ⟨s.known.length, r.handle, r.path, r.node, phys, seat⟩
    ({ s with devs := s.devs ++ [d], known := s.known ++ [d], out := s.out ++ [.added d] }, true)
  else (s, false)

/-- Models: /repo/src/evdev.c:2857-2889 -/
def removeDev (s : State) (d : Dev) : State := { s with devs := s.devs.filter fun x => x.id ≠ d.id, out := s.out ++ [.removed d.id] }

/-- Models: /repo/src/path-seat.c:51-65 -/
def disableDevice (s : State) (d : Dev) : State := if d ∈ s.devs then removeDev s d else s

/-- Models: /repo/src/path-seat.c:67-81 -/
def disable (s : State) : State := s.seats.foldl (fun s seat => (s.devs.filter fun d => (d.phys, d.seat) = seat).foldl disableDevice s) s

/-- The loop of `path_input_enable`.  Models: /repo/src/path-seat.c:216-230 -/
def enableAll (s : State) : List Remembered → State
  | [] => { s with out := s.out ++ [.result true] }
  | r :: rs =>
    let (s, ok) := deviceEnable s r none
    if ok then enableAll s rs
    else
      let s := disable s
      { s with out := s.out ++ [.result false] }

/-- Models: /repo/src/path-seat.c:216-230 -/
def enable (s : State) : State := enableAll s s.paths

/-- Models: /repo/src/path-seat.c:253-273 and /repo/src/path-seat.c:232-238 -/
def createDevice (s : State) (r : Remembered) (seatName : Option String) : State × Bool :=
  let (s, ok) := deviceEnable { s with paths := r :: s.paths } r seatName
  (if ok then s else { s with paths := s.paths.tail }, ok)

/-- The first entry with the handle is destroyed.  Models: /repo/src/path-seat.c:403-428 -/
def removeDevice (s : State) (d : Dev) : State :=
  disableDevice { s with paths := s.paths.eraseP fun r => r.handle = d.handle } d

/-- Models: /repo/src/path-seat.c:359-401 and /repo/src/path-seat.c:329-357 -/
def add (s : State) (path : Option Path) : State :=
  match path.bind fun path => lookup s.sys path with
  | none => { s with out := s.out ++ [.result false] }
  | some e =>
    if e.ready = false then { s with out := s.out ++ [.result false] }
    else if e.node.ignored then { s with out := s.out ++ [.result false] }
    else
      let (s, ok) := createDevice { s with next := s.next + 1 } ⟨s.next, e.path, e.node⟩ none
      { s with out := s.out ++ [.result ok] }

/-- `name` is what `libinput_device_set_seat_logical_name` gets.
Models: /repo/src/path-seat.c:275-292 and /repo/src/libinput.c:3089-3100 -/
def changeSeat (s : State) (d : Dev) (name : Option String) : State :=
  match name with
  | none => { s with out := s.out ++ [.result false] }
  | some name =>
    let (s, ok) := createDevice (removeDevice s d) ⟨d.handle, d.path, d.node⟩ (some name)
    { s with out := s.out ++ [.result ok] }

inductive Op where
  | appear (path : Path) (n : Node)
  | getReady (path : Path)
  | vanish (path : Path)
  | add (path : Option Path)
  | remove (id : Nat)
  | suspend
  | resume
  | changeSeat (id : Nat) (name : Option String)
deriving DecidableEq, Repr

/-- One step; `remove` and `changeSeat` with a device there never was do nothing.
Models: /repo/src/libinput.c:3023-3027 and /repo/src/libinput.c:3017-3021 -/
def step (s : State) : Op → State
  | .appear path n => appear s path n
  | .getReady path => getReady s path
  | .vanish path => vanish s path
  | .add path => add s path
  | .remove id => match s.known[id]? with
    | some d => removeDevice s d
    | none => s
  | .suspend => disable s
  | .resume => enable s
  | .changeSeat id name => match s.known[id]? with
    | some d => changeSeat s d name
    | none => s

def run (s : State) (ops : List Op) : State := ops.foldl step s

end Libinput.Backend.PathSeat
