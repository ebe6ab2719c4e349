/-
Model of the udev backend: udev-seat.c, with the part of udev it relies on.

Simplifications.  The device nodes of udev are a list; a node appears, gets ready when udev has processed it, and goes.  The messages of the monitor are a queue; they are
sent from the time the monitor is enabled.  Enumerating takes a snapshot of the paths, then every path is looked up and the device created in two steps, and udev may
change between all these steps.  Seats are known by their logical names (the physical name is that of the context), and stay in the list without devices, as if the client
held a reference; references are the subject of `Verif.Refs`.  Creating a device succeeds if the message says so (`usable`: it is an input device, and so on), and if
something usable can be opened under the path at that time.  Allocations do not fail.
-/
namespace Libinput.Backend

/-- A syspath; the sysname is its last component. -/
structure Path where
  dir : String
  sysname : String
deriving DecidableEq, Repr

/-- `strneq("event", sysname, 5)`.  Models: /repo/src/udev-seat.c:187-190 -/
def isEvent (path : Path) : Bool := "event".toList.isPrefixOf path.sysname.toList

/-- What udev knows about a device node.  `serial` tells different hardware under the same path apart; the code does not see it.
`ignored`: it belongs to the test suite. -/
structure Node where
  serial : Nat
  idSeat : Option String
  wlSeat : Option String
  usable : Bool
  ignored : Bool
deriving DecidableEq, Repr

/-- A device node under its path; `ready`: `udev_device_get_is_initialized`. -/
structure Entry where
  path : Path
  node : Node
  ready : Bool
deriving DecidableEq, Repr

inductive Action where
  | add | remove | other
deriving DecidableEq, Repr

/-- A message of the monitor. -/
structure Msg where
  action : Action
  path : Path
  node : Node
deriving DecidableEq, Repr

/-- A device of libinput on its seat. -/
structure Dev where
  id : Nat
  path : Path
  node : Node
  seat : String
deriving DecidableEq, Repr

/-- What the client sees: devices added and removed, and the results of calls (0 or -1). -/
inductive Ev where
  | added (d : Dev)
  | removed (id : Nat)
  | result (ok : Bool)
deriving DecidableEq, Repr

/-- udev (`sys`, `serial`) and `struct udev_input`.  `source`: `udev_monitor_source` is set.  `scan`: the paths still to be looked at by
`udev_input_add_devices`, if that is running; `reading`: the device it is about to add.  `seats`: the logical names in `seat_list`.  `devs`: the devices in the
`devices_list`s.  `known`: all devices there ever were, which the client may have kept.
Models: /repo/src/udev-seat.h:32-45. -/
structure State where
  sys : List Entry := []
  serial : Nat := 0
  monitor : Bool := false
  source : Bool := false
  queue : List Msg := []
  scan : Option (List Path) := none
  reading : Option (Path × Node) := none
  seatId : Option String := none
  seats : List String := []
  devs : List Dev := []
  known : List Dev := []
  out : List Ev := []

/-! ### udev -/

def lookup (sys : List Entry) (path : Path) : Option Entry := sys.find? fun e => e.path = path

/-- A message, to whoever listens. -/
def post (s : State) (m : Msg) : State := if s.source then { s with queue := s.queue ++ [m] } else s

/-- New hardware. -/
def appear (s : State) (path : Path) (n : Node) : State :=
  match lookup s.sys path with
  | some _ => s
  | none => { s with sys := s.sys ++ [⟨path, { n with serial := s.serial }, false⟩], serial := s.serial + 1 }

/-- udev has processed the new hardware. -/
def getReady (s : State) (path : Path) : State :=
  match lookup s.sys path with
  | some e =>
    if e.ready then s
    else post { s with sys := s.sys.map fun x => if x.path = path then { x with ready := true } else x } ⟨.add, path, e.node⟩
  | none => s

/-- The hardware is gone. -/
def vanish (s : State) (path : Path) : State :=
  match lookup s.sys path with
  | some e => post { s with sys := s.sys.filter fun x => x.path ≠ path } ⟨.remove, path, e.node⟩
  | none => s

/-- Any other message about a device, such as `change`. -/
def notify (s : State) (path : Path) : State :=
  match lookup s.sys path with
  | some e => post s ⟨.other, path, e.node⟩
  | none => s

/-! ### udev-seat.c -/

/-- `seat` is the logical name of a seat.  Models: /repo/src/udev-seat.c:45-74 -/
def filterDuplicates (s : State) (seat : String) (path : Path) : Bool := s.devs.any fun d => d.seat = seat && d.path = path

/-- Whether `evdev_device_create` succeeds.  Models: /repo/src/evdev.c:2205-2314 -/
def canCreate (s : State) (path : Path) (n : Node) : Bool := n.usable && (lookup s.sys path).any fun e => e.node.usable

/-- Models: /repo/src/udev-seat.c:76-147, with /repo/src/udev-seat.c:359-370 and /repo/src/udev-seat.c:343-357. -/
def deviceAdded (s : State) (path : Path) (n : Node) (seatName : Option String) : State :=
  if some (n.idSeat.getD "seat0") ≠ s.seatId then s
  else if n.ignored then s
  else
    let seat := (seatName.or n.wlSeat).getD "default"
    if filterDuplicates s seat path then s
    else if canCreate s path n then
      let d : Dev := ⟨s.known.length, path, n, seat⟩
      { s with seats := if seat ∈ s.seats then s.seats else seat :: s.seats, devs := s.devs ++ [d], known := s.known ++ [d], out := s.out ++ [.added d] }
    else s

/-- `evdev_device_remove`, as far as it concerns the list and the client.  Models: /repo/src/evdev.c:2857-2889 -/
def removeDev (s : State) (d : Dev) : State := { s with devs := s.devs.filter fun x => x.id ≠ d.id, out := s.out ++ [.removed d.id] }

/-- The inner loop of `device_removed`: the first device with the path on the seat.  Models: /repo/src/udev-seat.c:158-163 -/
def removeOn (path : Path) (s : State) (seat : String) : State :=
  match s.devs.find? (fun d => d.seat = seat && d.path = path) with
  | some d => removeDev s d
  | none => s

/-- Models: /repo/src/udev-seat.c:149-167 -/
def deviceRemoved (s : State) (path : Path) : State := s.seats.foldl (removeOn path) s

/-- Models: /repo/src/udev-seat.c:243-257 -/
def removeDevices (s : State) : State := s.seats.foldl (fun s seat => (s.devs.filter fun d => d.seat = seat).foldl removeDev s) s

/-- `none` is a crash: `libinput_remove_source` without a source.  Models: /repo/src/udev-seat.c:259-273 and /repo/src/libinput.c:1754-1761 -/
def disable (s : State) : Option State :=
  if s.monitor = false then some s
  else if s.source = false then none
  else some (removeDevices { s with monitor := false, source := false, queue := [] })

/-- What goes wrong while the monitor is set up. -/
inductive Fault where
  | create | filter | bind | addFd
deriving DecidableEq, Repr

/-- Up to the enumeration; `udev_input_add_devices` starts with the paths there are.  Models: /repo/src/udev-seat.c:275-322 -/
def enable (s : State) (fault : Option Fault) : State :=
  if s.monitor ∨ s.seatId = none then { s with out := s.out ++ [.result true] }
  else
    match fault with
    | some .create => { s with out := s.out ++ [.result false] }
    | some .filter => { s with monitor := true, out := s.out ++ [.result false] }
    | some .bind => { s with out := s.out ++ [.result false] }
    | some .addFd => { s with out := s.out ++ [.result false] }
    | none => { s with monitor := true, source := true, queue := [], scan := some (s.sys.map Entry.path) }

/-- A step of `udev_input_add_devices`: the next device is created, or the next path looked up; at the end `udev_input_enable` returns.
Models: /repo/src/udev-seat.c:169-214 -/
def scanStep (s : State) : State :=
  match s.scan with
  | none => s
  | some paths =>
    match s.reading with
    | some (path, n) => deviceAdded { s with reading := none } path n none
    | none =>
      match paths with
      | [] => { s with scan := none, out := s.out ++ [.result true] }
      | path :: paths =>
        match lookup s.sys path with
        | none => { s with scan := some paths }
        | some e =>
          if isEvent path = false then { s with scan := some paths }
          else if e.ready = false then { s with scan := some paths }
          else { s with scan := some paths, reading := some (path, e.node) }

/-- Models: /repo/src/udev-seat.c:216-241 -/
def handler (s : State) : State :=
  match s.queue with
  | [] => s
  | m :: queue =>
    let s := { s with queue := queue }
    if isEvent m.path = false then s
    else
      match m.action with
      | .add => deviceAdded s m.path m.node none
      | .remove => deviceRemoved s m.path
      | .other => s

/-- `id`: the number of the device.  `libinput_device_set_seat_logical_name` with the name, or null.
Models: /repo/src/udev-seat.c:372-388 and /repo/src/libinput.c:3089-3100 -/
def changeSeat (s : State) (id : Nat) (name : Option String) : State :=
  match s.known[id]?, name with
  | none, _ => s
  | some _, none => { s with out := s.out ++ [.result false] }
  | some d, some name =>
    let s := deviceAdded (deviceRemoved s d.path) d.path d.node (some name)
    { s with out := s.out ++ [.result true] }

/-- Models: /repo/src/udev-seat.c:421-457 -/
def assign (s : State) (id : Option String) (fault : Option Fault) : State :=
  match id with
  | none => { s with out := s.out ++ [.result false] }
  | some id =>
    if id.utf8ByteSize > 256 then { s with out := s.out ++ [.result false] }
    else if s.seatId.isSome then { s with out := s.out ++ [.result false] }
    else enable { s with seatId := some id } fault

/-- What happens: in udev, and calls of the client.  `dispatch` is one message of the monitor in `libinput_dispatch`. -/
inductive Op where
  | appear (path : Path) (n : Node)
  | getReady (path : Path)
  | vanish (path : Path)
  | notify (path : Path)
  | scan
  | dispatch
  | assign (id : Option String) (fault : Option Fault)
  | suspend
  | resume (fault : Option Fault)
  | changeSeat (id : Nat) (name : Option String)
deriving DecidableEq, Repr

/-- One step; `none` is a crash.  While the enumeration runs the client waits for its call to return.
Models: /repo/src/libinput.c:3023-3027 and /repo/src/libinput.c:3017-3021 -/
def step (s : State) (op : Op) : Option State :=
  match op with
  | .appear path n => some (appear s path n)
  | .getReady path => some (getReady s path)
  | .vanish path => some (vanish s path)
  | .notify path => some (notify s path)
  | .scan => some (scanStep s)
  | op =>
    if s.scan.isSome then some s
    else
      match op with
      | .dispatch => some (if s.source then handler s else s)
      | .assign id fault => some (assign s id fault)
      | .suspend => disable s
      | .resume fault => some (enable s fault)
      | .changeSeat id name => some (changeSeat s id name)
      | _ => some s

def run (s : State) : List Op → Option State
  | [] => some s
  | op :: ops => (step s op).bind fun s => run s ops

end Libinput.Backend
