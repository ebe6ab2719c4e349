/-
Model of the reference counts of libinput's objects: seats, devices, device groups, tablet tools, tablet pad mode
groups and events (libinput.c, evdev.c, path-seat.c, udev-seat.c).

An object is an entry of the heap; its place in the list is its address and is never used again.  A pointer to an object
that was freed can be told apart from a good one, and using it ends the run.
Simplified: names and identifiers are numbers; reference counts are natural numbers (`int refcount` in C, so fewer than
2^31 references); allocation always succeeds; the context itself, which everything else lives in, is destroyed by
`contextDestroy` when its last reference goes.
-/
namespace Libinput.Refs

/-- What an object is.
Models: /repo/src/libinput-private.h (`struct libinput_seat`, `struct libinput_device`, `struct libinput_device_group`,
`struct libinput_tablet_tool`, `struct libinput_tablet_pad_mode_group`, `struct libinput_event`). -/
inductive Kind where
  /-- a seat and its (physical and logical) name -/
  | seat (name : Nat)
  /-- a device group and its identifier, if any -/
  | group (ident : Option Nat)
  | tool (type serial : Nat)
  /-- a mode group of a tablet pad -/
  | mode
  /-- a device, its syspath and its seat -/
  | dev (sys seat : Nat)
  /-- an event and its device -/
  | event (dev : Nat)
deriving DecidableEq, Repr

/-- An object. -/
structure Obj where
  kind : Kind
  refs : Nat
  /-- not yet freed -/
  alive : Bool
  /-- the objects this one has taken a reference to, in the order they are released: for a device the tools in
  `tablet->tool_list` and the mode groups in `pad->modes.mode_group_list`, then `base.group` and `base.seat`; for an
  event its tool or mode group, then its device -/
  out : List Nat
  /-- the device whose memory holds the head of the list this object is in: `tablet->tool_list`,
  `pad->modes.mode_group_list` -/
  home : Option Nat
  /-- a device in `seat->devices_list` -/
  linked : Bool
deriving DecidableEq, Repr

/-- The context. -/
structure State where
  /-- the udev backend, else the path backend -/
  udev : Bool
  heap : List Obj
  /-- the event queue -/
  queue : List Nat
deriving DecidableEq, Repr

/-- How a run ends early. -/
inductive Stop where
  /-- `assert(refcount > 0)` -/
  | assertFailed
  /-- memory that was freed is used -/
  | useAfterFree
deriving DecidableEq, Repr

abbrev M := Except Stop

def init (udev : Bool) : State := { udev := udev, heap := [], queue := [] }

/-- Follow a pointer. -/
def fetch (s : State) (i : Nat) : M Obj :=
  match s.heap[i]? with
  | some o => if o.alive then .ok o else .error .useAfterFree
  | none => .error .useAfterFree

def put (s : State) (i : Nat) (o : Obj) : State := { s with heap := s.heap.set i o }

/-- A new object; its address is `s.heap.length`. -/
def alloc (s : State) (o : Obj) : State := { s with heap := s.heap ++ [o] }

/-- `libinput_seat_ref`, `libinput_device_ref`, `libinput_device_group_ref`, `libinput_tablet_tool_ref` and
`libinput_tablet_pad_mode_group_ref`, which are all alike.
Models: /repo/src/libinput.c:2000-2005, /repo/src/libinput.c:2068-2073, /repo/src/libinput.c:3558-3563,
/repo/src/libinput.c:1652-1657, /repo/src/libinput.c:3260-3266. -/
def ref (s : State) (i : Nat) : M State := do
  let o ← fetch s i
  .ok (put s i { o with refs := o.refs + 1 })

/-- The first part of the `unref` functions: the assertion and the count.  Says whether the count got to zero. -/
def drop (s : State) (i : Nat) : M (State × Bool) := do
  let o ← fetch s i
  if o.refs = 0 then .error .assertFailed
  else .ok (put s i { o with refs := o.refs - 1 }, o.refs == 1)

/-- `free()`. -/
def free (s : State) (i : Nat) : M State := do
  let o ← fetch s i
  .ok (put s i { o with alive := false })

/-- `list_remove(&tool->link)` and the like: the neighbours in the list are written to.  The list's head is inside the
object `home`.  (Simplified: with several objects left in a list whose head is gone, some have neighbours which are all
still there; this is not told apart.) -/
def unlink (s : State) (i : Nat) : M Unit := do
  let o ← fetch s i
  match o.home with
  | none => .ok ()
  | some h => do
    let _ ← fetch s h
    .ok ()

/-- `libinput_seat_unref`, `libinput_device_group_unref`, `libinput_tablet_tool_unref` and
`libinput_tablet_pad_mode_group_unref`.  (Freeing the LEDs of a mode group, `pad_led_group_destroy`, uses the device the
group is from, like taking it off the list does.)
Models: /repo/src/libinput.c:2016-2027, /repo/src/libinput.c:2007-2014, /repo/src/libinput.c:3613-3624,
/repo/src/libinput.c:3605-3611, /repo/src/libinput.c:1659-1671,
/repo/src/libinput.c:3268-3281, /repo/src/evdev-tablet-pad-leds.c:150-164. -/
def unrefLeaf (s : State) (i : Nat) : M State := do
  let (s, gone) ← drop s i
  if gone then do
    unlink s i
    free s i
  else .ok s

/-- `evdev_device_destroy`: the device's tools and mode groups, its device group and its seat are released, then its
memory is freed.
Models: /repo/src/evdev.c:2891-2911, /repo/src/libinput.c:2075-2080, /repo/src/evdev-tablet.c:2097-2114,
/repo/src/evdev-tablet-pad-leds.c:577-584. -/
def destroyDev (s : State) (i : Nat) : M State := do
  let o ← fetch s i
  let s ← o.out.foldlM unrefLeaf s
  free s i

/-- `libinput_device_unref`.  Models: /repo/src/libinput.c:2082-2093. -/
def unrefDev (s : State) (i : Nat) : M State := do
  let (s, gone) ← drop s i
  if gone then destroyDev s i else .ok s

/-- `libinput_event_destroy`: the event's tool or mode group is released, then its device.
Models: /repo/src/libinput.c:1928-1957, /repo/src/libinput.c:1915-1919,
/repo/src/libinput.c:1921-1926. -/
def destroyEvent (s : State) (i : Nat) : M State := do
  let o ← fetch s i
  match o.kind with
  | .event d => do
    let s ← o.out.dropLast.foldlM unrefLeaf s
    let s ← unrefDev s d
    free s i
  | _ => .error .useAfterFree

/-- The notify functions and `libinput_post_event`: an event for device `d`, with a reference to each of `ptrs` (a tool,
a mode group, or nothing) and one to the device, goes to the end of the queue.
Models: /repo/src/libinput.c:2923-2974, /repo/src/libinput.c:2607-2634, /repo/src/libinput.c:2728-2756. -/
def emit (s : State) (d : Nat) (ptrs : List Nat) : M State := do
  let s ← ptrs.foldlM ref s
  let s ← ref s d
  let e := s.heap.length
  let s := alloc s { kind := .event d, refs := 1, alive := true, out := ptrs ++ [d], home := none, linked := false }
  .ok { s with queue := s.queue ++ [e] }

/-- The last object which is there and for which `p` holds: the lists are searched from the object that was put in
last. -/
def findLast (s : State) (p : Obj → Bool) : Option Nat :=
  (List.range s.heap.length).reverse.find? fun i =>
    match s.heap[i]? with
    | some o => o.alive && p o
    | none => false

/-- `tablet_get_tool`: tools with a serial number are looked up in the context's list, others, and those not found, in
the tablet's; a new one goes into the context's list if it has a serial number.
Models: /repo/src/evdev-tablet.c:1116-1182. -/
def getTool (s : State) (d : Nat) (type serial : Nat) : M (State × Nat) :=
  let inContext := if serial ≠ 0 then findLast s (fun o => o.kind == .tool type serial && o.home == none) else none
  match inContext with
  | some t => .ok (s, t)
  | none =>
    match findLast s (fun o => (match o.kind with | .tool ty _ => ty == type | _ => false) && o.home == some d) with
    | some t => .ok (s, t)
    | none =>
      let t := s.heap.length
      if serial ≠ 0 then
        .ok (alloc s { kind := .tool type serial, refs := 1, alive := true, out := [], home := none, linked := false }, t)
      else do
        let o ← fetch s d
        .ok (alloc (put s d { o with out := t :: o.out })
          { kind := .tool type serial, refs := 1, alive := true, out := [], home := some d, linked := false }, t)

/-- What an event is about, besides its device. -/
inductive Note where
  | plain
  /-- a tablet tool event -/
  | tool (type serial : Nat)
  /-- a tablet pad event of the k-th mode group -/
  | pad (k : Nat)
deriving DecidableEq, Repr

/-- The mode groups of a tablet pad. -/
def modesOf (s : State) (d : Nat) : List Nat :=
  (List.range s.heap.length).filter fun i =>
    match s.heap[i]? with
    | some o => o.alive && o.kind == .mode && o.home == some d
    | none => false

/-- A device sends an event. -/
def post (s : State) (d : Nat) : Note → M State
  | .plain => emit s d []
  | .tool ty ser => do
    let (s, t) ← getTool s d ty ser
    emit s d [t]
  | .pad k =>
    match (modesOf s d)[k]? with
    | some m => emit s d [m]
    | none => emit s d []

/-- `evdev_set_device_group`: find the group or create it, and take a reference to it.
Models: /repo/src/evdev.c:2016-2040, /repo/src/libinput.c:3565-3579,
/repo/src/libinput.c:3581-3595, /repo/src/libinput.c:3597-3603. -/
def getGroup (s : State) (ident : Option Nat) : M (State × Nat) :=
  let found := match ident with
    | some _ => findLast s (fun o => o.kind == .group ident)
    | none => none
  match found with
  | some g => do
    let s ← ref s g
    .ok (s, g)
  | none => do
    let g := s.heap.length
    let s := alloc s { kind := .group ident, refs := 1, alive := true, out := [], home := none, linked := false }
    let s ← ref s g
    let s ← unrefLeaf s g
    .ok (s, g)

/-- What becomes of a new device node. -/
inductive Outcome where
  /-- it cannot be opened -/
  | notOpened
  /-- it is no device for libinput -/
  | unhandled
  /-- it is a device, with that many mode groups -/
  | device (modes : Nat)
deriving DecidableEq, Repr

/-- `pad_init_leds`: the mode groups of device `d`.
Models: /repo/src/evdev-tablet-pad-leds.c:166-184, /repo/src/evdev-tablet-pad-leds.c:530-550. -/
def addModes (s : State) (d : Nat) : Nat → State
  | 0 => s
  | n + 1 =>
    addModes (alloc s { kind := .mode, refs := 1, alive := true, out := [], home := some d, linked := false }) d n

/-- `evdev_device_create`.  Models: /repo/src/evdev.c:2205-2314. -/
def createDev (s : State) (seat sys : Nat) (ident : Option Nat) : Outcome → M State
  | .notOpened => .ok s
  | .unhandled => do
    let d := s.heap.length
    let s := alloc s { kind := .dev sys seat, refs := 1, alive := true, out := [], home := none, linked := false }
    let s ← ref s seat
    let o ← fetch s d
    destroyDev (put s d { o with out := [seat] }) d
  | .device n => do
    let d := s.heap.length
    let s := alloc s { kind := .dev sys seat, refs := 1, alive := true, out := [], home := none, linked := false }
    let s ← ref s seat
    let s := addModes s d n
    let (s, g) ← getGroup s ident
    let o ← fetch s d
    let s := put s d { o with out := (List.range n).map (fun k => d + 1 + k) ++ [g, seat], linked := true }
    emit s d []

/-- The device is there already: `filter_duplicates`.  Models: /repo/src/udev-seat.c:45-74. -/
def duplicate (s : State) (seat sys : Nat) : Bool :=
  s.heap.any fun o => o.linked && o.kind == .dev sys seat

/-- `path_device_enable` and `device_added`: the seat is found or created, and the device created on it.  The path
backend takes a reference to a seat it has just created and never gives up the one the seat was created with.
Models: /repo/src/path-seat.c:121-171, /repo/src/path-seat.c:173-214, /repo/src/udev-seat.c:76-147. -/
def addDev (s : State) (name sys : Nat) (ident : Option Nat) (what : Outcome) : M State := do
  let seat := findLast s (fun o => o.kind == .seat name)
  if s.udev && (match seat with | some i => duplicate s i sys | none => false) then .ok s else do
  let (s, i) ← match seat with
    | some i => do
      let s ← ref s i
      pure (s, i)
    | none => do
      let i := s.heap.length
      let s := alloc s { kind := .seat name, refs := 1, alive := true, out := [], home := none, linked := false }
      if s.udev then pure (s, i) else do
        let s ← ref s i
        pure (s, i)
  let s ← createDev s i sys ident what
  unrefLeaf s i

/-- `evdev_device_remove`; `notes` are the events sent while the device is shut down.
Models: /repo/src/evdev.c:2857-2889. -/
def removeDev (s : State) (d : Nat) (notes : List Note) : M State := do
  let s ← notes.foldlM (fun s n => post s d n) s
  let o ← fetch s d
  match o.kind with
  | .dev _ seat => do
    let _ ← fetch s seat
    let s := put s d { o with linked := false }
    let s ← emit s d []
    unrefDev s d
  | _ => .error .useAfterFree

/-- `libinput_path_remove_device` and `device_removed`: a device which is not on its seat any more is left alone.  The
udev backend goes on to the next seat by way of this device's, the path backend holds on to the seat meanwhile.
Models: /repo/src/path-seat.c:403-428, /repo/src/path-seat.c:51-65,
/repo/src/udev-seat.c:149-167. -/
def remove (s : State) (d : Nat) (notes : List Note) : M State := do
  let o ← fetch s d
  match o.kind with
  | .dev _ seat =>
    if s.udev then do
      if o.linked then do
        let s ← removeDev s d notes
        let _ ← fetch s seat
        .ok s
      else .ok s
    else do
      let s ← ref s seat
      let s ← if o.linked then removeDev s d notes else .ok s
      unrefLeaf s seat
  | _ => .error .useAfterFree

/-- The seats, newest first. -/
def seatsOf (s : State) : List Nat :=
  ((List.range s.heap.length).filter fun i =>
    match s.heap[i]? with
    | some o => o.alive && (match o.kind with | .seat _ => true | _ => false)
    | none => false).reverse

/-- `seat->devices_list`. -/
def devicesOf (s : State) (seat : Nat) : List Nat :=
  (List.range s.heap.length).filter fun i =>
    match s.heap[i]? with
    | some o => o.linked && (match o.kind with | .dev _ st => st == seat | _ => false)
    | none => false

/-- One seat in `suspend`. -/
def suspendSeat (notes : Nat → List Note) (s : State) (seat : Nat) : M State := do
  let s ← ref s seat
  let s ← (devicesOf s seat).foldlM (fun s d => removeDev s d (notes d)) s
  unrefLeaf s seat

/-- `libinput_suspend`: every device is removed.
Models: /repo/src/path-seat.c:67-81, /repo/src/udev-seat.c:243-257. -/
def suspend (s : State) (notes : Nat → List Note) : M State :=
  (seatsOf s).foldlM (suspendSeat notes) s

/-- What happens: calls of the caller, and what devices do.  (`libinput_resume` and
`libinput_device_set_seat_logical_name` are made up of `add` and `remove`.) -/
inductive Op where
  | add (name sys : Nat) (ident : Option Nat) (what : Outcome)
  | remove (d : Nat) (notes : List Note)
  | suspend (notes : Nat → List Note)
  | post (d : Nat) (n : Note)
  | getEvent
  | destroyEvent (e : Nat)
  | ref (i : Nat)
  | unref (i : Nat)

/-- The `unref` function for the kind of object.  Events have none. -/
def unref (s : State) (i : Nat) : M State := do
  let o ← fetch s i
  match o.kind with
  | .dev _ _ => unrefDev s i
  | .event _ => .error .useAfterFree
  | _ => unrefLeaf s i

def step (s : State) : Op → M State
  | .add name sys ident what => addDev s name sys ident what
  | .remove d notes => Refs.remove s d notes
  | .suspend notes => Refs.suspend s notes
  | .post d n => Refs.post s d n
  | .getEvent => .ok { s with queue := s.queue.drop 1 }
  | .destroyEvent e => Refs.destroyEvent s e
  | .ref i => Refs.ref s i
  | .unref i => Refs.unref s i

def run (s : State) : List Op → M State
  | [] => .ok s
  | op :: ops => do
    let s ← step s op
    run s ops

/-- The `while ((event = libinput_get_event(libinput)))` loop of `libinput_unref`. -/
def drain (s : State) : List Nat → M State
  | [] => .ok s
  | e :: es => do
    let s ← Refs.destroyEvent { s with queue := es } e
    drain s es

/-- What is freed whatever its reference count, when the context goes: seats and device groups. -/
def sweep (s : State) : List Nat → M State
  | [] => .ok s
  | i :: is => do
    match s.heap[i]? with
    | none => sweep s is
    | some o =>
      if o.alive then
        match o.kind with
        | .seat _ => do
          let s ← free s i
          sweep s is
        | .group _ => do
          let s ← free s i
          sweep s is
        | .tool _ _ =>
          if o.home = none then do
            let s ← unrefLeaf s i
            sweep s is
          else sweep s is
        | _ => sweep s is
      else sweep s is

/-- `libinput_unref` of the last reference to the context.  (Simplified: seats, groups and tools are freed in order of
their age, not kind by kind; no device is left on a seat by then.)
Models: /repo/src/libinput.c:1861-1913. -/
def contextDestroy (s : State) (notes : Nat → List Note) : M State := do
  let s ← suspend s notes
  let s ← drain s s.queue
  sweep s (List.range s.heap.length)

end Libinput.Refs
