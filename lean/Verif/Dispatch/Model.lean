/-
The main loop: what `libinput_dispatch` watches, whom it calls, and how a device's events are read.

A `struct libinput_source` is a heap object numbered in the order of allocation; `heap` says which are allocated, and every access
goes through it, so that using a freed source is a fault.  Files are numbered in the order they are opened; a file descriptor
stands for the file it is open on.  What a callback does with sources (suspend another device because a switch was toggled, add
and remove devices because udev said so, ...) is a list of acts that the environment chooses.  What other devices do in answer to
a device being added, suspended or removed (evdev_notify_added_device and the like) are further acts.
-/
namespace Libinput.Dispatch

/-- Whose callback a source calls: `libinput_timer_dispatch`, `evdev_udev_handler` or `evdev_device_dispatch` with its device. -/
inductive Owner where
  | timer
  | monitor
  | dev (d : Nat)
deriving DecidableEq, Repr

/-- `struct input_event` with the time of `input_event_time` in microseconds.
Models: /repo/src/util-input-event.h:49-58. -/
structure Ev where
  time : Nat
  type : Nat
  code : Nat
  value : Int
deriving DecidableEq, Repr

/-- `EV_SYN` and `SYN_REPORT`. -/
def Ev.isReport (e : Ev) : Bool := e.type == 0 && e.code == 0

/-- `struct libinput_source`, /repo/src/libinput.c:150-155; the callback and its data are
`owner`.  `fd = none` is -1. -/
structure Source where
  fd : Option Nat
  owner : Owner
deriving DecidableEq, Repr

/-- An entry of the kernel's interest list of the epoll instance: the file and the pointer in `ep.data.ptr`.  `owner` is the owner
of the source the pointer was made for. -/
structure Watch where
  file : Nat
  src : Nat
  owner : Owner
deriving DecidableEq, Repr

/-- `struct mtdev`, by what went in and which of the events it made are not fetched yet. -/
structure Mt where
  put : List Ev := []
  pending : List Ev := []
deriving DecidableEq, Repr

/-- `device->mtdev`: NULL, a converter, or a pointer to a converter that was freed. -/
inductive MtPtr where
  | null
  | live (m : Mt)
  | gone
deriving DecidableEq, Repr

/-- What `struct evdev_device` has of this.  `needMt` is `evdev_need_mtdev`.  `shared`: someone else (logind)
keeps the device's file open too, so that closing the descriptor does not take it from the epoll instance.
`alive`: not freed. -/
structure Dev where
  alive : Bool := false
  removed : Bool := false
  needMt : Bool := false
  shared : Bool := false
  fd : Option Nat := none
  source : Option Nat := none
  mt : MtPtr := .null
deriving DecidableEq, Repr

/-- What happened, oldest first. -/
inductive Did where
  | watch (src : Nat) (o : Owner)
  | unwatch (src : Nat)
  | free (src : Nat)
  | call (src : Nat) (o : Owner)
  | flush (time : Nat)
  | event (d : Nat) (e : Ev)
  | lag (d ms : Nat)
  | resumed (d : Nat) (rc : Int)
deriving DecidableEq, Repr

/-- Memory errors and failed assertions: a source that was freed, a source that is not there, a source removed twice, an `mtdev`
converter that was freed. -/
inductive Fault where
  | useAfterFree
  | nullPointer
  | twice
  | mtdev
deriving DecidableEq, Repr

/-- `struct libinput` as far as sources go.  `destroy` is `source_destroy_list`, `opened` the files open in this process, `tick` is
the static variable of `libinput_dispatch`. -/
structure Ctx where
  heap : Nat → Option Source := fun _ => none
  fresh : Nat := 0
  files : Nat := 0
  opened : Nat → Bool := fun _ => false
  epoll : List Watch := []
  destroy : List Nat := []
  timer : Option Nat := none
  monitor : Option Nat := none
  dev : Nat → Dev := fun _ => {}
  ndev : Nat := 0
  tick : Nat := 0
  dispatchTime : Nat := 0
  closed : Bool := false
  log : List Did := []

abbrev M := Except Fault

def Ctx.say (s : Ctx) (x : Did) : Ctx := { s with log := s.log ++ [x] }
def Ctx.setDev (s : Ctx) (d : Nat) (v : Dev) : Ctx := { s with dev := fun i => if i = d then v else s.dev i }

/-- `open`: the next file. -/
def openFile (s : Ctx) : Ctx × Nat :=
  ({ s with files := s.files + 1, opened := fun f => if f = s.files then true else s.opened f }, s.files)

/-- `close`: the epoll instance forgets the file unless somebody else has it open too (epoll(7), Q6). -/
def closeFile (s : Ctx) (f : Nat) (shared : Bool) : Ctx :=
  { s with opened := fun g => if g = f then false else s.opened g
           epoll := if shared then s.epoll else s.epoll.filter (fun w => w.file ≠ f) }

/-- `libinput_add_fd`; `ok` is whether `epoll_ctl` can add.  Models: /repo/src/libinput.c:1728-1752. -/
def addFd (s : Ctx) (file : Nat) (o : Owner) (ok : Bool) : Ctx × Option Nat :=
  if ok then
    ({ s with heap := fun i => if i = s.fresh then some { fd := some file, owner := o } else s.heap i
              fresh := s.fresh + 1
              epoll := s.epoll ++ [{ file := file, src := s.fresh, owner := o }]
              log := s.log ++ [.watch s.fresh o] }, some s.fresh)
  else (s, none)

/-- `epoll_ctl` with `EPOLL_CTL_DEL`: fails if the descriptor is not open. -/
def epollDel (s : Ctx) (fd : Option Nat) : List Watch :=
  match fd with
  | some f => if s.opened f then s.epoll.filter (fun w => w.file ≠ f) else s.epoll
  | none => s.epoll

/-- `libinput_remove_source`; `list_insert` aborts on an element that is in a list.  Models: /repo/src/libinput.c:1754-1761. -/
def removeSource (s : Ctx) (src : Option Nat) : M Ctx :=
  match src with
  | none => .error .nullPointer
  | some i =>
    match s.heap i with
    | none => .error .useAfterFree
    | some x =>
      if i ∈ s.destroy then .error .twice
      else .ok { s with epoll := epollDel s x.fd
                        heap := fun j => if j = i then some { x with fd := none } else s.heap j
                        destroy := i :: s.destroy
                        log := s.log ++ [.unwatch i] }

/-- The loop of `libinput_drop_destroyed_sources`. -/
def dropLoop (s : Ctx) : List Nat → M Ctx
  | [] => .ok s
  | i :: is =>
    match s.heap i with
    | none => .error .useAfterFree
    | some _ => dropLoop { s with heap := fun j => if j = i then none else s.heap j, log := s.log ++ [.free i] } is

/-- `libinput_drop_destroyed_sources`.  Models: /repo/src/libinput.c:1844-1852. -/
def drop (s : Ctx) : M Ctx :=
  match dropLoop s s.destroy with
  | .ok s => .ok { s with destroy := [] }
  | .error e => .error e

/-- The source part of `evdev_device_suspend`.  Models: /repo/src/evdev.c:2774-2777. -/
def dropSource (s : Ctx) (d : Nat) : M Ctx :=
  match (s.dev d).source with
  | none => .ok s
  | some i =>
    match removeSource s (some i) with
    | .ok s => .ok (s.setDev d { s.dev d with source := none })
    | .error e => .error e

/-- `evdev_device_suspend`; what the dispatch interface does on suspend is C10's and C34's matter.
Models: /repo/src/evdev.c:2764-2789. -/
def suspend (s : Ctx) (d : Nat) : M Ctx :=
  match dropSource s d with
  | .error e => .error e
  | .ok s =>
    if (s.dev d).mt = .gone then .error .mtdev
    else
      let s := s.setDev d { s.dev d with mt := .null }
      match (s.dev d).fd with
      | none => .ok s
      | some f => .ok ((closeFile s f (s.dev d).shared).setDev d { s.dev d with fd := none })

/-- How far `evdev_device_resume` gets: no device node or a failed or wrong open, no `mtdev`, no place in the epoll instance, or
all the way. -/
inductive Reopen where
  | notOpened (errno : Nat)
  | noMtdev
  | notWatched
  | fine
deriving DecidableEq, Repr

/-- `evdev_device_resume`.  Draining the descriptor and syncing libevdev (whose events are thrown away) is left out, as is
`evdev_notify_resumed_device`.  Models: /repo/src/evdev.c:2791-2855. -/
def resume (s : Ctx) (d : Nat) (r : Reopen) : Ctx × Int :=
  if (s.dev d).fd ≠ none then (s, 0)
  else if (s.dev d).removed then (s, -19)
  else
    match r with
    | .notOpened e => (s, -(e : Int))
    | r =>
      let (s, f) := openFile s
      let s := s.setDev d { s.dev d with fd := some f }
      if (s.dev d).needMt = true ∧ r = .noMtdev then (s, -19)
      else
        let s := s.setDev d { s.dev d with mt := if (s.dev d).needMt then .live {} else (s.dev d).mt }
        match addFd s f (.dev d) (r ≠ .notWatched) with
        | (s, none) => (s.setDev d { s.dev d with mt := match (s.dev d).mt with
                                                        | .live _ => .gone
                                                        | m => m }, -12)
        | (s, some i) => (s.setDev d { s.dev d with source := some i }, 0)

/-- `evdev_device_create` when it succeeds; if it does not, its file is closed and nothing is left (the one failure after
`libinput_add_fd`, that of `strdup` for the device group's name, is left out: it would leave the source behind).
Models: /repo/src/evdev.c:2292-2304. -/
def create (s : Ctx) (needMt shared : Bool) : Ctx :=
  let d := s.ndev
  let (s, f) := openFile s
  match addFd s f (.dev d) true with
  | (s, i) => { s.setDev d { alive := true, needMt := needMt, shared := shared, fd := some f, source := i,
                             mt := if needMt then .live {} else .null } with ndev := d + 1 }

/-- `evdev_device_remove`; `kept`: the caller has a reference of their own, so that the last `libinput_device_unref` does not free
it.  Models: /repo/src/evdev.c:2857-2889. -/
def remove (s : Ctx) (d : Nat) (kept : Bool) : M Ctx :=
  match suspend s d with
  | .error e => .error e
  | .ok s => .ok (s.setDev d { s.dev d with removed := true, alive := kept })

/-- What any code may do with devices.  There is no way to do something with a device that was freed, or to remove a device that
was removed: it is in no list. -/
inductive Act where
  | suspend (d : Nat)
  | resume (d : Nat) (r : Reopen)
  | create (needMt shared : Bool)
  | remove (d : Nat) (kept : Bool)
deriving DecidableEq, Repr

def act (s : Ctx) : Act → M Ctx
  | .suspend d => if (s.dev d).alive then suspend s d else .ok s
  | .resume d r =>
    if (s.dev d).alive then
      match resume s d r with
      | (s, rc) => .ok (s.say (.resumed d rc))
    else .ok s
  | .create m sh => .ok (create s m sh)
  | .remove d kept => if (s.dev d).alive = true ∧ (s.dev d).removed = false then remove s d kept else .ok s

def acts (s : Ctx) : List Act → M Ctx
  | [] => .ok s
  | a :: as =>
    match act s a with
    | .ok s => acts s as
    | .error e => .error e

/-- What `mtdev` makes of an event, given what it was given before. -/
abbrev Conv := List Ev → Ev → List Ev

/-- `evdev_process_event`: timers that are due by the event's time go first (`libinput_timer_flush` is C14's), then the device's
dispatch gets the event.  `react` is what timers and the dispatch do with devices.  Models: /repo/src/evdev.c:971-984. -/
def processEvent (s : Ctx) (d : Nat) (e : Ev) (react : List Act) : M Ctx :=
  acts { s with log := s.log ++ [.flush e.time, .event d e] } react

/-- What the callback of a device finds: the results of `libevdev_next_event` with `LIBEVDEV_READ_FLAG_NORMAL`.  `dropped e sync rc`
is `LIBEVDEV_READ_STATUS_SYNC` with the `SYN_DROPPED` event `e`; then, with `LIBEVDEV_READ_FLAG_SYNC`, the events of `sync` come
with `LIBEVDEV_READ_STATUS_SYNC` and the error `-rc` ends it (libevdev ends a sync with `-EAGAIN`, never with a success). -/
inductive Read where
  | ev (e : Ev)
  | dropped (e : Ev) (sync : List Ev) (rc : Nat)
deriving DecidableEq, Repr

def EAGAIN : Nat := 11
def EINTR : Nat := 4

/-- One call of a callback: what reading gives (`rc` is the error that ends it), and what is done with devices when the `n`th event
is handled.  Callbacks other than those of devices do `react 0`. -/
structure Call where
  reads : List Read := []
  rc : Nat := 11
  react : Nat → List Act := fun _ => []

/-- `mtdev_get_event` until the converter is empty.  Models: /repo/src/evdev.c:995-999. -/
def processAll (s : Ctx) (d : Nat) (c : Call) (n : Nat) : List Ev → M (Ctx × Nat)
  | [] => .ok (s, n)
  | e :: es =>
    match processEvent s d e (c.react n) with
    | .ok s => processAll s d c (n + 1) es
    | .error x => .error x

/-- `evdev_device_dispatch_one`; `n` counts the events handled in this call.  Models: /repo/src/evdev.c:986-1002. -/
def dispatchOne (conv : Conv) (s : Ctx) (d : Nat) (c : Call) (n : Nat) (e : Ev) : M (Ctx × Nat) :=
  match (s.dev d).mt with
  | .null => processAll s d c n [e]
  | .gone => .error .mtdev
  | .live m =>
    let out := m.pending ++ conv m.put e
    if e.isReport then
      processAll (s.setDev d { s.dev d with mt := .live { put := m.put ++ [e], pending := [] } }) d c n out
    else .ok (s.setDev d { s.dev d with mt := .live { put := m.put ++ [e], pending := out } }, n)

/-- `evdev_sync_device`.  Models: /repo/src/evdev.c:1004-1019. -/
def syncDevice (conv : Conv) (s : Ctx) (d : Nat) (c : Call) (n : Nat) : List Ev → M (Ctx × Nat)
  | [] => .ok (s, n)
  | e :: es =>
    match dispatchOne conv s d c n e with
    | .ok (s, n) => syncDevice conv s d c n es
    | .error x => .error x

/-- `us2ms`.  Models: /repo/src/util-time.h:66-70. -/
def us2ms (us : Nat) : Nat := us / 1000 % 2 ^ 32

/-- `evdev_note_time_delay`; the message is rate limited (C26).  Models: /repo/src/evdev.c:1021-1046. -/
def noteDelay (s : Ctx) (d : Nat) (e : Ev) : Ctx :=
  if s.dispatchTime = 0 ∨ e.time > s.dispatchTime then s
  else
    let tdelta := us2ms (s.dispatchTime - e.time)
    if tdelta > 10 then s.say (.lag d tdelta) else s

/-- The loop of `evdev_device_dispatch`; the result is the error it ended with.
Models: /repo/src/evdev.c:1060-1083. -/
def readLoop (conv : Conv) (d : Nat) (c : Call) : Ctx → Nat → Bool → List Read → M (Ctx × Nat)
  | s, _, _, [] => .ok (s, c.rc)
  | s, n, once, .ev e :: rs =>
    match dispatchOne conv (if once then s else noteDelay s d e) d c n e with
    | .ok (s, n) => readLoop conv d c s n true rs
    | .error x => .error x
  | s, n, once, .dropped e sync rc :: rs =>
    match dispatchOne conv s d c n { e with code := 0 } with
    | .error x => .error x
    | .ok (s, n) =>
      match syncDevice conv s d c n sync with
      | .error x => .error x
      | .ok (s, n) => if rc = EAGAIN then readLoop conv d c s n once rs else .ok (s, rc)

/-- `evdev_device_dispatch`.  Models: /repo/src/evdev.c:1048-1090. -/
def deviceDispatch (conv : Conv) (s : Ctx) (d : Nat) (c : Call) : M Ctx :=
  if (s.dev d).alive = false then .error .useAfterFree
  else
    match readLoop conv d c s 0 false c.reads with
    | .error x => .error x
    | .ok (s, rc) =>
      if rc ≠ EAGAIN ∧ rc ≠ EINTR then
        match removeSource s (s.dev d).source with
        | .error x => .error x
        | .ok s => .ok (s.setDev d { s.dev d with source := none })
      else .ok s

/-- `source->dispatch(source->user_data)`.  The timers' callback and udev's are `act`s.
Models: /repo/src/libinput.c:2126, /repo/src/timer.c:162-182, /repo/src/udev-seat.c:216-241. -/
def callback (conv : Conv) (s : Ctx) (o : Owner) (c : Call) : M Ctx :=
  match o with
  | .dev d => deviceDispatch conv s d c
  | _ => acts s (c.react 0)

/-- The loop over what `epoll_wait` gave.  Models: /repo/src/libinput.c:2121-2127. -/
def callLoop (conv : Conv) : Ctx → List (Nat × Call) → M Ctx
  | s, [] => .ok s
  | s, (i, c) :: rs =>
    match s.heap i with
    | none => .error .useAfterFree
    | some x =>
      match x.fd with
      | none => callLoop conv s rs
      | some _ =>
        match callback conv (s.say (.call i x.owner)) x.owner c with
        | .ok s => callLoop conv s rs
        | .error e => .error e

/-- What `epoll_wait` reports: the pointers registered for files that have something to say, given by their owners, up to 32. -/
def reported (s : Ctx) (ready : List (Owner × Call)) : List (Nat × Call) :=
  (ready.flatMap (fun r => (s.epoll.filter (fun w => w.owner = r.1)).map (fun w => (w.src, r.2)))).take 32

/-- The time snapshot of every tenth call.  Models: /repo/src/libinput.c:2109-2115. -/
def snapshot (s : Ctx) (now : Nat) : Ctx :=
  let t := (s.tick + 1) % 256
  { s with tick := t, dispatchTime := if t % 10 = 0 then now else 0 }

/-- `libinput_dispatch`; `wait` is the error of `epoll_wait`, if any; `now` the time.  Models: /repo/src/libinput.c:2101-2132. -/
def dispatch (conv : Conv) (s : Ctx) (now : Nat) (wait : Option Nat) (ready : List (Owner × Call)) : M Ctx :=
  let s := snapshot s now
  match wait with
  | some _ => .ok s
  | none =>
    match callLoop conv s (reported s ready) with
    | .error e => .error e
    | .ok s => drop s

/-- All devices that are in a seat's list are removed.  Models: /repo/src/udev-seat.c:243-257,
/repo/src/path-seat.c:67-81. -/
def removeAll (s : Ctx) (kept : Nat → Bool) : List Nat → M Ctx
  | [] => .ok s
  | d :: ds =>
    match act s (.remove d (kept d)) with
    | .ok s => removeAll s kept ds
    | .error e => .error e

/-- `libinput_suspend`: of udev contexts, the monitor is closed (`shared`: another process has its socket too) before it is taken
from the sources; then all devices are removed.  A context that has no monitor is taken for a path context (in a udev context
without a monitor there are no devices).  Models: /repo/src/udev-seat.c:259-273, /repo/src/path-seat.c:67-81. -/
def disable (s : Ctx) (shared : Bool) (kept : Nat → Bool) : M Ctx :=
  match s.monitor with
  | none => removeAll s kept (List.range s.ndev)
  | some i =>
    let file := match s.heap i with
      | some x => x.fd
      | none => none
    let s := match file with
      | some f => closeFile s f shared
      | none => s
    match removeSource s (some i) with
    | .error e => .error e
    | .ok s => removeAll { s with monitor := none } kept (List.range s.ndev)

/-- `udev_input_enable`, with the devices there are; `ok` is whether `epoll_ctl` can add.  If adding a device fails all is
disabled again, as if by `disable`.  Models: /repo/src/udev-seat.c:275-322. -/
def enable (s : Ctx) (ok : Bool) (devs : List (Bool × Bool)) : Ctx :=
  if s.monitor ≠ none then s
  else
    let (s, f) := openFile s
    match addFd s f .monitor ok with
    | (s, none) => closeFile s f false
    | (s, some i) => devs.foldl (fun s x => create s x.1 x.2) { s with monitor := some i }

/-- `libinput_unref` of the last reference.  Models: /repo/src/libinput.c:1861-1913, /repo/src/timer.c:206-226. -/
def destroy (s : Ctx) (shared : Bool) (kept : Nat → Bool) : M Ctx :=
  match disable s shared kept with
  | .error e => .error e
  | .ok s =>
    let file := match s.timer with
      | some i => (s.heap i).bind (·.fd)
      | none => none
    match removeSource s s.timer with
    | .error e => .error e
    | .ok s =>
      let s := match file with
        | some f => closeFile s f false
        | none => s
      match drop s with
      | .error e => .error e
      | .ok s => .ok { s with closed := true, timer := none }

/-- `libinput_init`, with the timers' source.  Models: /repo/src/libinput.c:1763-1796, /repo/src/timer.c:184-204. -/
def init : Ctx :=
  let (s, f) := openFile {}
  match addFd s f .timer true with
  | (s, i) => { s with timer := i }

/-- Anything a caller and the world do. -/
inductive Op where
  | dispatch (now : Nat) (wait : Option Nat) (ready : List (Owner × Call))
  | act (a : Act)
  | disable (shared : Bool) (kept : Nat → Bool)
  | enable (ok : Bool) (devs : List (Bool × Bool))
  | destroy (shared : Bool) (kept : Nat → Bool)

/-- A step; after the context is gone nothing can be called. -/
def step (conv : Conv) (s : Ctx) (op : Op) : M Ctx :=
  if s.closed then .ok s
  else
    match op with
    | .dispatch now wait ready => dispatch conv s now wait ready
    | .act a => act s a
    | .disable sh kept => disable s sh kept
    | .enable ok devs => .ok (enable s ok devs)
    | .destroy sh kept => destroy s sh kept

def run (conv : Conv) : Ctx → List Op → M Ctx
  | s, [] => .ok s
  | s, op :: ops =>
    match step conv s op with
    | .ok s => run conv s ops
    | .error e => .error e

end Libinput.Dispatch
