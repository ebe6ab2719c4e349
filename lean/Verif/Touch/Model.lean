/-
How a touchpad follows the fingers on it, as /repo/src/evdev-mt-touchpad.c does it: from the events of the kernel
(slots, tracking ids, `BTN_TOUCH` and `BTN_TOOL_*`) to the touches the rest of the touchpad code sees in each frame.
Not modelled here: positions other than `y` (which selects the topmost touch), motion history, palm and thumb detection,
tapping, software buttons, scrolling and gestures; none of them changes what is modelled here.
-/
namespace Libinput.Touch

/-- `enum touch_state`.  Models: /repo/src/evdev-mt-touchpad.h:47-54. -/
inductive St where
  | none | hovering | begin | update | maybeEnd | end_
deriving DecidableEq, Repr

/-- The part of `struct tp_touch` that matters here.  `touchMajor`, `touchMinor`: `major`, `minor`.
Models: /repo/src/evdev-mt-touchpad.h:181-272, and /repo/src/evdev-mt-touchpad.c:2846-2854 for the initial values. -/
structure Finger where
  st : St := .none
  dirty : Bool := false
  hasEnded : Bool := true
  wasDown : Bool := false
  y : Int := 0
  pressure : Int := 0
  touchMajor : Int := 0
  touchMinor : Int := 0
deriving DecidableEq, Repr

/-- How the touchpad tells a finger that touches from one that hovers: by pressure, by size, or by `BTN_TOUCH` and the
`BTN_TOOL_*` buttons.  Models: /repo/src/evdev-mt-touchpad.c:1396-1406. -/
inductive Mode where
  | pressure (low high : Int)
  | size (low high : Int)
  | buttons
deriving DecidableEq, Repr

/-- What does not change while a touchpad is in use.  `synaptics`, `alps`: the two model flags; `hasMt`: it reports
slots.  Models: /repo/src/evdev-mt-touchpad.c:2866-2951. -/
structure Config where
  mode : Mode
  synaptics : Bool := false
  alps : Bool := false
  hasMt : Bool := true
deriving DecidableEq, Repr

/-- `tp->fake_touches`, bit by bit.  Models: /repo/src/evdev-mt-touchpad.c:272-311. -/
structure Fake where
  touch : Bool := false
  finger : Bool := false
  double : Bool := false
  triple : Bool := false
  quad : Bool := false
  overflow : Bool := false
deriving DecidableEq, Repr

/-- `tp_fake_finger_count`; `FAKE_FINGER_OVERFLOW` is 128, `ffs` finds the lowest bit.
Models: /repo/src/evdev-mt-touchpad.c:246-264. -/
def Fake.count (f : Fake) : Nat :=
  if f.overflow then 128
  else if f.finger then 1
  else if f.double then 2
  else if f.triple then 3
  else if f.quad then 4
  else 0

/-- `tp->fake_touches != 0`. -/
def Fake.any (f : Fake) : Bool := f.touch || f.finger || f.double || f.triple || f.quad || f.overflow

/-- The buttons that say how many fingers there are.  Models: /repo/src/evdev-mt-touchpad.c:739-768. -/
inductive Key where
  | touch | finger | double | triple | quad | quint
deriving DecidableEq, Repr

/-- `tp_fake_finger_set`.  Models: /repo/src/evdev-mt-touchpad.c:272-311. -/
def Fake.set (f : Fake) (k : Key) (press : Bool) : Fake :=
  match k with
  | .quint => if press then { f with overflow := true } else f
  | .touch => { f with touch := press, overflow := false }
  | .finger => if press then { f with finger := true, overflow := false } else { f with finger := false }
  | .double => if press then { f with double := true, overflow := false } else { f with double := false }
  | .triple => if press then { f with triple := true, overflow := false } else { f with triple := false }
  | .quad => if press then { f with quad := true, overflow := false } else { f with quad := false }

/-- The counter `tp->nfingers_down`, with what went wrong so far: `aborted`, an `assert` about the number of fingers or
of slots failed; `bug`, the message that a touch is not in the state it should be in was logged as a bug in libinput;
`noTop`, the one that there is no topmost touch.  `done`: a loop over the touches has met its `break`. -/
structure Acc where
  n : Nat := 0
  aborted : Bool := false
  bug : Bool := false
  noTop : Bool := false
  done : Bool := false
deriving DecidableEq, Repr

/-- `tp_new_touch`.  Models: /repo/src/evdev-mt-touchpad.c:313-347. -/
def newTouch (a : Acc) (t : Finger) : Acc × Finger :=
  match t.st with
  | .begin | .update | .hovering => (a, t)
  | .maybeEnd => ({ a with n := a.n + 1 }, { t with st := .update, hasEnded := false })
  | .none | .end_ => (a, { t with dirty := true, hasEnded := false, wasDown := false, st := .hovering })

/-- `tp_begin_touch`.  Models: /repo/src/evdev-mt-touchpad.c:349-363. -/
def beginTouch (a : Acc) (t : Finger) : Acc × Finger :=
  ({ a with n := a.n + 1 }, { t with dirty := true, st := .begin, wasDown := true })

/-- `tp_maybe_end_touch`.  Models: /repo/src/evdev-mt-touchpad.c:373-402. -/
def maybeEndTouch (a : Acc) (t : Finger) : Acc × Finger :=
  match t.st with
  | .none | .maybeEnd => (a, t)
  | .end_ => ({ a with bug := true }, t)
  | .hovering => (a, { t with st := .none, dirty := true })
  | .begin | .update =>
    ({ a with n := a.n - 1, aborted := a.aborted || a.n == 0 }, { t with st := .maybeEnd, dirty := true })

/-- `tp_recover_ended_touch`.  Models: /repo/src/evdev-mt-touchpad.c:408-415. -/
def recoverTouch (a : Acc) (t : Finger) : Acc × Finger :=
  ({ a with n := a.n + 1 }, { t with dirty := true, st := .update })

/-- `tp_end_touch`.  Models: /repo/src/evdev-mt-touchpad.c:421-439. -/
def endTouch (a : Acc) (t : Finger) : Acc × Finger :=
  match t.st with
  | .maybeEnd => (a, { t with dirty := true, st := .end_ })
  | _ => ({ a with bug := true }, t)

/-- `tp_end_sequence`.  Models: /repo/src/evdev-mt-touchpad.c:444-449. -/
def endSequence (a : Acc) (t : Finger) : Acc × Finger := maybeEndTouch a { t with hasEnded := true }

/-- A loop over touches, the first of which has index `i`. -/
def each (f : Nat → Acc → Finger → Acc × Finger) : Nat → Acc → List Finger → Acc × List Finger
  | _, a, [] => (a, [])
  | i, a, t :: ts =>
    let r := f i a t
    let q := each f (i + 1) r.1 ts
    (q.1, r.2 :: q.2)

/-- A touchpad.  `num`: `num_slots`; `active`: `nactive_slots`; `old`: `old_nfingers_down`.
Models: /repo/src/evdev-mt-touchpad.h:282-529. -/
structure Pad where
  cfg : Config
  acc : Acc := {}
  touches : List Finger
  slot : Nat := 0
  num : Nat
  active : Nat := 0
  fake : Fake := {}
  old : Nat := 0
deriving DecidableEq, Repr

/-- `tp->nfingers_down`. -/
def Pad.fingers (s : Pad) : Nat := s.acc.n

/-- Runs a loop over all touches. -/
def Pad.loop (s : Pad) (f : Nat → Acc → Finger → Acc × Finger) : Pad :=
  let r := each f 0 { s.acc with done := false } s.touches
  { s with acc := r.1, touches := r.2 }

/-- Runs a loop over all touches from the last to the first. -/
def Pad.loopBack (s : Pad) (f : Nat → Acc → Finger → Acc × Finger) : Pad :=
  let r := each f 0 { s.acc with done := false } s.touches.reverse
  { s with acc := r.1, touches := r.2.reverse }

/-- `tp_current_touch`: the index of the touch the kernel is talking about.
Models: /repo/src/evdev-mt-touchpad.c:233-237. -/
def Pad.current (s : Pad) : Nat := min s.slot (s.touches.length - 1)

/-- Applies a change to the current touch. -/
def Pad.onCurrent (s : Pad) (f : Acc → Finger → Acc × Finger) : Pad :=
  s.loop fun i a t => if i = s.current then f a t else (a, t)

/-- The absolute axes that are read.  `other`: `ABS_MT_POSITION_X` and `ABS_MT_TOOL_TYPE`. -/
inductive Axis where
  | y | pressure | touchMajor | touchMinor | other
deriving DecidableEq, Repr

/-- A new value of an axis.  Models: /repo/src/evdev-mt-touchpad.c:499-557. -/
def Finger.setAxis (t : Finger) (ax : Axis) (v : Int) : Finger :=
  match ax with
  | .y => { t with y := v, dirty := true }
  | .pressure => { t with pressure := v, dirty := true }
  | .touchMajor => { t with touchMajor := v, dirty := true }
  | .touchMinor => { t with touchMinor := v, dirty := true }
  | .other => { t with dirty := true }

/-- `ABS_MT_TRACKING_ID`: a touch sequence starts, or ends (`-1`).
Models: /repo/src/evdev-mt-touchpad.c:499-557. -/
def Pad.tracking (s : Pad) (starts : Bool) : Pad :=
  if starts then { s with active := s.active + 1 }.onCurrent newTouch
  else
    { s with active := s.active - 1,
             acc := { s.acc with aborted := s.acc.aborted || s.active == 0 } }.onCurrent endSequence

/-- `tp_restore_synaptics_touches`.  Models: /repo/src/evdev-mt-touchpad.c:591-624. -/
def Pad.restore (s : Pad) : Pad :=
  if s.fake.count < 3 then s
  else if s.fingers ≥ s.fake.count ∨ (s.fingers = s.num ∧ s.fake.count = s.num) then s
  else s.loop fun i a t => if i < s.num ∧ t.st = .maybeEnd then recoverTouch a t else (a, t)

/-- The ALPS part of `tp_process_fake_touches`.  Models: /repo/src/evdev-mt-touchpad.c:664-680. -/
def Pad.fewerSlots (s : Pad) : Pad :=
  if s.cfg.alps ∧ s.fake.count > 1 ∧ s.cfg.hasMt ∧ s.active > 0 ∧ s.fake.count > s.active ∧ s.active < s.num then
    { s with num := s.active }
  else s

/-- `start` in `tp_process_fake_touches`. -/
def Pad.firstFake (s : Pad) : Nat := if s.cfg.hasMt then s.num else 0

/-- `tp_process_fake_touches`.  Models: /repo/src/evdev-mt-touchpad.c:626-691. -/
def Pad.processFake (s : Pad) : Pad :=
  if s.fake.count = 128 then s
  else
    let s := if s.cfg.synaptics then s.restore else s
    let s := s.fewerSlots
    s.loop fun i a t =>
      if i < s.firstFake then (a, t)
      else if i < s.fake.count then newTouch a t
      else endSequence a t

/-- A touch that counts as a finger that is down. -/
def Finger.down (t : Finger) : Bool := t.st == .begin || t.st == .update

/-- How many of them there are. -/
def downs (ts : List Finger) : Nat := ts.countP Finger.down

/-- `nfake_touches` in `tp_unhover_pressure`. -/
def Pad.fakeOrNone (s : Pad) : Nat := if s.fake.count = 128 then 0 else s.fake.count

/-- The first loop of `tp_unhover_pressure`.  Models: /repo/src/evdev-mt-touchpad.c:1221-1256. -/
def pressOne (low high : Int) (num nfake : Nat) (i : Nat) (a : Acc) (t : Finger) : Acc × Finger :=
  if i < num ∧ t.dirty then
    match t.st with
    | .none => (a, t)
    | .hovering => if t.pressure ≥ high then beginTouch a t else (a, t)
    | _ =>
      if (nfake ≤ num ∨ num = 1) ∧ t.pressure < low then maybeEndTouch a t else (a, t)
  else (a, t)

/-- The loops that begin touches until there are enough.  Models: /repo/src/evdev-mt-touchpad.c:1266-1277, /repo/src/evdev-mt-touchpad.c:1362-1372. -/
def beginOne (nfake : Nat) (_ : Nat) (a : Acc) (t : Finger) : Acc × Finger :=
  if a.done then (a, t)
  else if t.st = .hovering then
    let r := beginTouch a t
    ({ r.1 with done := decide (r.1.n ≥ nfake) }, r.2)
  else (a, t)

/-- The loops that end touches: all of them if `all`, else until there are few enough. A touch that is already ending
is left as it is, whether or not the loop skips it.
Models: /repo/src/evdev-mt-touchpad.c:1279-1295, /repo/src/evdev-mt-touchpad.c:1378-1393. -/
def endOne (all : Bool) (nfake : Nat) (_ : Nat) (a : Acc) (t : Finger) : Acc × Finger :=
  if a.done then (a, t)
  else
    match t.st with
    | .hovering | .none => (a, t)
    | _ =>
      let r := maybeEndTouch a t
      ({ r.1 with done := !all && r.1.n == nfake }, r.2)

/-- `tp_unhover_pressure`.  `real_fingers_down` is counted after the first loop.  The skipping of `TOUCH_MAYBE_END` in the
last loop is left out: in that loop such a touch is not changed, and `nfingers_down == nfake_touches` does not hold.
Models: /repo/src/evdev-mt-touchpad.c:1209-1296. -/
def Pad.unhoverPressure (s : Pad) (low high : Int) : Pad :=
  let nfake := s.fakeOrNone
  let s := s.loop (pressOne low high s.num nfake)
  let real := downs (s.touches.take s.num)
  if nfake ≤ s.num ∨ s.fingers = 0 then s
  else
    let s := if real > 0 then s.loop (beginOne nfake) else s
    if s.fingers > nfake ∨ real = 0 then s.loopBack (endOne (decide (real = 0)) nfake) else s

/-- One touch in `tp_unhover_size`.  Models: /repo/src/evdev-mt-touchpad.c:1298-1337. -/
def sizeOne (low high : Int) (num : Nat) (i : Nat) (a : Acc) (t : Finger) : Acc × Finger :=
  if i < num ∧ t.dirty then
    match t.st with
    | .none => (a, t)
    | .hovering =>
      if (t.touchMajor > high ∧ t.touchMinor > low) ∨ (t.touchMajor > low ∧ t.touchMinor > high) then beginTouch a t
      else (a, t)
    | _ => if t.touchMajor < low ∨ t.touchMinor < low then maybeEndTouch a t else (a, t)
  else (a, t)

/-- `tp_unhover_size`.  Models: /repo/src/evdev-mt-touchpad.c:1298-1337. -/
def Pad.unhoverSize (s : Pad) (low high : Int) : Pad := s.loop (sizeOne low high s.num)

/-- `tp_unhover_fake_touches`.  Models: /repo/src/evdev-mt-touchpad.c:1339-1394. -/
def Pad.unhoverFake (s : Pad) : Pad :=
  if s.fake.any = false ∧ s.fingers = 0 then s
  else if s.fake.count = 128 then s
  else if s.fingers = s.fake.count ∧
      ((s.fingers = 0 ∧ s.fake.touch = false) ∨ (s.fingers > 0 ∧ s.fake.touch = true)) then s
  else
    let nfake := s.fake.count
    let touching := s.fake.touch
    let s := if touching ∧ s.fingers < nfake then s.loop (beginOne nfake) else s
    if s.fingers > nfake ∨ touching = false then s.loopBack (endOne (!touching) nfake) else s

/-- `tp_unhover_touches`.  Models: /repo/src/evdev-mt-touchpad.c:1396-1406. -/
def Pad.unhover (s : Pad) : Pad :=
  match s.cfg.mode with
  | .pressure low high => s.unhoverPressure low high
  | .size low high => s.unhoverSize low high
  | .buttons => s.unhoverFake

/-- The last loop of `tp_pre_process_state`.  Models: /repo/src/evdev-mt-touchpad.c:1686-1707. -/
def endEnding (_ : Nat) (a : Acc) (t : Finger) : Acc × Finger := if t.st = .maybeEnd then endTouch a t else (a, t)

/-- `tp_pre_process_state`.  Models: /repo/src/evdev-mt-touchpad.c:1686-1707. -/
def Pad.preProcess (s : Pad) : Pad := (s.processFake.unhover).loop endEnding

/-- The topmost touch, of those given.  Models: /repo/src/evdev-mt-touchpad.c:1408-1450. -/
def topmost : Option Finger → List Finger → Option Finger
  | m, [] => m
  | m, t :: ts =>
    if t.st = .end_ ∨ t.st = .none then topmost m ts
    else match m with
      | none => topmost (some t) ts
      | some b => if t.y < b.y then topmost (some t) ts else topmost m ts

/-- One fake touch is put where the topmost touch `b` is; the first fake touch has index `start`.
Models: /repo/src/evdev-mt-touchpad.c:1439-1448. -/
def positionOne (start : Nat) (b : Finger) (i : Nat) (a : Acc) (t : Finger) : Acc × Finger :=
  if i < start ∨ t.st = .none then (a, t)
  else (a, { t with y := b.y, pressure := b.pressure, dirty := t.dirty || b.dirty })

/-- `tp_position_fake_touches`.  Models: /repo/src/evdev-mt-touchpad.c:1408-1450. -/
def Pad.positionFake (s : Pad) : Pad :=
  if s.fake.count ≤ s.num ∨ s.fingers = 0 then s
  else match topmost none (s.touches.take s.num) with
    | none => { s with acc := { s.acc with noTop := true } }
    | some b =>
      s.loop (positionOne (if s.cfg.hasMt then s.num else 1) b)

/-- One touch in `tp_post_process_state`.  Models: /repo/src/evdev-mt-touchpad.c:1822-1853. -/
def Finger.settle (t : Finger) : Finger :=
  if t.dirty then
    match t.st with
    | .end_ => { t with st := if t.hasEnded then .none else .hovering, dirty := false }
    | .begin => { t with st := .update, dirty := false }
    | _ => { t with dirty := false }
  else t

/-- `tp_post_process_state`.  Models: /repo/src/evdev-mt-touchpad.c:1822-1853. -/
def Pad.postProcess (s : Pad) : Pad :=
  { s.loop (fun _ a t => (a, t.settle)) with old := s.fingers }

/-- What the rest of the touchpad code sees of each touch: its state, and whether it changed. -/
def Pad.views (s : Pad) : List (St × Bool) := s.touches.map fun t => (t.st, t.dirty)

/-- `tp_handle_state`: the new state, and what the rest of the code has seen.
Models: /repo/src/evdev-mt-touchpad.c:1901-1912, and /repo/src/evdev-mt-touchpad.c:1709-1820 for its start. -/
def Pad.handle (s : Pad) : Pad × List (St × Bool) :=
  let s := s.preProcess.positionFake
  (s.postProcess, s.views)

/-- `tp_clear_state`.  Models: /repo/src/evdev-mt-touchpad.c:2027-2057. -/
def Pad.clear (s : Pad) : Pad × List (St × Bool) :=
  { s.loop (fun _ => endSequence) with fake := {} }.handle

/-- What the kernel says about a slot when it is asked: its axes, and whether a touch sequence is going on.
Models: /repo/src/evdev-mt-touchpad.c:2097-2140. -/
structure Slot where
  y : Int
  pressure : Int
  touchMajor : Int
  touchMinor : Int
  active : Bool
deriving DecidableEq, Repr

/-- One touch in `tp_sync_slots`; `n` touches are read.  Models: /repo/src/evdev-mt-touchpad.c:2097-2140. -/
def syncOne (n : Nat) (ks : List Slot) (i : Nat) (a : Acc) (t : Finger) : Acc × Finger :=
  if i < n then
    match ks[i]? with
    | some k => (a, { t with y := k.y, pressure := k.pressure, touchMajor := k.touchMajor, touchMinor := k.touchMinor })
    | none => (a, t)
  else (a, t)

/-- `tp_sync_slots`: `ks` is what the kernel says about the slots; the first touch is always read.
Models: /repo/src/evdev-mt-touchpad.c:2142-2151, /repo/src/evdev-mt-touchpad.c:2097-2140. -/
def Pad.sync (s : Pad) (ks : List Slot) : Pad :=
  let n := max s.num 1
  { s.loop (syncOne n ks) with
    active := s.active + (ks.take n).countP Slot.active }

/-- What can happen.  `slot`, `tracking`, `axis`, `key`: events of the kernel; `syn`: the end of a frame; `clear`:
`tp_clear_state`, when the touchpad is suspended, resumed or removed; `sync`: the touchpad was resumed and its slots are
read; `kslot` is the slot the kernel will be talking about, which the code does not ask for. -/
inductive Op where
  | slot (v : Nat)
  | tracking (starts : Bool)
  | axis (ax : Axis) (v : Int)
  | key (k : Key) (press : Bool)
  | syn
  | clear
  | sync (kslot : Nat) (ks : List Slot)
deriving DecidableEq, Repr

/-- What the rest of the touchpad code sees: the touches in a frame, or while the state is cleared. -/
inductive Out where
  | frame (vs : List (St × Bool))
  | cleared (vs : List (St × Bool))
deriving DecidableEq, Repr

/-- One operation.  A touchpad without slots ignores `ABS_MT_SLOT`, `ABS_MT_TRACKING_ID` and the sizes.
Models: /repo/src/evdev-mt-touchpad.c:1937-1965, /repo/src/evdev-mt-touchpad.c:499-557, /repo/src/evdev-mt-touchpad.c:559-589, /repo/src/evdev-mt-touchpad.c:739-768. -/
def step (s : Pad) : Op → Pad × List Out
  | .slot v => if s.cfg.hasMt then ({ s with slot := v }, []) else (s, [])
  | .tracking b => if s.cfg.hasMt then (s.tracking b, []) else (s, [])
  | .axis ax v =>
    if s.cfg.hasMt || (ax != .touchMajor && ax != .touchMinor) then
      (s.onCurrent fun a t => (a, t.setAxis ax v), [])
    else (s, [])
  | .key k press => ({ s with fake := s.fake.set k press }, [])
  | .syn => (s.handle.1, [.frame s.handle.2])
  | .clear => (s.clear.1, [.cleared s.clear.2])
  | .sync _ ks => (s.sync ks, [])

/-- A history: the final state and everything the rest of the touchpad code has seen. -/
def run (s : Pad) : List Op → Pad × List Out
  | [] => (s, [])
  | op :: ops =>
    let r := step s op
    let q := run r.1 ops
    (q.1, r.2 ++ q.2)

/-- `tp_init_slots` for a touchpad with `num` slots and `n` touches: `slot` is the kernel's current slot, `ks` what it
says about the slots, `finger` whether `BTN_TOOL_FINGER` is set.  Models: /repo/src/evdev-mt-touchpad.c:2866-2951. -/
def init (cfg : Config) (num n slot : Nat) (ks : List Slot) (finger : Bool) : Pad :=
  let s : Pad := { cfg := cfg, touches := List.replicate n {}, slot := slot, num := num }
  { s.sync ks with fake := if finger then Fake.set {} .finger true else {} }

end Libinput.Touch
