/-!
How the devices of a seat find each other: touchpads, keyboards, trackpoints, lid and tablet-mode switches, tablets, totems and
touch screens listen to each other's events, whatever the order in which they are added, removed, suspended and resumed
(evdev.c, evdev-fallback.c, evdev-mt-touchpad.c, evdev-tablet.c, evdev-totem.c, libinput.c).

A device is named by a number, which stands for its address: it may be used again once the device is gone.  What is behind an
address is in `mem`.  An assertion that fails, or memory that is used after it was given back, sets `crashed`, after which nothing
happens any more.
-/
namespace Libinput.Pairing

/-- The implementation behind a device.  Models: /repo/src/evdev.c:1839-1882, /repo/src/evdev.c:1959-1959. -/
inductive Kind where
  | fallback | touchpad | tablet | totem | pad
deriving DecidableEq, Repr

/-- What a device is: its tags, bus, quirks, capabilities, group, and the state its switches have when it is added.
`internalBus`: neither USB nor Bluetooth; `monitor`: `palm.monitor_trackpoint`; `named`: its group has an identifier.
Models: /repo/src/evdev.h:66-77, /repo/src/evdev.c:408-509, /repo/src/evdev.c:1839-1959. -/
structure Info where
  id : Nat
  kind : Kind := .fallback
  keyboard : Bool := false
  internalKbd : Bool := false
  externalKbd : Bool := false
  trackpoint : Bool := false
  extMouse : Bool := false
  lidSw : Bool := false
  tabletSw : Bool := false
  extTouchpad : Bool := false
  internalBus : Bool := true
  noSuspend : Bool := false
  monitor : Bool := true
  mustRotate : Bool := false
  touchCap : Bool := false
  pointerCap : Bool := false
  vendor : Nat := 0
  product : Nat := 0
  group : Nat := 0
  named : Bool := true
  reliable : Bool := false
  closed0 : Bool := false
  on0 : Bool := false
deriving DecidableEq, Repr

/-- What is remembered for a device.  `suspended`: `is_suspended` (the device is closed just then, except touchpads with top
buttons); `disabled`: its send-events mode; `forLid`, `forTablet`, `forMode`: `suspend_reason`; `on`: `tablet_mode.sw.state`;
`closed`, `client`: `lid.is_closed`, `lid.is_closed_client_state`; `kbds`: `paired_keyboard_list`, each with the number of its
record.  Models: /repo/src/evdev-mt-touchpad.h:274-280, /repo/src/evdev-mt-touchpad.h:455-476,
/repo/src/evdev-fallback.h:134-146, /repo/src/evdev-tablet.h:94-104. -/
structure Dyn where
  suspended : Bool := false
  disabled : Bool := false
  forLid : Bool := false
  forTablet : Bool := false
  forMode : Bool := false
  on : Bool := false
  closed : Bool := false
  client : Bool := false
  kbds : List (Nat × Nat) := []
  lid : Option Nat := none
  tablet : Option Nat := none
  stick : Option Nat := none
  pen : Option Nat := none
  touch : Option Nat := none
  turned : Option Nat := none
deriving DecidableEq, Repr

/-- What a listener listens for: `tp_keyboard_event`, `fallback_lid_keyboard_event`, `tp_lid_switch_event`,
`tp_tablet_mode_switch_event` and `fallback_tablet_mode_switch_event`, `tp_trackpoint_event`. -/
inductive Role where
  | typing | lidKey | lid | tablet | stick
deriving DecidableEq, Repr

/-- `struct libinput_event_listener`: whose events, who listens, for what, and for keyboards the number of the record.
Models: /repo/src/libinput-private.h:414-418. -/
structure Listener where
  src : Nat
  owner : Nat
  role : Role
  ser : Nat := 0
deriving DecidableEq, Repr

/-- What a device hears. -/
inductive Out where
  /-- the touchpad learns that somebody types -/
  | typing (touchpad keyboard : Nat)
  /-- the touchpad learns that the trackpoint is used -/
  | stick (touchpad trackpoint : Nat)
  /-- a lid is reported open or closed -/
  | lid (switch : Nat) (closed : Bool)
deriving DecidableEq, Repr

/-- The seat.  `lst`: the listeners of all devices, the last added first; `heap`: the records of paired keyboards that were not
given back; `log`: what was heard. -/
structure St where
  devs : List Info := []
  mem : Nat → Dyn := fun _ => {}
  lst : List Listener := []
  ser : Nat := 0
  heap : List Nat := []
  crashed : Bool := false
  log : List Out := []

/-- Changes what is remembered for a device. -/
def St.upd (s : St) (i : Nat) (f : Dyn → Dyn) : St := { s with mem := fun j => if j = i then f (s.mem j) else s.mem j }

/-- The devices of the seat but one. -/
def St.others (s : St) (i : Nat) : List Info := s.devs.filter fun d => d.id != i

/-- The device with this address. -/
def St.find (s : St) (i : Nat) : Option Info := s.devs.find? fun d => d.id == i

/-- Whether this listener is in a list. -/
def St.listens (s : St) (o : Nat) (r : Role) (n : Nat) : Bool := s.lst.any fun l => l.owner == o && l.role == r && l.ser == n

/-- `libinput_device_add_event_listener`: a listener that is in a list already fails an assertion.
Models: /repo/src/libinput.c:2140-2152, /repo/src/util-list.c:41-53. -/
def St.listen (s : St) (l : Listener) : St :=
  if s.listens l.owner l.role l.ser then { s with crashed := true } else { s with lst := l :: s.lst }

/-- `libinput_device_remove_event_listener`.  Models: /repo/src/libinput.c:2154-2158. -/
def St.drop (s : St) (o : Nat) (r : Role) (n : Nat) : St :=
  { s with lst := s.lst.filter fun l => !(l.owner == o && l.role == r && l.ser == n) }

/-- The same for a listener that was not initialized otherwise: one that is not in a list fails an assertion.
Models: /repo/src/util-list.c:69-79. -/
def St.unlisten (s : St) (o : Nat) (r : Role) (n : Nat) : St :=
  if s.listens o r n then s.drop o r n else { s with crashed := true }

/-- `totem_interface_device_removed`, also for a suspended device.  That the touch device listens again is the subject of C57.
Models: /repo/src/evdev-totem.c:644-657. -/
def totemRemoved (s : St) (d x : Info) : St :=
  if (s.mem d.id).touch = some x.id then s.upd d.id fun m => { m with touch := none } else s

/-- `totem_interface_device_added`.  Identifiers are compared as pointers: two groups without one are the same.
Models: /repo/src/evdev-totem.c:613-642. -/
def totemAdded (s : St) (d x : Info) : St :=
  if x.vendor ≠ d.vendor ∨ x.product ≠ d.product then s
  else if x.group ≠ d.group ∧ (x.named = true ∨ d.named = true) then s
  else if (s.mem d.id).touch ≠ none then s
  else s.upd d.id fun m => { m with touch := some x.id }

/-- `tablet_device_added`, without the rotation.  Models: /repo/src/evdev-tablet.c:2116-2154. -/
def tabletAdded (s : St) (d x : Info) : St :=
  if d.group ≠ x.group then s
  else
    let ext := x.pointerCap && x.extTouchpad
    let s := if x.touchCap || ext then s.upd d.id fun m => { m with touch := some x.id } else s
    if ext then s.upd d.id fun m => { m with turned := some x.id } else s

/-- `tablet_device_removed`, without the rotation.  Models: /repo/src/evdev-tablet.c:2156-2169. -/
def tabletRemoved (s : St) (d x : Info) : St :=
  let s := if (s.mem d.id).touch = some x.id then s.upd d.id fun m => { m with touch := none } else s
  if (s.mem d.id).turned = some x.id then s.upd d.id fun m => { m with turned := none } else s

/-- `evdev_notify_suspended_device` for a touchpad.  It is no keyboard, trackpoint, switch or tablet, so that only totems care.
Models: /repo/src/evdev.c:2724-2742. -/
def tpOff (s : St) (t : Info) : St :=
  if (s.mem t.id).suspended then s
  else ((s.others t.id).foldl (fun s d => if d.kind = .totem then totemRemoved s d t else s) s).upd t.id
    fun m => { m with suspended := true }

/-- `evdev_notify_resumed_device` for a touchpad.  Models: /repo/src/evdev.c:2744-2762. -/
def tpOn (s : St) (t : Info) : St :=
  if (s.mem t.id).suspended then
    ((s.others t.id).foldl (fun s d => if d.kind = .totem then totemAdded s d t else s) s).upd t.id
      fun m => { m with suspended := false }
  else s

/-- The reasons to suspend a touchpad, without external mice (C34).  Models: /repo/src/evdev-mt-touchpad.h:274-280. -/
inductive Why where
  | lid | tablet | mode
deriving DecidableEq, Repr

/-- `suspend_reason & trigger`. -/
def Dyn.has (m : Dyn) : Why → Bool
  | .lid => m.forLid
  | .tablet => m.forTablet
  | .mode => m.forMode

/-- `suspend_reason |= trigger` and `suspend_reason &= ~trigger`. -/
def Dyn.why (m : Dyn) (b : Bool) : Why → Dyn
  | .lid => { m with forLid := b }
  | .tablet => { m with forTablet := b }
  | .mode => { m with forMode := b }

/-- `suspend_reason != 0`. -/
def Dyn.any (m : Dyn) : Bool := m.forLid || m.forTablet || m.forMode

/-- `tp_suspend`.  Models: /repo/src/evdev-mt-touchpad.c:2059-2086. -/
def tpSuspend (s : St) (t : Info) (w : Why) : St :=
  if (s.mem t.id).has w then s
  else if (s.mem t.id).any then s.upd t.id fun m => m.why true w
  else (tpOff s t).upd t.id fun m => m.why true w

/-- `tp_resume`.  Opening the device succeeds.  Models: /repo/src/evdev-mt-touchpad.c:2153-2173, /repo/src/evdev.c:2791-2855. -/
def tpResume (s : St) (t : Info) (w : Why) : St :=
  let s := s.upd t.id fun m => m.why false w
  if (s.mem t.id).any then s else tpOn s t

/-- `tp_pair_trackpoint`.  Models: /repo/src/evdev-mt-touchpad.c:2392-2417. -/
def pairStick (s : St) (t x : Info) : St :=
  if x.trackpoint = false then s
  else if (s.mem t.id).stick = none ∧ t.internalBus = true ∧ x.internalBus = true then
    let s := s.upd t.id fun m => { m with stick := some x.id }
    if t.monitor then s.listen { src := x.id, owner := t.id, role := .stick } else s
  else s

/-- `tp_want_dwt`.  Models: /repo/src/evdev-mt-touchpad.c:2334-2355. -/
def wantTyping (t x : Info) : Bool :=
  if t.extTouchpad then t.vendor == x.vendor && t.product == x.product else x.internalKbd

/-- `tp_dwt_pair_keyboard`: "too many internal keyboards" is only said.  Models: /repo/src/evdev-mt-touchpad.c:2357-2390. -/
def pairTyping (s : St) (t x : Info) : St :=
  if x.keyboard = false then s
  else if wantTyping t x = false then s
  else
    let n := s.ser
    let s := { s with ser := n + 1, heap := n :: s.heap }
    let s := s.listen { src := x.id, owner := t.id, role := .typing, ser := n }
    s.upd t.id fun m => { m with kbds := (n, x.id) :: m.kbds }

/-- `tp_pair_lid_switch`.  Models: /repo/src/evdev-mt-touchpad.c:2472-2495. -/
def pairLid (s : St) (t x : Info) : St :=
  if x.lidSw = false then s
  else if t.extTouchpad then s
  else if (s.mem t.id).lid = none then
    (s.listen { src := x.id, owner := t.id, role := .lid }).upd t.id fun m => { m with lid := some x.id }
  else s

/-- `tp_pair_tablet_mode_switch`.  Models: /repo/src/evdev-mt-touchpad.c:2497-2531. -/
def pairTablet (s : St) (t x : Info) : St :=
  if x.tabletSw = false then s
  else if (s.mem t.id).tablet ≠ none then s
  else if t.extTouchpad then s
  else if t.noSuspend then s
  else
    let s := (s.listen { src := x.id, owner := t.id, role := .tablet }).upd t.id fun m => { m with tablet := some x.id }
    if (s.mem x.id).on then tpSuspend s t .tablet else s

/-- `tp_pair_tablet`, without the rotation.  Models: /repo/src/evdev-mt-touchpad.c:2560-2588. -/
def pairPen (s : St) (t x : Info) : St :=
  if t.mustRotate = false then s
  else if x.kind ≠ .tablet ∧ x.kind ≠ .totem then s
  else if t.group ≠ x.group then s
  else s.upd t.id fun m => { m with pen := some x.id }

/-- `tp_interface_device_added`, without external mice.  Models: /repo/src/evdev-mt-touchpad.c:2590-2608. -/
def tpAdded (s : St) (t x : Info) : St :=
  pairPen (pairTablet (pairLid (pairTyping (pairStick s t x) t x) t x) t x) t x

/-- The trackpoint's part of `tp_interface_device_removed`.  Models: /repo/src/evdev-mt-touchpad.c:2617-2627. -/
def tpNoStick (s : St) (t x : Info) : St :=
  if (s.mem t.id).stick = some x.id then
    (if t.monitor then s.unlisten t.id .stick 0 else s).upd t.id fun m => { m with stick := none }
  else s

/-- `evdev_paired_keyboard_destroy` for the records of a keyboard in a list.
Models: /repo/src/evdev.h:1018-1025, /repo/src/evdev-mt-touchpad.c:2629-2634. -/
def tpNoTyping (s : St) (t x : Info) : St :=
  let gone := (s.mem t.id).kbds.filter fun k => k.2 == x.id
  let s := gone.foldl (fun s k => { s.unlisten t.id .typing k.1 with heap := s.heap.filter fun n => n != k.1 }) s
  s.upd t.id fun m => { m with kbds := m.kbds.filter fun k => k.2 != x.id }

/-- The lid's part.  Models: /repo/src/evdev-mt-touchpad.c:2636-2641. -/
def tpNoLid (s : St) (t x : Info) : St :=
  if (s.mem t.id).lid = some x.id then
    tpResume ((s.unlisten t.id .lid 0).upd t.id fun m => { m with lid := none }) t .lid
  else s

/-- The tablet-mode switch's part.  Models: /repo/src/evdev-mt-touchpad.c:2643-2648. -/
def tpNoTablet (s : St) (t x : Info) : St :=
  if (s.mem t.id).tablet = some x.id then
    tpResume ((s.unlisten t.id .tablet 0).upd t.id fun m => { m with tablet := none }) t .tablet
  else s

/-- The tablet's part, without the rotation.  Models: /repo/src/evdev-mt-touchpad.c:2666-2676. -/
def tpNoPen (s : St) (t x : Info) : St :=
  if (s.mem t.id).pen = some x.id then s.upd t.id fun m => { m with pen := none } else s

/-- `tp_interface_device_removed`, also for a suspended device; without external mice.
Models: /repo/src/evdev-mt-touchpad.c:2610-2677. -/
def tpRemoved (s : St) (t x : Info) : St :=
  tpNoPen (tpNoTablet (tpNoLid (tpNoTyping (tpNoStick s t x) t x) t x) t x) t x

/-- The keyboards' part of `fallback_interface_device_removed`.  Models: /repo/src/evdev-fallback.c:1456-1466. -/
def fbNoKey (s : St) (d x : Info) : St :=
  let gone := (s.mem d.id).kbds.filter fun k => k.2 == x.id
  let s := gone.foldl (fun s k => { s.drop d.id .lidKey k.1 with heap := s.heap.filter fun n => n != k.1 }) s
  s.upd d.id fun m => { m with kbds := m.kbds.filter fun k => k.2 != x.id }

/-- The switch's part.  Models: /repo/src/evdev-fallback.c:1468-1474. -/
def fbNoTablet (s : St) (d x : Info) : St :=
  if (s.mem d.id).tablet = some x.id then (s.drop d.id .tablet 0).upd d.id fun m => { m with tablet := none } else s

/-- `fallback_interface_device_removed`, also for a suspended device.  Models: /repo/src/evdev-fallback.c:1448-1475. -/
def fbRemoved (s : St) (d x : Info) : St := fbNoTablet (fbNoKey s d x) d x

/-- `device_suspended` of the implementations.  Models: /repo/src/evdev-fallback.c:1477-1490,
/repo/src/evdev-mt-touchpad.c:2830-2844, /repo/src/evdev-tablet.c:2240-2253, /repo/src/evdev-totem.c:701-714,
/repo/src/evdev-tablet-pad.c:533-547. -/
def suspendedReact (s : St) (d x : Info) : St :=
  match d.kind with
  | .fallback => fbRemoved s d x
  | .touchpad => tpRemoved s d x
  | .totem => totemRemoved s d x
  | .tablet => s
  | .pad => s

/-- `device_removed` of the implementations.  Models: as `suspendedReact`, /repo/src/evdev-tablet.c:2240-2253. -/
def removedReact (s : St) (d x : Info) : St :=
  match d.kind with
  | .tablet => tabletRemoved s d x
  | _ => suspendedReact s d x

/-- `evdev_device_suspend`; what the device itself does is the subject of C10, C34 and others.
Models: /repo/src/evdev.c:2764-2789, /repo/src/evdev.c:2724-2742. -/
def suspendDev (s : St) (f : Info) : St :=
  if (s.mem f.id).suspended then s
  else ((s.others f.id).foldl (fun s d => suspendedReact s d f) s).upd f.id fun m => { m with suspended := true }

/-- `fallback_lid_pair_keyboard`; again too many are only said.  Models: /repo/src/evdev-fallback.c:1303-1343. -/
def lidPair (s : St) (d x : Info) : St :=
  if x.keyboard = false ∨ d.lidSw = false then s
  else if x.internalKbd = false then s
  else
    let n := s.ser
    let s := { s with ser := n + 1, heap := n :: s.heap }
    let s := s.upd d.id fun m => { m with kbds := (n, x.id) :: m.kbds }
    if (s.mem d.id).closed then s.listen { src := x.id, owner := d.id, role := .lidKey, ser := n } else s

/-- `fallback_pair_tablet_mode`.  Models: /repo/src/evdev-fallback.c:1392-1438. -/
def fbPairTablet (s : St) (d x : Info) : St :=
  if d.externalKbd then s
  else if (if d.trackpoint then d.extMouse else !d.internalKbd) then s
  else if d.noSuspend then s
  else if x.tabletSw = false then s
  else if (s.mem d.id).tablet ≠ none then s
  else
    let s := (s.listen { src := x.id, owner := d.id, role := .tablet }).upd d.id fun m => { m with tablet := some x.id }
    if (s.mem x.id).on then suspendDev s d else s

/-- `fallback_interface_device_added`.  Models: /repo/src/evdev-fallback.c:1440-1446. -/
def fbAdded (s : St) (d x : Info) : St := fbPairTablet (lidPair s d x) d x

/-- `device_resumed` of the implementations.  Models: as `suspendedReact`, /repo/src/evdev-fallback.c:1477-1490. -/
def resumedReact (s : St) (d x : Info) : St :=
  match d.kind with
  | .fallback => fbAdded s d x
  | .touchpad => tpAdded s d x
  | .totem => totemAdded s d x
  | .tablet => s
  | .pad => s

/-- `device_added` of the implementations.  Models: as `suspendedReact`, /repo/src/evdev-tablet.c:2240-2253. -/
def addedReact (s : St) (d x : Info) : St :=
  match d.kind with
  | .tablet => tabletAdded s d x
  | _ => resumedReact s d x

/-- `evdev_device_resume`; opening the device succeeds.  Models: /repo/src/evdev.c:2791-2855, /repo/src/evdev.c:2744-2762. -/
def resumeDev (s : St) (f : Info) : St :=
  if (s.mem f.id).suspended then
    ((s.others f.id).foldl (fun s d => resumedReact s d f) s).upd f.id fun m => { m with suspended := false }
  else s

/-- `post_device_event`, the listeners: `list_for_each_safe` remembers the next listener before it calls one.  `pre` is the list as
it was when the next was remembered: a listener that was not in it is not reached, one that has been taken out since is called all
the same, and has no next.  Models: /repo/src/libinput.c:2221-2246, /repo/src/util-list.h:191-196. -/
def deliver (call : St → Listener → St) : List Listener → St → List Listener → St
  | _, s, [] => s
  | pre, s, l :: rest =>
    if pre.contains l = false then deliver call pre s rest
    else if s.lst.contains l = false then { s with crashed := true }
    else deliver call s.lst (call s l) rest

/-- The listeners of a device. -/
def St.of (s : St) (x : Nat) : List Listener := s.lst.filter fun l => l.src == x

/-- `tp_lid_switch_event`, and the others, which ignore this event.  A listener of a device that is gone uses memory that was given
back.  Models: /repo/src/evdev-mt-touchpad.c:2419-2442. -/
def callLid (closed : Bool) (s : St) (l : Listener) : St :=
  match s.find l.owner with
  | none => { s with crashed := true }
  | some o =>
    match l.role with
    | .lid => if closed then tpSuspend s o .lid else tpResume s o .lid
    | _ => s

/-- `fallback_lid_notify_toggle`.  Models: /repo/src/evdev-fallback.c:50-62. -/
def notifyLid (s : St) (x : Nat) : St :=
  if (s.mem x).closed != (s.mem x).client then
    let c := (s.mem x).closed
    let s := deliver (callLid c) s.lst s (s.of x)
    ({ s with log := s.log ++ [.lid x c] } : St).upd x fun m => { m with client := m.closed }
  else s

/-- An event of a device: a key, motion or a button, or its tablet-mode switch. -/
inductive Ev where
  | key | pointer | tablet (on : Bool)
deriving DecidableEq, Repr

/-- What the listeners do.  That a key typed on a keyboard disables the touchpad is the subject of C42.
Models: /repo/src/evdev-mt-touchpad.c:2263-2332, /repo/src/evdev-mt-touchpad.c:2187-2261, /repo/src/evdev-mt-touchpad.c:2444-2470,
/repo/src/evdev-fallback.c:699-737, /repo/src/evdev-fallback.c:1345-1390. -/
def call (ev : Ev) (s : St) (l : Listener) : St :=
  match s.find l.owner with
  | none => { s with crashed := true }
  | some o =>
    match l.role, ev with
    | .typing, .key => { s with log := s.log ++ [.typing o.id l.src] }
    | .stick, .pointer => { s with log := s.log ++ [.stick o.id l.src] }
    | .lidKey, .key =>
      if (s.mem o.id).closed then notifyLid (s.upd o.id fun m => { m with closed := false }) o.id else s
    | .tablet, .tablet on =>
      if o.kind = .touchpad then
        if on then tpSuspend s o .tablet else tpResume s o .tablet
      else if on then suspendDev s o
      else if (s.mem o.id).disabled then s
      else resumeDev s o
    | _, _ => s

/-- An event is posted. -/
def post (s : St) (x : Nat) (ev : Ev) : St := deliver (call ev) s.lst s (s.of x)

/-- `fallback_lid_toggle_keyboard_listeners`.  Models: /repo/src/evdev-fallback.c:739-773. -/
def toggleKeys (s : St) (x : Nat) (closed : Bool) : St :=
  (s.mem x).kbds.foldl (fun s k =>
    let s := s.drop x .lidKey k.1
    if closed then s.listen { src := k.2, owner := x, role := .lidKey, ser := k.1 } else s) s

/-- `SW_LID` in `fallback_process_switch`.  Models: /repo/src/evdev-fallback.c:775-797. -/
def lidEvent (s : St) (x : Nat) (closed : Bool) : St :=
  let s := toggleKeys s x closed
  if (s.mem x).closed = closed then s else notifyLid (s.upd x fun m => { m with closed := closed }) x

/-- `SW_TABLET_MODE`.  Models: /repo/src/evdev-fallback.c:798-812. -/
def tabletEvent (s : St) (x : Nat) (on : Bool) : St :=
  if (s.mem x).on = on then s else post (s.upd x fun m => { m with on := on }) x (.tablet on)

/-- `fallback_interface_sync_initial_state`; the other implementations do not tell anybody.
Models: /repo/src/evdev-fallback.c:1195-1229. -/
def initialState (s : St) (x : Info) : St :=
  let s :=
    if x.lidSw then
      let s := s.upd x.id fun m => { m with closed := x.closed0, client := false }
      if x.closed0 && x.reliable then notifyLid s x.id else s
    else s
  if (s.mem x.id).on then post s x.id (.tablet true) else s

/-- One turn of the loop of `evdev_notify_added_device`.  Models: /repo/src/evdev.c:1966-1984. -/
def greet (x : Info) (s : St) (d : Info) : St :=
  let s := addedReact s d x
  let s := addedReact s x d
  if (s.mem d.id).suspended then suspendedReact s x d else s

/-- A device with its switch as it is found.  Models: /repo/src/evdev-fallback.c:1661-1682, /repo/src/evdev.c:2300-2300. -/
def enter (s : St) (x : Info) : St :=
  { s with devs := s.devs ++ [x], mem := fun j => if j = x.id then { on := x.tabletSw && x.on0 } else s.mem j }

/-- `evdev_device_create`, from where the device is in the list of the seat, and `evdev_notify_added_device`.
Models: /repo/src/evdev.c:1962-1991, /repo/src/evdev.c:2300-2304. -/
def addDev (s : St) (x : Info) : St :=
  let s := s.devs.foldl (greet x) (enter s x)
  if x.kind = .fallback then initialState s x else s

/-- `fallback_interface_remove` and `tp_interface_remove`, the listeners.  A touchpad does not give back the records of its
keyboards.  Models: /repo/src/evdev-fallback.c:1176-1193, /repo/src/evdev-mt-touchpad.c:1967-1992. -/
def leave (s : St) (x : Info) : St :=
  match x.kind with
  | .fallback =>
    let s := s.drop x.id .tablet 0
    let s := (s.mem x.id).kbds.foldl (fun s k =>
      { s.drop x.id .lidKey k.1 with heap := s.heap.filter fun n => n != k.1 }) s
    s.upd x.id fun m => { m with kbds := [] }
  | .touchpad =>
    let s := if (s.mem x.id).stick.isSome && x.monitor then s.unlisten x.id .stick 0 else s
    let s := (s.mem x.id).kbds.foldl (fun s k => s.unlisten x.id .typing k.1) s
    let s := if (s.mem x.id).lid.isSome then s.unlisten x.id .lid 0 else s
    if (s.mem x.id).tablet.isSome then s.unlisten x.id .tablet 0 else s
  | _ => s

/-- `evdev_device_remove`.  Models: /repo/src/evdev.c:2857-2889. -/
def removeDev (s : St) (x : Info) : St :=
  let s := (s.others x.id).foldl (fun s d => removedReact s d x) s
  let s := leave (suspendDev s x) x
  { s with devs := s.devs.filter fun d => d.id != x.id }

/-- `evdev_sendevents_set_mode` and `tp_sendevents_set_mode` for the modes enabled and disabled; a pad is not suspended.
Models: /repo/src/evdev.c:558-582, /repo/src/evdev-mt-touchpad.c:3721-3756, /repo/src/evdev-tablet-pad.c:691-715. -/
def setMode (s : St) (x : Info) (disabled : Bool) : St :=
  if (s.mem x.id).disabled = disabled then s
  else
    let s :=
      match x.kind with
      | .touchpad => if disabled then tpSuspend s x .mode else tpResume s x .mode
      | .pad => s
      | _ => if disabled then suspendDev s x else resumeDev s x
    s.upd x.id fun m => { m with disabled := disabled }

/-- What can happen. -/
inductive Op where
  | add (x : Info)
  | remove (id : Nat)
  | mode (id : Nat) (disabled : Bool)
  /-- the lid switch of a device says that it is closed or open -/
  | lid (id : Nat) (closed : Bool)
  /-- the tablet-mode switch of a device says that it is on or off -/
  | tablet (id : Nat) (on : Bool)
  /-- a key of a device is pressed or released -/
  | key (id : Nat)
  /-- a device moves the pointer, or a button of it is pressed -/
  | pointer (id : Nat)
deriving DecidableEq, Repr

/-- An event of a device that is there and open (the others have no implementation that posts them here). -/
def event (s : St) (id : Nat) (ok : Info → Bool) (f : St → St) : St :=
  match s.find id with
  | none => s
  | some x => if x.kind = .fallback ∧ (s.mem id).suspended = false ∧ ok x = true then f s else s

/-- One operation; a device that is there already cannot be added.  Models: /repo/src/evdev.c:1962-1991,
/repo/src/evdev.c:2857-2889, /repo/src/evdev-fallback.c:775-812. -/
def step (s : St) (op : Op) : St :=
  if s.crashed then s
  else
    let s := { s with log := [] }
    match op with
    | .add x => if (s.find x.id).isSome then s else addDev s x
    | .remove id =>
      match s.find id with
      | none => s
      | some x => removeDev s x
    | .mode id b =>
      match s.find id with
      | none => s
      | some x => setMode s x b
    | .lid id c => event s id (·.lidSw) (lidEvent · id c)
    | .tablet id on => event s id (·.tabletSw) (tabletEvent · id on)
    | .key id => event s id (fun _ => true) (post · id .key)
    | .pointer id => event s id (fun _ => true) (post · id .pointer)

def run (s : St) (ops : List Op) : St := ops.foldl step s

end Libinput.Pairing
