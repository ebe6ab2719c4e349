import Verif.Common.Alternation
/-
Model of the lid and tablet-mode switches (evdev-fallback.c) with the internal keyboards that may reopen
a lid.
-/
namespace Libinput.Switch

/-- `enum switch_reliability`.  Models: /repo/src/util-prop-parsers.h:50-54. -/
inductive Reliability where
  | unknown | reliable | writeOpen
deriving DecidableEq, Repr

/-- `enum libinput_switch`.  Models: /repo/src/libinput.h:676-699. -/
inductive Sw where
  | lid | tabletMode
deriving DecidableEq, Repr

/-- A keyboard paired with the lid switch and whether the lid listens to it.
Models: `struct evdev_paired_keyboard`, /repo/src/evdev.h:1012-1016. -/
structure Kbd where
  id : Nat
  listening : Bool
deriving DecidableEq, Repr

/-- The switch part of `struct fallback_dispatch`.  Models: /repo/src/evdev-fallback.h:134-146
and 108 (`tablet_mode.sw.state`).  `hasLid`: the device is tagged as lid switch. -/
structure Dev where
  hasLid : Bool
  reliability : Reliability
  isClosed : Bool
  client : Bool
  kbds : List Kbd
  tablet : Int
deriving DecidableEq, Repr

/-- What the code does: a `SWITCH_TOGGLE` event, a keyboard event passed on, or the write of an "open" state
to the kernel device. -/
inductive Out where
  | toggle (t : Nat) (sw : Sw) (on : Bool)
  | key (t : Nat) (id : Nat)
  | writeOpen
deriving DecidableEq, Repr

/-- `fallback_lid_notify_toggle`.  Models: /repo/src/evdev-fallback.c:50-62. -/
def lidNotify (d : Dev) (t : Nat) : Dev × List Out :=
  if d.isClosed ^^ d.client then ({ d with client := d.isClosed }, [.toggle t .lid d.isClosed]) else (d, [])

/-- `fallback_lid_toggle_keyboard_listeners` (and `_listener`): all paired keyboards.
Models: /repo/src/evdev-fallback.c:739-757 and
/repo/src/evdev-fallback.c:759-773. -/
def toggleListeners (d : Dev) (closed : Bool) : Dev :=
  { d with kbds := d.kbds.map fun k => { k with listening := closed } }

/-- `fallback_process_switch` for `SW_LID`.  Models: /repo/src/evdev-fallback.c:775-813. -/
def lidEvent (d : Dev) (t : Nat) (v : Int) : Dev × List Out :=
  let closed := v != 0
  let d := toggleListeners d closed
  if d.isClosed = closed then (d, [])
  else lidNotify { d with isClosed := closed } t

/-- `fallback_process_switch` for `SW_TABLET_MODE`.  Models: /repo/src/evdev-fallback.c:775-813. -/
def tabletEvent (d : Dev) (t : Nat) (v : Int) : Dev × List Out :=
  if d.tablet = v then (d, [])
  else ({ d with tablet := v }, [.toggle t .tabletMode (v != 0)])

/-- `fallback_lid_keyboard_event` for an event of type `KEYBOARD_KEY` or another.
Models: /repo/src/evdev-fallback.c:699-737.  Simplified: the result of `write` is not used by
the code and left out. -/
def lidKeyboardEvent (d : Dev) (t : Nat) (isKey : Bool) : Dev × List Out :=
  if !d.isClosed then (d, [])
  else if !isKey then (d, [])
  else
    let r := lidNotify { d with isClosed := false } t
    (r.1, (if d.reliability = .writeOpen then [.writeOpen] else []) ++ r.2)

/-- Call the listeners of keyboard `id`, in the order of the list.
Models: the loop in `post_device_event`, /repo/src/libinput.c:2221-2246. -/
def callListeners (t id : Nat) (isKey : Bool) : List Kbd → Dev → Dev × List Out
  | [], d => (d, [])
  | k :: ks, d =>
    if k.id = id ∧ k.listening = true then
      let r := lidKeyboardEvent d t isKey
      let r' := callListeners t id isKey ks r.1
      (r'.1, r.2 ++ r'.2)
    else callListeners t id isKey ks d

/-- A keyboard posts an event: first the listeners, then the queue.
Models: /repo/src/libinput.c:2221-2246. -/
def kbdEvent (d : Dev) (t id : Nat) (isKey : Bool) : Dev × List Out :=
  let r := callListeners t id isKey d.kbds d
  (r.1, r.2 ++ [.key t id])

/-- `fallback_lid_pair_keyboard` for an internal keyboard.  Models: /repo/src/evdev-fallback.c:1303-1343.
The count of keyboards is only logged. -/
def pair (d : Dev) (id : Nat) : Dev :=
  if d.hasLid then { d with kbds := ⟨id, d.isClosed⟩ :: d.kbds } else d

/-- `fallback_interface_device_removed`, the keyboard part.  Models: /repo/src/evdev-fallback.c:1448-1475. -/
def unpair (d : Dev) (id : Nat) : Dev := { d with kbds := d.kbds.filter fun k => k.id != id }

/-- What can happen after the device was added. -/
inductive Op where
  /-- kernel `SW_LID` event -/
  | lid (t : Nat) (v : Int)
  /-- kernel `SW_TABLET_MODE` event -/
  | tablet (t : Nat) (v : Int)
  /-- an internal keyboard sends an event: a key event or another one -/
  | kbd (t id : Nat) (isKey : Bool)
  /-- an internal keyboard is added or resumed -/
  | addKbd (id : Nat)
  /-- an internal keyboard is removed or suspended -/
  | removeKbd (id : Nat)
deriving DecidableEq, Repr

def step (d : Dev) : Op → Dev × List Out
  | .lid t v => lidEvent d t v
  | .tablet t v => tabletEvent d t v
  | .kbd t id isKey => kbdEvent d t id isKey
  | .addKbd id => (pair d id, [])
  | .removeKbd id => (unpair d id, [])

def run (d : Dev) : List Op → Dev × List Out
  | [] => (d, [])
  | op :: ops =>
    let r := step d op
    let r' := run r.1 ops
    (r'.1, r.2 ++ r'.2)

/-- `fallback_dispatch_init_switch`.  Models: /repo/src/evdev-fallback.c:1661-1682. -/
def create (hasLid : Bool) (rel : Reliability) (tabletVal : Int) : Dev :=
  ⟨hasLid, rel, false, false, [], tabletVal⟩

/-- `fallback_interface_sync_initial_state`.  Models: /repo/src/evdev-fallback.c:1195-1229.
`libinput_now` is the parameter `t`. -/
def sync (d : Dev) (t : Nat) (lidVal : Int) : Dev × List Out :=
  let r :=
    if d.hasLid then
      let d := { d with isClosed := lidVal != 0, client := false }
      if d.isClosed ∧ d.reliability = .reliable then lidNotify d t else (d, [])
    else (d, [])
  (r.1, r.2 ++ (if d.tablet ≠ 0 then [.toggle t .tabletMode true] else []))

/-- A new switch device: it is created, the keyboards `kbds` already there are paired with it, then the
initial state is synced.  Models: `evdev_notify_added_device`, /repo/src/evdev.c:1962-1991. -/
def start (hasLid : Bool) (rel : Reliability) (lidVal tabletVal : Int) (kbds : List Nat) (t : Nat) : Dev × List Out :=
  sync (kbds.foldl pair (create hasLid rel tabletVal)) t lidVal

/-- A whole history of a switch device. -/
def history (hasLid : Bool) (rel : Reliability) (lidVal tabletVal : Int) (kbds : List Nat) (t : Nat)
    (ops : List Op) : Dev × List Out :=
  let s := start hasLid rel lidVal tabletVal kbds t
  let r := run s.1 ops
  (r.1, s.2 ++ r.2)

end Libinput.Switch
