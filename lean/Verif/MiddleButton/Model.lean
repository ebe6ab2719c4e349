import Verif.Buttons.Model
import Verif.Common.Codes
/-
Middle-button emulation: /repo/src/evdev-middle-button.c.
-/
namespace Libinput.MiddleButton
open Libinput.Buttons (Call)

/-- `enum evdev_middlebutton_state`.  Models: /repo/src/evdev.h:79-90. -/
inductive MSt where
  | idle | leftDown | rightDown | middle | leftUpPending | rightUpPending
  | ignoreLR | ignoreL | ignoreR | passthrough
deriving DecidableEq, Repr

/-- `enum evdev_middlebutton_event`.  Models: /repo/src/evdev.h:92-100. -/
inductive MEv where
  | lDown | rDown | other | lUp | rUp | timeout | allUp
deriving DecidableEq, Repr

/-- `struct evdev_device.middlebutton`.  Models: /repo/src/evdev.h:261-271.
`mask` is `button_mask`, as a predicate on button codes `BTN_LEFT + bit`, bit < 32.
`errors` counts `middlebutton_state_error` and "Button mask too small" messages. -/
structure State where
  enabled : Bool
  wantEnabled : Bool
  st : MSt
  timer : Option Nat
  mask : Nat → Bool
  firstTime : Nat
  errors : Nat

/-- `middlebutton_set_state`.  Models: /repo/src/evdev-middle-button.c:90-127 (50ms timer). -/
def setSt (s : State) (st : MSt) (now : Nat) : State :=
  match st with
  | .leftDown | .rightDown => { s with st := st, timer := some (now + 50000), firstTime := now }
  | _ => { s with st := st, timer := none }

/-- `middlebutton_state_error`.  Models: /repo/src/evdev-middle-button.c:80-88. -/
def err (s : State) : State := { s with errors := s.errors + 1 }

/-- Result of one handler: new state, calls to `evdev_pointer_notify_button`, and the return
code (`true`: swallow the original event). -/
abbrev Res := State × List Call × Bool

/-- Models: /repo/src/evdev-middle-button.c:141-165. -/
def idleH (s : State) (t : Nat) : MEv → Res
  | .lDown => (setSt s .leftDown t, [], true)
  | .rDown => (setSt s .rightDown t, [], true)
  | .other => (s, [], false)
  | .rUp | .lUp | .timeout => (err s, [], true)
  | .allUp => (s, [], true)

/-- Models: /repo/src/evdev-middle-button.c:167-218. -/
def ldownH (s : State) (t : Nat) : MEv → Res
  | .lDown => (err s, [], true)
  | .rDown => (setSt s .middle t, [⟨t, BTN_MIDDLE, true⟩], true)
  | .other => (setSt s .passthrough t, [⟨t, BTN_LEFT, true⟩], false)
  | .rUp => (err s, [], true)
  | .lUp => (setSt s .idle t, [⟨s.firstTime, BTN_LEFT, true⟩, ⟨t, BTN_LEFT, false⟩], true)
  | .timeout => (setSt s .passthrough t, [⟨s.firstTime, BTN_LEFT, true⟩], true)
  | .allUp => (err s, [], true)

/-- Models: /repo/src/evdev-middle-button.c:220-272. -/
def rdownH (s : State) (t : Nat) : MEv → Res
  | .lDown => (setSt s .middle t, [⟨t, BTN_MIDDLE, true⟩], true)
  | .rDown => (err s, [], true)
  | .other => (setSt s .passthrough t, [⟨s.firstTime, BTN_RIGHT, true⟩], false)
  | .rUp => (setSt s .idle t, [⟨s.firstTime, BTN_RIGHT, true⟩, ⟨t, BTN_RIGHT, false⟩], true)
  | .lUp => (err s, [], true)
  | .timeout => (setSt s .passthrough t, [⟨s.firstTime, BTN_RIGHT, true⟩], true)
  | .allUp => (err s, [], true)

/-- Models: /repo/src/evdev-middle-button.c:274-315. -/
def middleH (s : State) (t : Nat) : MEv → Res
  | .lDown | .rDown => (err s, [], true)
  | .other => (setSt s .ignoreLR t, [⟨t, BTN_MIDDLE, false⟩], false)
  | .rUp => (setSt s .leftUpPending t, [⟨t, BTN_MIDDLE, false⟩], true)
  | .lUp => (setSt s .rightUpPending t, [⟨t, BTN_MIDDLE, false⟩], true)
  | .timeout | .allUp => (err s, [], true)

/-- Models: /repo/src/evdev-middle-button.c:317-350. -/
def lupPendingH (s : State) (t : Nat) : MEv → Res
  | .lDown => (err s, [], true)
  | .rDown => (setSt s .middle t, [⟨t, BTN_MIDDLE, true⟩], true)
  | .other => (setSt s .ignoreL t, [], false)
  | .rUp => (err s, [], true)
  | .lUp => (setSt s .idle t, [], true)
  | .timeout | .allUp => (err s, [], true)

/-- Models: /repo/src/evdev-middle-button.c:352-385. -/
def rupPendingH (s : State) (t : Nat) : MEv → Res
  | .lDown => (setSt s .middle t, [⟨t, BTN_MIDDLE, true⟩], true)
  | .rDown => (err s, [], true)
  | .other => (setSt s .ignoreR t, [], false)
  | .rUp => (setSt s .idle t, [], true)
  | .lUp => (err s, [], true)
  | .timeout | .allUp => (err s, [], true)

/-- Models: /repo/src/evdev-middle-button.c:387-408. -/
def passthroughH (s : State) (t : Nat) : MEv → Res
  | .lDown | .rDown | .other | .rUp | .lUp => (s, [], false)
  | .timeout => (err s, [], true)
  | .allUp => (setSt s .idle t, [], true)

/-- Models: /repo/src/evdev-middle-button.c:410-437. -/
def ignoreLRH (s : State) (t : Nat) : MEv → Res
  | .lDown | .rDown => (err s, [], true)
  | .other => (s, [], false)
  | .rUp => (setSt s .ignoreL t, [], true)
  | .lUp => (setSt s .ignoreR t, [], true)
  | .timeout | .allUp => (err s, [], true)

/-- Models: /repo/src/evdev-middle-button.c:439-465. -/
def ignoreLH (s : State) (t : Nat) : MEv → Res
  | .lDown => (err s, [], true)
  | .rDown => (s, [], false)
  | .other | .rUp => (s, [], false)
  | .lUp => (setSt s .passthrough t, [], true)
  | .timeout | .allUp => (err s, [], true)

/-- Models: /repo/src/evdev-middle-button.c:466-492. -/
def ignoreRH (s : State) (t : Nat) : MEv → Res
  | .lDown => (s, [], false)
  | .rDown => (err s, [], true)
  | .other => (s, [], false)
  | .rUp => (setSt s .passthrough t, [], true)
  | .lUp => (s, [], false)
  | .timeout | .allUp => (s, [], true)

/-- `evdev_middlebutton_handle_event`.  Models: /repo/src/evdev-middle-button.c:494-562. -/
def handle (s : State) (t : Nat) (ev : MEv) : Res :=
  match s.st with
  | .idle => idleH s t ev
  | .leftDown => ldownH s t ev
  | .rightDown => rdownH s t ev
  | .middle => middleH s t ev
  | .leftUpPending => lupPendingH s t ev
  | .rightUpPending => rupPendingH s t ev
  | .passthrough => passthroughH s t ev
  | .ignoreLR => ignoreLRH s t ev
  | .ignoreL => ignoreLH s t ev
  | .ignoreR => ignoreRH s t ev

/-- The bit range of the 32-bit mask.  Models: /repo/src/evdev-middle-button.c:613-620. -/
def inRange (button : Nat) : Bool := decide (BTN_LEFT ≤ button) && decide (button < BTN_LEFT + 32)

/-- `button_mask == 0`. -/
def maskEmpty (mask : Nat → Bool) : Bool := (List.range 32).all (fun i => !mask (BTN_LEFT + i))

/-- `evdev_middlebutton_apply_config`.  Models: /repo/src/evdev-middle-button.c:564-575. -/
def applyConfig (s : State) : State :=
  if s.wantEnabled = s.enabled then s
  else if !maskEmpty s.mask then s
  else { s with enabled := s.wantEnabled }

/-- Which event a button is.  Models: /repo/src/evdev-middle-button.c:592-611. -/
def eventOf (button : Nat) (press : Bool) : MEv :=
  if button = BTN_LEFT then (if press then .lDown else .lUp)
  else if button = BTN_RIGHT then (if press then .rDown else .rUp)
  else .other

/-- `evdev_middlebutton_filter_button`.  Models: /repo/src/evdev-middle-button.c:577-640.
`1 << 31` (button 0x12f) is treated as setting bit 31, as compilers do; ISO C leaves it undefined. -/
def filterButton (s : State) (t button : Nat) (press : Bool) : Res :=
  if !s.enabled then (s, [], false)
  else if !inRange button then (err s, [], true)
  else
    let (s, o, rc) := handle s t (eventOf button press)
    let oldBit := s.mask button
    let s := { s with mask := fun b => if b = button then press else s.mask b }
    if oldBit ≠ press ∧ maskEmpty s.mask then
      let (s, o2, _) := handle s t .allUp
      (applyConfig s, o ++ o2, rc)
    else (s, o, rc)

/-- `evdev_pointer_notify_physical_button`: the calls to `evdev_pointer_notify_button` one physical
button event results in.  Models: /repo/src/evdev.c:147-163. -/
def physicalButton (s : State) (t button : Nat) (press : Bool) : State × List Call :=
  let (s, o, rc) := filterButton s t button press
  if rc then (s, o) else (s, o ++ [⟨t, button, press⟩])

/-- The timer callback, if the timer is due.  Models: /repo/src/evdev-middle-button.c:642-648 called
from /repo/src/timer.c:133-160. -/
def fire (s : State) (now : Nat) : State × List Call :=
  match s.timer with
  | none => (s, [])
  | some e =>
    if e ≤ now then
      let (s, o, _) := handle { s with timer := none } now .timeout
      (s, o)
    else (s, [])

/-- `evdev_middlebutton_set` with a valid argument.  Models: /repo/src/evdev-middle-button.c:656-676. -/
def setConfig (s : State) (on : Bool) : State := applyConfig { s with wantEnabled := on }

/-- `evdev_middlebutton_get`.  Models: /repo/src/evdev-middle-button.c:678-686. -/
def getConfig (s : State) : Bool := s.wantEnabled

/-- `evdev_init_middlebutton`.  Models: /repo/src/evdev-middle-button.c:698-726. -/
def init (enable : Bool) : State :=
  { enabled := enable, wantEnabled := enable, st := .idle, timer := none, mask := fun _ => false,
    firstTime := 0, errors := 0 }

/-- Operations of the environment on this stage. -/
inductive Op where
  /-- a (debounced, left-handed-mapped) physical button event -/
  | button (t code : Nat) (down : Bool)
  /-- timer dispatch -/
  | timer (now : Nat)
  /-- `libinput_device_config_middle_emulation_set_enabled` -/
  | set (on : Bool)
deriving DecidableEq, Repr

/-- One operation: new state and the calls to `evdev_pointer_notify_button`. -/
def step (s : State) : Op → State × List Call
  | .button t c d => physicalButton s t c d
  | .timer now => fire s now
  | .set on => (setConfig s on, [])

/-- Any history. -/
def run (s : State) : List Op → State × List Call
  | [] => (s, [])
  | op :: ops =>
    let (s, o1) := step s op
    let (s, o2) := run s ops
    (s, o1 ++ o2)

end Libinput.MiddleButton
