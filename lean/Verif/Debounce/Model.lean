import Verif.Common.Alternation
import Verif.Common.Codes
/-
Button debouncing: /repo/src/evdev-debounce.c, plus the parts of
/repo/src/evdev-fallback.c that feed it.
-/
namespace Libinput.Debounce

/-- `enum debounce_state`.  Models: /repo/src/evdev-fallback.h:34-46. -/
inductive DSt where
  | isUp | isDown | isDownWaiting | isUpDelaying | isUpDelayingSpurious
  | isUpDetectingSpurious | isDownDetectingSpurious | isUpWaiting | isDownDelaying
  | disabled
deriving DecidableEq, Repr

/-- `enum debounce_event`.  Models: /repo/src/evdev-debounce.c:63-69. -/
inductive DEv where
  | press | release | timeout | timeoutShort | otherButton
deriving DecidableEq, Repr

/-- One call to `fallback_notify_physical_button` made by the debounce code, with the
code before left-handed mapping.  Models: /repo/src/evdev-debounce.c:169-180. -/
structure Notify where
  time : Nat
  code : Nat
  down : Bool
deriving DecidableEq, Repr

/-- `struct fallback_dispatch.debounce`.  Models: /repo/src/evdev-fallback.h:125-132.
`bugs` counts the calls to `log_debounce_bug` ("invalid debounce event") and the
"enable twice" message, which the C code only logs. -/
structure State where
  st : DSt
  code : Nat
  time : Nat
  timer : Option Nat
  timerShort : Option Nat
  spurious : Bool
  bugs : Nat
deriving DecidableEq, Repr

/-- `debounce_set_timer`: 25ms.  Models: /repo/src/evdev-debounce.c:123-131. -/
def setTimer (s : State) (t : Nat) : State := { s with timer := some (t + 25000) }
/-- `debounce_set_timer_short`: 12ms.  Models: /repo/src/evdev-debounce.c:133-141. -/
def setTimerShort (s : State) (t : Nat) : State := { s with timerShort := some (t + 12000) }
/-- `debounce_cancel_timer`.  Models: /repo/src/evdev-debounce.c:143-147. -/
def cancelTimer (s : State) : State := { s with timer := none }
/-- `debounce_cancel_timer_short`.  Models: /repo/src/evdev-debounce.c:149-153. -/
def cancelTimerShort (s : State) : State := { s with timerShort := none }
/-- `debounce_set_state`.  Models: /repo/src/evdev-debounce.c:113-121.  The assertion on the range of
the argument holds for every constant it is called with in this file. -/
def setSt (s : State) (st : DSt) : State := { s with st := st }
/-- `log_debounce_bug`.  Models: /repo/src/evdev-debounce.c:103-111. -/
def logBug (s : State) : State := { s with bugs := s.bugs + 1 }
/-- `debounce_enable_spurious`.  Models: /repo/src/evdev-debounce.c:155-167. -/
def enableSpurious (s : State) : State :=
  { s with spurious := true, bugs := s.bugs + (if s.spurious then 1 else 0) }
/-- Assignment `fallback->debounce.button_time = time`. -/
def setTime (s : State) (t : Nat) : State := { s with time := t }
/-- `debounce_notify_button`.  Models: /repo/src/evdev-debounce.c:169-180. -/
def note (s : State) (down : Bool) : State × List Notify := (s, [⟨s.time, s.code, down⟩])
/-- No notification. -/
def quiet (s : State) : State × List Notify := (s, [])

/-- Models: /repo/src/evdev-debounce.c:182-201. -/
def isUpH (s : State) (t : Nat) : DEv → State × List Notify
  | .press => note (setSt (setTimer (setTime s t) t) .isDownWaiting) true
  | .release | .timeout | .timeoutShort => quiet (logBug s)
  | .otherButton => quiet s

/-- Models: /repo/src/evdev-debounce.c:203-229. -/
def isDownH (s : State) (t : Nat) : DEv → State × List Notify
  | .press => quiet (logBug s)
  | .release =>
    let s := setTimerShort (setTimer (setTime s t) t) t
    if s.spurious then quiet (setSt s .isUpDelayingSpurious)
    else note (setSt s .isUpDetectingSpurious) false
  | .timeout | .timeoutShort => quiet (logBug s)
  | .otherButton => quiet s

/-- Models: /repo/src/evdev-debounce.c:231-254. -/
def isDownWaitingH (s : State) (t : Nat) : DEv → State × List Notify
  | .press => quiet (logBug s)
  | .release => quiet (setTime (setSt s .isUpDelaying) t)
  | .timeout => quiet (setSt s .isDown)
  | .timeoutShort => quiet (logBug s)
  | .otherButton => quiet (setSt s .isDown)

/-- Models: /repo/src/evdev-debounce.c:256-274. -/
def isUpDelayingH (s : State) (_t : Nat) : DEv → State × List Notify
  | .press => quiet (setSt s .isDownWaiting)
  | .release | .timeoutShort => quiet (logBug s)
  | .timeout | .otherButton => note (setSt s .isUp) false

/-- Models: /repo/src/evdev-debounce.c:276-300. -/
def isUpDelayingSpuriousH (s : State) (_t : Nat) : DEv → State × List Notify
  | .press => quiet (cancelTimerShort (cancelTimer (setSt s .isDown)))
  | .release | .timeout => quiet (logBug s)
  | .timeoutShort => note (setSt s .isUpWaiting) false
  | .otherButton => note (setSt s .isUp) false

/-- Models: /repo/src/evdev-debounce.c:302-325. -/
def isUpDetectingSpuriousH (s : State) (t : Nat) : DEv → State × List Notify
  | .press => quiet (setSt (setTime s t) .isDownDetectingSpurious)
  | .release => quiet (logBug s)
  | .timeout => quiet (setSt s .isUp)
  | .timeoutShort => quiet (setSt s .isUpWaiting)
  | .otherButton => quiet (setSt s .isUp)

/-- Models: /repo/src/evdev-debounce.c:327-351. -/
def isDownDetectingSpuriousH (s : State) (_t : Nat) : DEv → State × List Notify
  | .press => quiet (logBug s)
  | .release => quiet (setSt s .isUpDetectingSpurious)
  | .timeoutShort => note (enableSpurious (setSt (cancelTimer s) .isDown)) true
  | .timeout | .otherButton => note (setSt s .isDown) true

/-- Models: /repo/src/evdev-debounce.c:353-372. -/
def isUpWaitingH (s : State) (t : Nat) : DEv → State × List Notify
  | .press => quiet (setSt (setTime s t) .isDownDelaying)
  | .release | .timeoutShort => quiet (logBug s)
  | .timeout | .otherButton => quiet (setSt s .isUp)

/-- Models: /repo/src/evdev-debounce.c:374-394. -/
def isDownDelayingH (s : State) (_t : Nat) : DEv → State × List Notify
  | .press => quiet (logBug s)
  | .release => quiet (setSt s .isUpWaiting)
  | .timeoutShort => quiet (logBug s)
  | .timeout | .otherButton => note (setSt s .isDown) true

/-- Models: /repo/src/evdev-debounce.c:396-419. -/
def disabledH (s : State) (t : Nat) : DEv → State × List Notify
  | .press => note (setTime s t) true
  | .release => note (setTime s t) false
  | .timeoutShort | .timeout => quiet (logBug s)
  | .otherButton => quiet s

/-- `debounce_handle_event`.  Models: /repo/src/evdev-debounce.c:421-471. -/
def handle (s : State) (ev : DEv) (t : Nat) : State × List Notify :=
  let s := if ev = .otherButton then cancelTimerShort (cancelTimer s) else s
  match s.st with
  | .isUp => isUpH s t ev
  | .isDown => isDownH s t ev
  | .isDownWaiting => isDownWaitingH s t ev
  | .isUpDelaying => isUpDelayingH s t ev
  | .isUpDelayingSpurious => isUpDelayingSpuriousH s t ev
  | .isUpDetectingSpurious => isUpDetectingSpuriousH s t ev
  | .isDownDetectingSpurious => isDownDetectingSpuriousH s t ev
  | .isUpWaiting => isUpWaitingH s t ev
  | .isDownDelaying => isDownDelayingH s t ev
  | .disabled => disabledH s t ev

/-- All button codes in ascending order, as the scan loop meets them.
Models: /repo/src/evdev-debounce.c:481-483 (`code <= KEY_MAX`, `get_key_type`). -/
def buttonCodes : List Nat := (List.range (KEY_MAX + 1)).filter isButton

/-- The array `changed[]`: the first 16 changed buttons.
Models: /repo/src/evdev-debounce.c:477-492. -/
def changedButtons (hw last : Nat → Bool) : List Nat :=
  (buttonCodes.filter (fun c => hw c != last c)).take 16

/-- The per-button loop.  Models: /repo/src/evdev-debounce.c:511-539. -/
def loop (hw : Nat → Bool) (t : Nat) (multi : Bool) : List Nat → State → Bool → State × List Notify
  | [], s, _ => (s, [])
  | c :: cs, s, flushed =>
    let isDown := hw c
    let reset := flushed && s.st != .disabled
    let s := if reset then setSt s (if isDown then .isUp else .isDown) else s
    let flushed := if reset then false else flushed
    let s := { s with code := c }
    let (s, o1) := handle s (if isDown then .press else .release) t
    let (s, o2) := if multi then handle s .otherButton t else (s, [])
    let flushed := if multi then true else flushed
    let (s, o3) := loop hw t multi cs s flushed
    (s, o1 ++ o2 ++ o3)

/-- `fallback_debounce_handle_state`.  Models: /repo/src/evdev-debounce.c:473-540.
`changed[0]` is 0 if nothing changed. -/
def handleState (s : State) (hw last : Nat → Bool) (t : Nat) : State × List Notify :=
  let changed := changedButtons hw last
  let multi := decide (1 < changed.length)
  if multi || changed.headD 0 != s.code then
    let (s, o1) := handle s .otherButton t
    let (s, o2) := loop hw t multi changed s true
    (s, o1 ++ o2)
  else loop hw t multi changed s false

/-- The button part of a fallback device: debouncer, `hw_key_mask`, `last_hw_key_mask`,
and the `EVDEV_KEY` bit of `pending_event`.  Models: /repo/src/evdev-fallback.h:118-132. -/
structure Dev where
  deb : State
  hw : Nat → Bool
  last : Nat → Bool
  pending : Bool

/-- `fallback_process_key` for a button event with value 1 or 0.
Models: /repo/src/evdev-fallback.c:540-595.  Simplified: codes that are not buttons are skipped here
(they never reach the debouncer); keys are modelled in `Verif/Mouse`. -/
def processKey (d : Dev) (code : Nat) (down : Bool) : Dev :=
  if !isButton code then d
  else if d.hw code = down then d
  else { d with hw := fun c => if code = c then down else d.hw c, pending := true }

/-- The "Buttons and keys" part of `fallback_handle_state`, run at `EV_SYN`.
Models: /repo/src/evdev-fallback.c:1020-1039. -/
def sync (d : Dev) (t : Nat) : Dev × List Notify :=
  if d.pending then
    let want := buttonCodes.any (fun c => d.hw c != d.last c)
    let (deb, o) := if want then handleState d.deb d.hw d.last t else (d.deb, [])
    ({ deb := deb, hw := d.hw, last := d.hw, pending := false }, o)
  else (d, [])

/-- Expire the short timer if it is due.  Models: /repo/src/evdev-debounce.c:552-560 called from
/repo/src/timer.c:133-160. -/
def fireShort (s : State) (now : Nat) : State × List Notify :=
  match s.timerShort with
  | none => (s, [])
  | some e => if e ≤ now then handle (cancelTimerShort s) .timeoutShort now else (s, [])

/-- Expire the long timer if it is due.  Models: /repo/src/evdev-debounce.c:542-550 called from
/repo/src/timer.c:133-160. -/
def fireLong (s : State) (now : Nat) : State × List Notify :=
  match s.timer with
  | none => (s, [])
  | some e => if e ≤ now then handle (cancelTimer s) .timeout now else (s, [])

/-- `libinput_timer_handler` restricted to the two debounce timers.
Models: /repo/src/timer.c:133-160.  The handler walks the list from the head and `list_insert` puts the
most recently armed timer at the head (/repo/src/util-list.c:41-53); the short timer is always armed
directly after the long one (/repo/src/evdev-debounce.c:211-212), so it is met first.  Neither callback
arms a timer, so one pass suffices. -/
def fire (s : State) (now : Nat) : State × List Notify :=
  let (s, o1) := fireShort s now
  let (s, o2) := fireLong s now
  (s, o1 ++ o2)

/-- Operations of the environment: a kernel event frame (key events followed by `SYN_REPORT`, all
with the same time stamp), or the timerfd becoming readable. -/
inductive Op where
  | frame (t : Nat) (keys : List (Nat × Bool))
  | timer (now : Nat)
deriving DecidableEq, Repr

/-- One operation.  Each evdev event first flushes the timers that are due at its time stamp
(`evdev_process_event` → `libinput_timer_flush`).
Models: /repo/src/evdev.c:971-984, /repo/src/timer.c:162-182 and 237-245, /repo/src/evdev-fallback.c:1042-1070. -/
def step (d : Dev) : Op → Dev × List Notify
  | .frame t keys =>
    let (deb, o1) := fire d.deb t
    let d := keys.foldl (fun d k => processKey d k.1 k.2) { d with deb := deb }
    let (d, o2) := sync d t
    (d, o1 ++ o2)
  | .timer now =>
    let (deb, o) := fire d.deb now
    ({ d with deb := deb }, o)

/-- A new device.  Models: /repo/src/evdev-debounce.c:562-594 on a zero-allocated dispatch
(/repo/src/evdev-fallback.c:1711-1770).  `enabled` is false for devices with the
`ModelBouncingKeys` quirk. -/
def init (enabled : Bool) : Dev :=
  { deb := { st := if enabled then .isUp else .disabled, code := 0, time := 0, timer := none,
             timerShort := none, spurious := false, bugs := 0 },
    hw := fun _ => false, last := fun _ => false, pending := false }

/-- Any history of operations. -/
def run (d : Dev) : List Op → Dev × List Notify
  | [] => (d, [])
  | op :: ops =>
    let (d, o1) := step d op
    let (d, o2) := run d ops
    (d, o1 ++ o2)

end Libinput.Debounce
