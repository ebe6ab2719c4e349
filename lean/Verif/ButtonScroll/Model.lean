import Verif.Buttons.Model
import Verif.Scroll.Model
/-
On-button scrolling: the scroll button's own state machine, the button lock in front of it, and
the redirection of pointer motion into scroll events.
/repo/src/evdev.c:190-299, /repo/src/evdev-fallback.c:105-133.
-/
namespace Libinput.ButtonScroll
open Libinput.Buttons (Call)

/-- `enum evdev_button_scroll_state`.  Models: /repo/src/evdev.h:122-127. -/
inductive St where
  | idle | buttonDown | ready | scrolling
deriving DecidableEq, Repr

/-- `enum evdev_button_scroll_lock_state`.  Models: /repo/src/evdev.h:129-135. -/
inductive Lock where
  | disabled | idle | firstDown | firstUp | secondDown
deriving DecidableEq, Repr

/-- `DEFAULT_BUTTON_SCROLL_TIMEOUT` in microseconds.  Models: /repo/src/evdev.c:53. -/
def TIMEOUT : Nat := 200 * 1000

/-- The part of `struct evdev_device.scroll` used for on-button scrolling.  `onButton` is
`method == LIBINPUT_CONFIG_SCROLL_ON_BUTTON_DOWN`; `timer` is the expiry time of the scroll timer;
`sc` holds `direction` and `buildup`.  Models: /repo/src/evdev.h:204-239. -/
structure State (R : Type) where
  onButton : Bool
  button : Nat
  lock : Lock
  st : St
  timer : Option Nat
  downTime : Nat
  sc : Scroll.State R

/-- What this stage hands on: a call of `evdev_pointer_post_button`, a scroll event, or pointer motion.
Models: /repo/src/evdev.c:267-273, 298, 2691-2718; /repo/src/evdev-fallback.c:174-216. -/
inductive Out (R : Type) where
  | button (c : Call)
  | axis (o : Scroll.Out R)
  | motion (t : Nat) (dx dy : R)

variable {R : Type}

/-- The part of `evdev_button_scroll_button` below the lock.  Models: /repo/src/evdev.c:231-283.
Simplified: the flag that silences the warning about a timer set in the past and the log
messages are left out. -/
def unlockedButton (A : Scroll.Arith R) (s : State R) (t : Nat) (press : Bool) : State R × List (Out R) :=
  if press then
    ({ s with st := .buttonDown, timer := some (t + TIMEOUT), downTime := t }, [])
  else
    match s.st with
    | .idle => ({ s with timer := none, st := .idle }, [])
    | .buttonDown | .ready =>
      ({ s with timer := none, st := .idle },
        [.button ⟨s.downTime, s.button, true⟩, .button ⟨t, s.button, false⟩])
    | .scrolling =>
      let (sc, o) := Scroll.stop A s.sc t
      ({ s with timer := none, st := .idle, sc := sc }, o.map .axis)

/-- `evdev_button_scroll_button`; `none` is a failed `assert`.  Models: /repo/src/evdev.c:198-284. -/
def scrollButton (A : Scroll.Arith R) (s : State R) (t : Nat) (press : Bool) : Option (State R × List (Out R)) :=
  match s.lock with
  | .disabled => some (unlockedButton A s t press)
  | .idle => if press then some (unlockedButton A { s with lock := .firstDown } t press) else none
  | .firstDown => if press then none else some ({ s with lock := .firstUp }, [])
  | .firstUp => if press then some ({ s with lock := .secondDown }, []) else none
  | .secondDown => if press then none else some (unlockedButton A { s with lock := .idle } t press)

/-- `evdev_pointer_notify_button`.  Models: /repo/src/evdev.c:286-299. -/
def notifyButton (A : Scroll.Arith R) (s : State R) (t code : Nat) (press : Bool) :
    Option (State R × List (Out R)) :=
  if s.onButton && code == s.button then scrollButton A s t press
  else some (s, [.button ⟨t, code, press⟩])

/-- `post_trackpoint_scroll` and its caller.  Models: /repo/src/evdev-fallback.c:105-133 and 174-216.
Simplified: the pointer-acceleration filter between the two is left out, motion is passed on as is. -/
def motion (A : Scroll.Arith R) (s : State R) (t : Nat) (dx dy : R) : State R × List (Out R) :=
  if !s.onButton then (s, [.motion t dx dy])
  else
    match s.st with
    | .idle => (s, [.motion t dx dy])
    | .buttonDown => (s, [])
    | .ready | .scrolling =>
      let (sc, o) := Scroll.post A s.sc t dx dy
      ({ s with st := .scrolling, sc := sc }, o.map .axis)

/-- The scroll timer expires (if armed and due) and `evdev_button_scroll_timeout` runs.
Models: /repo/src/evdev.c:190-196, /repo/src/timer.c:133-160. -/
def fire (s : State R) (now : Nat) : State R :=
  match s.timer with
  | some e => if e ≤ now then { s with timer := none, st := .ready } else s
  | none => s

/-- `evdev_set_button_scroll_lock_enabled`.  Models: /repo/src/evdev.c:777-785. -/
def setLockEnabled (s : State R) (on : Bool) : State R :=
  { s with lock := if on then .idle else .disabled }

/-- A device with the given scroll configuration in force.  Models: /repo/src/evdev.c:787-817. -/
def init (A : Scroll.Arith R) (onButton : Bool) (button : Nat) (lock : Bool) : State R :=
  { onButton := onButton, button := button, lock := if lock then .idle else .disabled, st := .idle,
    timer := none, downTime := 0, sc := Scroll.init A }

/-- What happens at this stage: a button event leaving middle-button emulation, a motion, or the passing of
time up to `now`. -/
inductive Op (R : Type) where
  | button (t code : Nat) (press : Bool)
  | motion (t : Nat) (dx dy : R)
  | timer (now : Nat)

def step (A : Scroll.Arith R) (s : State R) : Op R → Option (State R × List (Out R))
  | .button t c p => notifyButton A s t c p
  | .motion t dx dy => some (motion A s t dx dy)
  | .timer now => some (fire s now, [])

/-- Any sequence; `none` if an `assert` failed. -/
def run (A : Scroll.Arith R) (s : State R) : List (Op R) → Option (State R × List (Out R))
  | [] => some (s, [])
  | op :: ops =>
    match step A s op with
    | none => none
    | some (s, o1) =>
      match run A s ops with
      | none => none
      | some (s, o2) => some (s, o1 ++ o2)

end Libinput.ButtonScroll
