import Verif.Buttons.Model
import Verif.Common.Codes
/-
Tap-to-click: /repo/src/evdev-mt-touchpad-tap.c.

Parts left out, here and below: the per-touch field `t->tap.state` (only ever written and compared
with itself, it has no effect on anything else), `t->tap.initial` (the motion threshold is an input
of the model, see `View.exceeds`), the debug log, and wrap-around of 64-bit times.
-/
namespace Libinput.Tap
open Libinput.Buttons (Call)

/-- The finger count a tap state carries; the C code has one state per value and passes the
literals 1, 2, 3.  Models: /repo/src/evdev-mt-touchpad.h:109-133. -/
inductive Fg where
  | one | two | three
deriving DecidableEq, Repr

/-- `enum tp_tap_state`.  Models: /repo/src/evdev-mt-touchpad.h:105-135. -/
inductive TSt where
  | idle | touch | hold
  | tapped (n : Fg)
  | touch2 | touch2Hold | touch2Release
  | touch3 | touch3Hold | touch3Release | touch3Release2
  | dragOrDoubletap (n : Fg)
  | dragOrTap (n : Fg)
  | dragging (n : Fg)
  | draggingWait (n : Fg)
  | dragging2 (n : Fg)
  | dead
deriving DecidableEq, Repr

/-- `enum tap_event`.  Models: /repo/src/evdev-mt-touchpad-tap.c:38-47. -/
inductive TEv where
  | touch | motion | release | button | timeout | thumb | palm | palmUp
deriving DecidableEq, Repr

/-- `enum libinput_config_tap_button_map`.  Models: /repo/src/libinput.h:4452-4457. -/
inductive Map where
  | lrm | lmr
deriving DecidableEq, Repr

/-- `button_map[map][nfingers - 1]`.  Models: /repo/src/evdev-mt-touchpad-tap.c:128-139. -/
def button : Map → Fg → Nat
  | _, .one => BTN_LEFT
  | .lrm, .two => BTN_RIGHT
  | .lrm, .three => BTN_MIDDLE
  | .lmr, .two => BTN_MIDDLE
  | .lmr, .three => BTN_RIGHT

/-- The device-wide part of `tp->tap`.  Models: /repo/src/evdev-mt-touchpad.h:415-432.
`timer` is the expiry time if armed; `pressed` is `buttons_pressed`, one bit per finger count;
`bugs` counts the calls of `log_tap_bug`; `faults` counts failed `assert`s and wrap-arounds of
`nfingers_down` below zero (the C code aborts or wraps there; the model goes on and counts). -/
structure Fsm where
  st : TSt
  timer : Option Nat
  pressed : Fg → Bool
  savedPress : Nat
  savedRelease : Nat
  map : Map
  wantMap : Map
  drag : Bool
  dragLock : Bool
  nf : Nat
  bugs : Nat
  faults : Nat

/-- `tp_tap_notify` on the state.  Models: /repo/src/evdev-mt-touchpad-tap.c:141-144. -/
def mark (f : Fsm) (n : Fg) (down : Bool) : Fsm :=
  { f with pressed := fun m => if m = n then down else f.pressed m }

/-- `tp_tap_notify`, the call to `evdev_pointer_notify_button`.
Models: /repo/src/evdev-mt-touchpad-tap.c:122-150. -/
def notify (f : Fsm) (time : Nat) (n : Fg) (down : Bool) : Call := ⟨time, button f.map n, down⟩

/-- `tp_tap_set_timer`, 180ms.  Models: /repo/src/evdev-mt-touchpad-tap.c:152-156 and 32. -/
def setTimer (f : Fsm) (time : Nat) : Fsm := { f with timer := some (time + 180000) }

/-- Models: /repo/src/evdev-mt-touchpad.h:109-111 (the number in the state's name). -/
def Fg.num : Fg → Nat
  | .one => 1 | .two => 2 | .three => 3

/-- `tp_tap_set_drag_timer`, 160ms plus 20ms per finger.
Models: /repo/src/evdev-mt-touchpad-tap.c:158-166 and 33-34. -/
def setDragTimer (f : Fsm) (time : Nat) (n : Fg) : Fsm :=
  { f with timer := some (time + 160000 + n.num * 20000) }

/-- `tp_tap_set_draglock_timer`, 300ms.  Models: /repo/src/evdev-mt-touchpad-tap.c:168-173 and 35. -/
def setDraglockTimer (f : Fsm) (time : Nat) : Fsm := { f with timer := some (time + 300000) }

/-- `tp_tap_clear_timer`.  Models: /repo/src/evdev-mt-touchpad-tap.c:175-179. -/
def clearTimer (f : Fsm) : Fsm := { f with timer := none }

/-- Assignment to `tp->tap.state`. -/
def goto (f : Fsm) (st : TSt) : Fsm := { f with st := st }

/-- `tp_tap_move_to_dead`.  Models: /repo/src/evdev-mt-touchpad-tap.c:181-187. -/
def moveToDead (f : Fsm) : Fsm := clearTimer (goto f .dead)

/-- `log_tap_bug`.  Models: /repo/src/evdev-mt-touchpad-tap.c:111-120. -/
def bug (f : Fsm) : Fsm := { f with bugs := f.bugs + 1 }

/-- `tp->tap.nfingers_down--`: below zero the C counter would wrap around.
Models: /repo/src/evdev-mt-touchpad-tap.c:263, 302, 1245-1246 and 1271-1272 (with the asserts). -/
def decFingers (f : Fsm) : Fsm :=
  if f.nf = 0 then { f with faults := f.faults + 1 } else { f with nf := f.nf - 1 }

/-- Result of a handler: the new state, the button calls, and whether the touch becomes
`is_thumb`. -/
abbrev Res := Fsm × List Call × Bool

/-- Handler finished without touching `is_thumb`. -/
def ok (f : Fsm) (cs : List Call) : Res := (f, cs, false)

/-- Models: /repo/src/evdev-mt-touchpad-tap.c:189-219. -/
def idleH (f : Fsm) (time : Nat) : TEv → Res
  | .touch => ok (setTimer { goto f .touch with savedPress := time } time) []
  | .release | .timeout | .palmUp => ok f []
  | .motion | .thumb => ok (bug f) []
  | .button => ok (goto f .dead) []
  | .palm => ok (goto f .idle) []

/-- A complete tap of `n` fingers: press, then either wait for a drag or release.
Models: /repo/src/evdev-mt-touchpad-tap.c:233-249 (one finger, release time `time`, saved),
443-458 (two) and 654-668 (three; release time `saved_release_time`). -/
def tapDone (f : Fsm) (time relTime : Nat) (n : Fg) : Res :=
  if f.drag then
    ok (setDragTimer { goto (mark f n true) (.tapped n) with savedRelease := relTime } time n)
      [notify f f.savedPress n true]
  else
    ok (goto (mark (mark f n true) n false) .idle)
      [notify f f.savedPress n true, notify f relTime n false]

/-- As `tapDone` when the last finger turns into a palm: the timer is left as it is.
Models: /repo/src/evdev-mt-touchpad-tap.c:470-493 (one) and 705-728 (two). -/
def tapDonePalm (f : Fsm) (n : Fg) : Res :=
  if f.drag then
    ok (goto (mark f n true) (.tapped n)) [notify f f.savedPress n true]
  else
    ok (goto (mark (mark f n true) n false) .idle)
      [notify f f.savedPress n true, notify f f.savedRelease n false]

/-- Models: /repo/src/evdev-mt-touchpad-tap.c:221-274.
With drag disabled the C code does not store `saved_release_time`; neither does `tapDone`. -/
def touchH (f : Fsm) (time : Nat) : TEv → Res
  | .touch => ok (setTimer { goto f .touch2 with savedPress := time } time) []
  | .release => tapDone f time time .one
  | .motion => ok (moveToDead f) []
  | .timeout => ok (clearTimer (goto f .hold)) []
  | .button => ok (goto f .dead) []
  | .thumb => (clearTimer (decFingers (goto f .idle)), [], true)
  | .palm => ok (clearTimer (goto f .idle)) []
  | .palmUp => ok f []

/-- Models: /repo/src/evdev-mt-touchpad-tap.c:276-311. -/
def holdH (f : Fsm) (time : Nat) : TEv → Res
  | .touch => ok (setTimer { goto f .touch2 with savedPress := time } time) []
  | .release => ok (goto f .idle) []
  | .motion => ok (moveToDead f) []
  | .timeout => ok f []
  | .button => ok (goto f .dead) []
  | .thumb => (decFingers (goto f .idle), [], true)
  | .palm => ok (goto f .idle) []
  | .palmUp => ok f []

/-- Models: /repo/src/evdev-mt-touchpad-tap.c:313-359. -/
def tappedH (f : Fsm) (time : Nat) (n : Fg) : TEv → Res
  | .motion | .release => ok (bug f) []
  | .touch => ok (setTimer { goto f (.dragOrDoubletap n) with savedPress := time } time) []
  | .timeout => ok (mark (goto f .idle) n false) [notify f f.savedRelease n false]
  | .button => ok (mark (goto f .dead) n false) [notify f f.savedRelease n false]
  | .thumb | .palm => ok (bug f) []
  | .palmUp => ok f []

/-- Models: /repo/src/evdev-mt-touchpad-tap.c:361-395. -/
def touch2H (f : Fsm) (time : Nat) : TEv → Res
  | .touch => ok (setTimer { goto f .touch3 with savedPress := time } time) []
  | .release => ok (setTimer { goto f .touch2Release with savedRelease := time } time) []
  | .motion => ok (moveToDead f) []
  | .timeout => ok (goto f .touch2Hold) []
  | .button => ok (goto f .dead) []
  | .thumb => ok f []
  | .palm => ok (goto f .touch) []
  | .palmUp => ok f []

/-- Models: /repo/src/evdev-mt-touchpad-tap.c:397-429. -/
def touch2HoldH (f : Fsm) (time : Nat) : TEv → Res
  | .touch => ok (setTimer { goto f .touch3 with savedPress := time } time) []
  | .release => ok (goto f .hold) []
  | .motion => ok (moveToDead f) []
  | .timeout => ok (goto f .touch2Hold) []
  | .button => ok (goto f .dead) []
  | .thumb => ok f []
  | .palm => ok (goto f .hold) []
  | .palmUp => ok f []

/-- Models: /repo/src/evdev-mt-touchpad-tap.c:431-497. -/
def touch2ReleaseH (f : Fsm) (time : Nat) : TEv → Res
  | .touch => ok (clearTimer (goto f .touch2Hold)) []
  | .release => tapDone f time f.savedRelease .two
  | .motion => ok (moveToDead f) []
  | .timeout => ok (goto f .hold) []
  | .button => ok (goto f .dead) []
  | .thumb => ok f []
  | .palm => tapDonePalm f .one
  | .palmUp => ok f []

/-- Models: /repo/src/evdev-mt-touchpad-tap.c:499-533. -/
def touch3H (f : Fsm) (time : Nat) : TEv → Res
  | .touch => ok (clearTimer (goto f .dead)) []
  | .motion => ok (moveToDead f) []
  | .timeout => ok (clearTimer (goto f .touch3Hold)) []
  | .release => ok (setTimer { goto f .touch3Release with savedRelease := time } time) []
  | .button => ok (goto f .dead) []
  | .thumb => ok f []
  | .palm => ok (goto f .touch2) []
  | .palmUp => ok f []

/-- Models: /repo/src/evdev-mt-touchpad-tap.c:535-565. -/
def touch3HoldH (f : Fsm) (time : Nat) : TEv → Res
  | .touch => ok (setTimer (goto f .dead) time) []
  | .release => ok (goto f .touch2Hold) []
  | .motion => ok (moveToDead f) []
  | .timeout => ok f []
  | .button => ok (goto f .dead) []
  | .thumb => ok f []
  | .palm => ok (goto f .touch2Hold) []
  | .palmUp => ok f []

/-- A three-finger click sent at once: press and release.
Models: /repo/src/evdev-mt-touchpad-tap.c:575-582 and its five copies below it. -/
def click3 (f : Fsm) : Fsm := mark (mark f .three true) .three false

/-- The two calls of `click3`. -/
def click3Calls (f : Fsm) : List Call :=
  [notify f f.savedPress .three true, notify f f.savedRelease .three false]

/-- Models: /repo/src/evdev-mt-touchpad-tap.c:567-632. -/
def touch3ReleaseH (f : Fsm) (time : Nat) : TEv → Res
  | .touch => ok (setTimer { goto (click3 f) .touch3 with savedPress := time } time) (click3Calls f)
  | .release => ok (setTimer (goto f .touch3Release2) time) []
  | .motion => ok (moveToDead (click3 f)) (click3Calls f)
  | .timeout => ok (goto (click3 f) .touch2Hold) (click3Calls f)
  | .button => ok (goto (click3 f) .dead) (click3Calls f)
  | .thumb => ok f []
  | .palm => ok (goto f .touch2Release) []
  | .palmUp => ok f []

/-- Models: /repo/src/evdev-mt-touchpad-tap.c:634-729. -/
def touch3Release2H (f : Fsm) (time : Nat) : TEv → Res
  | .touch => ok (setTimer { goto (click3 f) .touch2 with savedPress := time } time) (click3Calls f)
  | .release => tapDone f time f.savedRelease .three
  | .motion => ok (moveToDead (click3 f)) (click3Calls f)
  | .timeout => ok (goto (click3 f) .hold) (click3Calls f)
  | .button => ok (goto (click3 f) .dead) (click3Calls f)
  | .thumb => ok f []
  | .palm => tapDonePalm f .two
  | .palmUp => ok f []

/-- Models: /repo/src/evdev-mt-touchpad-tap.c:731-794. -/
def dragOrDoubletapH (f : Fsm) (time : Nat) (n : Fg) : TEv → Res
  | .touch =>
    ok (setTimer { goto (mark f n false) .touch2 with savedPress := time } time)
      [notify f f.savedRelease n false]
  | .release =>
    ok (setTimer { mark (mark (goto f (.tapped .one)) n false) .one true with
          savedRelease := time } time)
      [notify f f.savedRelease n false, notify f f.savedPress .one true]
  | .motion | .timeout => ok (goto f (.dragging n)) []
  | .button => ok (mark (goto f .dead) n false) [notify f f.savedRelease n false]
  | .thumb => ok f []
  | .palm => ok (goto f (.tapped n)) []
  | .palmUp => ok f []

/-- Models: /repo/src/evdev-mt-touchpad-tap.c:796-855. -/
def draggingH (f : Fsm) (time : Nat) (n : Fg) : TEv → Res
  | .touch => ok (goto f (.dragging2 n)) []
  | .release =>
    if f.dragLock then ok (setDraglockTimer (goto f (.draggingWait n)) time) []
    else ok (goto (mark f n false) .idle) [notify f time n false]
  | .motion | .timeout => ok f []
  | .button => ok (mark (goto f .dead) n false) [notify f time n false]
  | .thumb => ok f []
  | .palm => ok (goto (mark f n false) .idle) [notify f f.savedRelease n false]
  | .palmUp => ok f []

/-- Models: /repo/src/evdev-mt-touchpad-tap.c:857-901. -/
def draggingWaitH (f : Fsm) (time : Nat) (n : Fg) : TEv → Res
  | .touch => ok (setTimer (goto f (.dragOrTap n)) time) []
  | .release | .motion => ok (bug f) []
  | .timeout => ok (mark (goto f .idle) n false) [notify f time n false]
  | .button => ok (mark (goto f .dead) n false) [notify f time n false]
  | .thumb | .palm => ok (bug f) []
  | .palmUp => ok f []

/-- Models: /repo/src/evdev-mt-touchpad-tap.c:903-960. -/
def dragOrTapH (f : Fsm) (time : Nat) (n : Fg) : TEv → Res
  | .touch => ok (moveToDead (clearTimer (mark f n false))) [notify f time n false]
  | .release => ok (mark (goto f .idle) n false) [notify f time n false]
  | .motion | .timeout => ok (goto f (.dragging n)) []
  | .button => ok (mark (goto f .dead) n false) [notify f time n false]
  | .thumb => ok f []
  | .palm => ok (goto f (.draggingWait n)) []
  | .palmUp => ok f []

/-- Models: /repo/src/evdev-mt-touchpad-tap.c:962-1013. -/
def dragging2H (f : Fsm) (time : Nat) (n : Fg) : TEv → Res
  | .release => ok (goto f (.dragging n)) []
  | .touch => ok (mark (goto f .dead) n false) [notify f time n false]
  | .motion | .timeout => ok f []
  | .button => ok (mark (goto f .dead) n false) [notify f time n false]
  | .thumb => ok f []
  | .palm => ok (goto f (.dragging n)) []
  | .palmUp => ok f []

/-- Models: /repo/src/evdev-mt-touchpad-tap.c:1015-1040. -/
def deadH (f : Fsm) (_time : Nat) : TEv → Res
  | .release | .palm | .palmUp => if f.nf = 0 then ok (goto f .idle) [] else ok f []
  | .touch | .motion | .timeout | .button | .thumb => ok f []

/-- The `switch` of `tp_tap_handle_event`.  Models: /repo/src/evdev-mt-touchpad-tap.c:1052-1142. -/
def dispatch (f : Fsm) (time : Nat) (e : TEv) : Res :=
  match f.st with
  | .idle => idleH f time e
  | .touch => touchH f time e
  | .hold => holdH f time e
  | .tapped n => tappedH f time n e
  | .touch2 => touch2H f time e
  | .touch2Hold => touch2HoldH f time e
  | .touch2Release => touch2ReleaseH f time e
  | .touch3 => touch3H f time e
  | .touch3Hold => touch3HoldH f time e
  | .touch3Release => touch3ReleaseH f time e
  | .touch3Release2 => touch3Release2H f time e
  | .dragOrDoubletap n => dragOrDoubletapH f time n e
  | .dragging n => draggingH f time n e
  | .draggingWait n => draggingWaitH f time n e
  | .dragOrTap n => dragOrTapH f time n e
  | .dragging2 n => dragging2H f time n e
  | .dead => deadH f time e

/-- After the `switch`: the timer is cleared in `IDLE` and `DEAD`.
Models: /repo/src/evdev-mt-touchpad-tap.c:1145-1146. -/
def settle (f : Fsm) : Fsm :=
  match f.st with
  | .idle | .dead => clearTimer f
  | _ => f

/-- `tp_tap_handle_event`.  Models: /repo/src/evdev-mt-touchpad-tap.c:1042-1156. -/
def handle (f : Fsm) (time : Nat) (e : TEv) : Res :=
  let r := dispatch f time e
  (settle r.1, r.2)

/-! ### Touches and frames -/

/-- Where a touch is between two hardware frames: `TOUCH_NONE`, `TOUCH_HOVERING`, or
`TOUCH_UPDATE` (also `TOUCH_MAYBE_END` while a frame is being read).
Models: /repo/src/evdev-mt-touchpad.h:47-54. -/
inductive Phase where
  | none | hovering | down
deriving DecidableEq, Repr

/-- The per-touch data of tapping.  Models: /repo/src/evdev-mt-touchpad.h:243-248. -/
structure Touch where
  phase : Phase
  isThumb : Bool
  isPalm : Bool
deriving DecidableEq, Repr

/-- `enum touch_state` as it is when a frame is processed; `TOUCH_MAYBE_END` has been turned into
`TOUCH_END` by then.  Models: /repo/src/evdev-mt-touchpad.h:47-54, /repo/src/evdev-mt-touchpad.c:1697-1699. -/
inductive Ts where
  | none | hovering | begin | update | end_
deriving DecidableEq, Repr

/-- What `tp_tap_handle_state` sees of one touch in one frame.  `palm`: the touch has been labelled
a palm (`t->palm.state != PALM_NONE`); `thumbTap`, `thumb`: `tp_thumb_ignored_for_tap`,
`tp_thumb_ignored`; `palmTap`: `tp_palm_in_edge`, for `tp_palm_tap_is_palm`; `exceeds`:
`tp_tap_exceeds_motion_threshold`.  All of them are arbitrary here.
Models: /repo/src/evdev-mt-touchpad-tap.c:1210-1293. -/
structure View where
  ts : Ts
  dirty : Bool
  palm : Bool
  thumbTap : Bool
  thumb : Bool
  palmTap : Bool
  exceeds : Bool
deriving DecidableEq, Repr

/-- Tapping on one touchpad.  `suspended`: `tp->tap.suspended` (disable-while-typing and
trackpoint); `devSuspended`: `device->is_suspended` on touchpads with top software buttons, which
keep receiving events while suspended. -/
structure State where
  fsm : Fsm
  touches : List Touch
  enabled : Bool
  suspended : Bool
  devSuspended : Bool

/-- `tp_tap_enabled`.  Models: /repo/src/evdev-mt-touchpad-tap.c:1189-1193. -/
def State.on (s : State) : Bool := s.enabled && !s.suspended

/-- `tp_begin_touch` clears the flags of a touch that begins, whether or not tapping is on.
Models: /repo/src/evdev-mt-touchpad.c:349-363, lines 358-359. -/
def beginFlags (t : Touch) (v : View) : Touch :=
  if v.ts = .begin then { t with isThumb := false, isPalm := false } else t

/-- One touch becoming a palm. Models: /repo/src/evdev-mt-touchpad-tap.c:1239-1247. -/
def palmStep (now : Nat) (f : Fsm) (t : Touch) (v : View) : Fsm × Touch × List Call :=
  if v.ts = .begin then (f, { t with isPalm := true }, [])
  else
    let r := handle f now .palm
    (decFingers r.1, { t with isPalm := true, isThumb := t.isThumb || r.2.2 }, r.2.1)

/-- A touch that begins.  Models: /repo/src/evdev-mt-touchpad-tap.c:1248-1267. -/
def beginStep (now : Nat) (f : Fsm) (t : Touch) (v : View) : Fsm × Touch × List Call :=
  if v.thumbTap then (f, { t with isThumb := true }, [])
  else
    let r := handle { f with nf := f.nf + 1 } now .touch
    if v.palmTap then
      let q := handle r.1 now .motion
      (q.1, { t with isThumb := t.isThumb || r.2.2 || q.2.2 }, r.2.1 ++ q.2.1)
    else (r.1, { t with isThumb := t.isThumb || r.2.2 }, r.2.1)

/-- A touch that ends.  Models: /repo/src/evdev-mt-touchpad-tap.c:1269-1275.
`t->was_down` holds for every touch in `TOUCH_END`, see `Verif/Touch`. -/
def endStep (now : Nat) (f : Fsm) (t : Touch) : Fsm × Touch × List Call :=
  let r := handle (decFingers f) now .release
  (r.1, { t with isThumb := t.isThumb || r.2.2 }, r.2.1)

/-- A touch that stays down.  Models: /repo/src/evdev-mt-touchpad-tap.c:1276-1292. -/
def updateStep (now : Nat) (f : Fsm) (t : Touch) (v : View) : Fsm × Touch × List Call :=
  if f.st ≠ .idle ∧ v.thumb then
    let r := handle f now .thumb
    (r.1, { t with isThumb := t.isThumb || r.2.2 }, r.2.1)
  else if f.st ≠ .idle ∧ v.exceeds then
    let r := handle f now .motion
    (r.1, { t with isThumb := t.isThumb || r.2.2 }, r.2.1)
  else (f, t, [])

/-- The body of the loop over the touches.  Models: /repo/src/evdev-mt-touchpad-tap.c:1210-1293. -/
def touchStep (now : Nat) (f : Fsm) (t : Touch) (v : View) : Fsm × Touch × List Call :=
  if v.dirty = false ∨ v.ts = .none then (f, t, [])
  else if t.isThumb then (f, t, [])
  else if t.isPalm then
    if v.ts = .end_ then
      let r := handle f now .palmUp
      (r.1, { t with isThumb := t.isThumb || r.2.2 }, r.2.1)
    else (f, t, [])
  else match v.ts with
    | .none | .hovering => (f, t, [])
    | ts =>
      if v.palm then palmStep now f t v
      else match ts with
        | .begin => beginStep now f t v
        | .end_ => endStep now f t
        | _ => updateStep now f t v

/-- The loop over the touches.  Models: /repo/src/evdev-mt-touchpad-tap.c:1210-1293. -/
def touchLoop (now : Nat) (f : Fsm) : List Touch → List View → Fsm × List Touch × List Call
  | t :: ts, v :: vs =>
    let r := touchStep now f t v
    let q := touchLoop now r.1 ts vs
    (q.1, r.2.1 :: q.2.1, r.2.2 ++ q.2.2)
  | ts, _ => (f, ts, [])

/-- `tp->nfingers_down` when the frame is processed: the touches in `TOUCH_BEGIN` or
`TOUCH_UPDATE`, see `Verif/Touch` for the counter itself. -/
def fingersDown (vs : List View) : Nat :=
  (vs.filter (fun v => v.ts = .begin ∨ v.ts = .update)).length

/-- The two asserts at the end.  Models: /repo/src/evdev-mt-touchpad-tap.c:1321-1323. -/
def checkCounts (f : Fsm) (vs : List View) : Fsm :=
  if f.nf ≤ fingersDown vs then f else { f with faults := f.faults + 1 }

/-- `tp_tap_handle_state`.  Models: /repo/src/evdev-mt-touchpad-tap.c:1195-1326.  `btn`: a clickpad
was pressed in this frame.  The return value (motion is filtered) is `filtersMotion`. -/
def handleState (now : Nat) (btn : Bool) (f : Fsm) (ts : List Touch) (vs : List View) :
    Fsm × List Touch × List Call :=
  let b := if btn then handle f now .button else ok f []
  let r := touchLoop now b.1 ts vs
  (checkCounts r.1 vs, r.2.1, b.2.1 ++ r.2.2)

/-- Where a touch is after a frame: `TOUCH_BEGIN` becomes `TOUCH_UPDATE`, `TOUCH_END` becomes
`TOUCH_NONE` or `TOUCH_HOVERING` (`hover`).  Models: /repo/src/evdev-mt-touchpad.c:1826-1840.
Simplified: an ended touch is always `TOUCH_NONE`; the difference to `TOUCH_HOVERING` has no effect
on tapping. -/
def phaseAfter : Ts → Phase
  | .none | .end_ => .none
  | .hovering => .hovering
  | .begin | .update => .down

/-- The new phases of all touches. Models: /repo/src/evdev-mt-touchpad.c:1826-1840. -/
def setPhases : List Touch → List View → List Touch
  | t :: ts, v :: vs => { t with phase := phaseAfter v.ts } :: setPhases ts vs
  | ts, _ => ts

/-- `tp_tap_update_map`.  Models: /repo/src/evdev-mt-touchpad-tap.c:1328-1336. -/
def updateMap (f : Fsm) : Fsm := if f.st = .idle then { f with map := f.wantMap } else f

/-- The flags of all touches that begin.  Models: /repo/src/evdev-mt-touchpad.c:349-363. -/
def beginAll : List Touch → List View → List Touch
  | t :: ts, v :: vs => beginFlags t v :: beginAll ts vs
  | ts, _ => ts

/-- `tp_handle_state`, its tapping part.  Models: /repo/src/evdev-mt-touchpad.c:1686-1707,
/repo/src/evdev-mt-touchpad.c:1855-1881 (nothing is done while the device is suspended) and /repo/src/evdev-mt-touchpad.c:1822-1853. -/
def frame (s : State) (now : Nat) (btn : Bool) (vs : List View) : State × List Call :=
  let ts := beginAll s.touches vs
  if s.on ∧ s.devSuspended = false then
    let r := handleState now btn s.fsm ts vs
    ({ s with fsm := updateMap r.1, touches := setPhases r.2.1 vs }, r.2.2)
  else ({ s with fsm := updateMap s.fsm, touches := setPhases ts vs }, [])

/-- `tp_tap_handle_timeout`.  Models: /repo/src/evdev-mt-touchpad-tap.c:1344-1359; the timer is
disarmed when it fires (`Verif/Timer`). -/
def fire (s : State) (now : Nat) : State × List Call :=
  let r := handle { s.fsm with timer := none } now .timeout
  ({ s with fsm := r.1 }, r.2.1)

/-- One step of the release loop of `tp_release_all_taps`.
Models: /repo/src/evdev-mt-touchpad-tap.c:1602-1605. -/
def releaseOne (f : Fsm) (now : Nat) (n : Fg) : Fsm × List Call :=
  if f.pressed n then (mark f n false, [notify f now n false]) else (f, [])

/-- Every touch that is not `TOUCH_NONE` becomes a palm.
Models: /repo/src/evdev-mt-touchpad-tap.c:1608-1617 and 1376-1382. -/
def allPalms (ts : List Touch) : List Touch :=
  ts.map fun t => if t.phase = .none then t else { t with isPalm := true }

/-- `tp_release_all_taps`.  Models: /repo/src/evdev-mt-touchpad-tap.c:1596-1621. The timer stays
armed. -/
def releaseAll (s : State) (now : Nat) : State × List Call :=
  let a := releaseOne s.fsm now .one
  let b := releaseOne a.1 now .two
  let c := releaseOne b.1 now .three
  ({ s with fsm := { goto c.1 .idle with nf := 0 }, touches := allPalms s.touches },
    a.2 ++ b.2 ++ c.2)

/-- `tp_tap_enabled_update`.  Models: /repo/src/evdev-mt-touchpad-tap.c:1361-1389. -/
def enabledUpdate (s : State) (suspended enabled : Bool) (now : Nat) : State × List Call :=
  let s' := { s with suspended := suspended, enabled := enabled }
  if s'.on = s.on then (s', [])
  else if s'.on then
    ({ s' with fsm := { goto s'.fsm .idle with nf := 0 }, touches := allPalms s'.touches }, [])
  else releaseAll s' now

/-- `tp_tap_config_set_enabled`.  Models: /repo/src/evdev-mt-touchpad-tap.c:1400-1412. -/
def setEnabled (s : State) (e : Bool) (now : Nat) : State × List Call :=
  enabledUpdate s s.suspended e now

/-- `tp_tap_suspend`.  Models: /repo/src/evdev-mt-touchpad-tap.c:1623-1627. -/
def tapSuspend (s : State) (now : Nat) : State × List Call := enabledUpdate s true s.enabled now

/-- `tp_tap_resume`.  Models: /repo/src/evdev-mt-touchpad-tap.c:1629-1633. -/
def tapResume (s : State) (now : Nat) : State × List Call := enabledUpdate s false s.enabled now

/-- What a touch looks like in the frame that lifts everything.
Models: /repo/src/evdev-mt-touchpad.c:2049-2051 (`tp_end_sequence` on every touch). -/
def liftView (t : Touch) : View :=
  ⟨if t.phase = .down then .end_ else .none, true, false, false, false, false, false⟩

/-- `tp_clear_state`, its tapping part; also `tp_interface_suspend`, which is called on removal.
Models: /repo/src/evdev-mt-touchpad.c:2027-2057 and /repo/src/evdev-mt-touchpad.c:2088-2095. `btn`: a clickpad press is still
queued from an unfinished frame. -/
def clear (s : State) (now : Nat) (btn : Bool) : State × List Call :=
  let r := releaseAll s now
  let q := frame r.1 now btn (r.1.touches.map liftView)
  (q.1, r.2 ++ q.2)

/-- `tp_suspend` on a touchpad with top software buttons (others stop receiving events).
Models: /repo/src/evdev-mt-touchpad.c:2059-2086. -/
def devSuspend (s : State) (now : Nat) (btn : Bool) : State × List Call :=
  let r := clear s now btn
  ({ r.1 with devSuspended := true }, r.2)

/-- `tp_resume` on a touchpad with top software buttons.
Models: /repo/src/evdev-mt-touchpad.c:2153-2173. -/
def devResume (s : State) (now : Nat) (btn : Bool) : State × List Call :=
  let r := clear s now btn
  ({ r.1 with devSuspended := false }, r.2)

/-- `tp_tap_config_set_map`.  Models: /repo/src/evdev-mt-touchpad-tap.c:1454-1466. -/
def setMap (s : State) (m : Map) : State :=
  { s with fsm := updateMap { s.fsm with wantMap := m } }

/-- `tp_init_tap`.  Models: /repo/src/evdev-mt-touchpad-tap.c:1573-1578. `n` touches, all
`TOUCH_NONE`. -/
def init (n : Nat) (enabled : Bool) : State :=
  { fsm := ⟨.idle, none, fun _ => false, 0, 0, .lrm, .lrm, true, false, 0, 0, 0⟩
    touches := List.replicate n ⟨.none, false, false⟩
    enabled := enabled
    suspended := false
    devSuspended := false }

/-- Everything that can happen to tapping. -/
inductive Op where
  | frame (now : Nat) (btn : Bool) (vs : List View)
  | timeout (now : Nat)
  | setEnabled (e : Bool) (now : Nat)
  | suspend (now : Nat)
  | resume (now : Nat)
  | clear (now : Nat) (btn : Bool)
  | devSuspend (now : Nat) (btn : Bool)
  | devResume (now : Nat) (btn : Bool)
  | setMap (m : Map)
  | setDrag (e : Bool)
  | setDragLock (e : Bool)
deriving Repr

/-- One operation.  Models: the callers listed at the functions; `setDrag` and `setDragLock`:
/repo/src/evdev-mt-touchpad-tap.c:1483-1493 and /repo/src/evdev-mt-touchpad-tap.c:1518-1528. -/
def step (s : State) : Op → State × List Call
  | .frame now btn vs => frame s now btn vs
  | .timeout now => fire s now
  | .setEnabled e now => setEnabled s e now
  | .suspend now => tapSuspend s now
  | .resume now => tapResume s now
  | .clear now btn => clear s now btn
  | .devSuspend now btn => devSuspend s now btn
  | .devResume now btn => devResume s now btn
  | .setMap m => (setMap s m, [])
  | .setDrag e => ({ s with fsm := { s.fsm with drag := e } }, [])
  | .setDragLock e => ({ s with fsm := { s.fsm with dragLock := e } }, [])

/-- A history.  Not a function of /repo: it folds `step`. -/
def run (s : State) : List Op → State × List Call
  | [] => (s, [])
  | op :: ops =>
    let r := step s op
    let q := run r.1 ops
    (q.1, r.2 ++ q.2)

/-- The return value of `tp_tap_handle_state`.
Models: /repo/src/evdev-mt-touchpad-tap.c:1295-1319. -/
def filtersMotion : TSt → Bool
  | .touch | .tapped _ | .dragOrDoubletap _ | .dragOrTap _ | .touch2 | .touch3 => true
  | _ => false

/-- `tp_tap_dragging`.  Models: /repo/src/evdev-mt-touchpad-tap.c:1635-1655. -/
def isDragging : TSt → Bool
  | .dragging _ | .dragging2 _ | .draggingWait _ | .dragOrTap _ => true
  | _ => false

end Libinput.Tap
