import Verif.Common.Alternation
/-
The last stage every pointer button and keyboard key of an evdev device goes
through: the per-device use count, the per-seat count, and event emission.
-/
namespace Libinput.Buttons

/-- Ways a call can stop the program instead of returning.
`assertFailed`: an `assert()` in the C code fails.
`counterWrapped`: the `uint8_t` counter `key_count[code]` is incremented past
255.  The C code would silently wrap; the model reports it as a separate outcome
so that theorems can say it does not happen.
Models: /repo/src/evdev.c:112-134, /repo/src/evdev.h:248 (`uint8_t key_count[KEY_CNT]`). -/
inductive Stop where
  | assertFailed
  | counterWrapped
deriving DecidableEq, Repr

/-- `KEY_CNT` of linux/input-event-codes.h (`KEY_MAX` is 0x2ff).
Models: /repo/include/linux/linux/input-event-codes.h:777-778. -/
def KEY_CNT : Nat := 0x300

/-- The per-device array `key_count`.
Models: /repo/src/evdev.h:248. Simplified: a total function instead of an array;
indexes outside the array are guarded by the assert in `updateKeyDownCount`. -/
abbrev Counts := Nat → Nat

/-- Write one array cell. Models the C array update `a[code] = v`. -/
def set (a : Counts) (code v : Nat) : Counts := fun c => if c = code then v else a c

/-- `evdev_update_key_down_count`.
Models: /repo/src/evdev.c:112-134. The "reached abnormal values" log message is omitted. -/
def updateKeyDownCount (cnt : Counts) (code : Nat) (pressed : Bool) :
    Except Stop (Counts × Nat) :=
  if KEY_CNT ≤ code then .error .assertFailed
  else if pressed then
    if cnt code = 255 then .error .counterWrapped
    else .ok (set cnt code (cnt code + 1), cnt code + 1)
  else
    if cnt code = 0 then .error .assertFailed
    else .ok (set cnt code (cnt code - 1), cnt code - 1)

/-- A pointer-button or keyboard-key event as it is queued for the client.
Models: /repo/src/libinput.c:2414-2420 and 2339-2344, the fields `button`/`key`, `state`, `time`. -/
structure Ev where
  time : Nat
  code : Nat
  down : Bool
deriving DecidableEq, Repr

/-- `evdev_pointer_post_button` without the configuration callbacks, and equally
`fallback_keyboard_notify_key`: count, then emit on the 0→1 and 1→0 edges only.
Models: /repo/src/evdev.c:165-188 and /repo/src/evdev-fallback.c:34-48.
Simplified: the `change_to_enabled`/`change_scroll_method` callbacks after a release are modelled in
`Verif/Mouse`; they do not touch `key_count`. -/
def post (cnt : Counts) (time code : Nat) (pressed : Bool) : Except Stop (Counts × List Ev) :=
  match updateKeyDownCount cnt code pressed with
  | .error e => .error e
  | .ok (cnt', n) =>
    if (pressed = true ∧ n = 1) ∨ (pressed = false ∧ n = 0) then
      .ok (cnt', [⟨time, code, pressed⟩])
    else .ok (cnt', [])

/-- A call to `post`: time, code, pressed. -/
structure Call where
  time : Nat
  code : Nat
  pressed : Bool
deriving DecidableEq, Repr

/-- Any sequence of calls on one device.  Returns the events emitted, and the
reason the program stopped, if it did.  Models: every caller of
/repo/src/evdev.c:165-188 and /repo/src/evdev-fallback.c:34-48 in any order. -/
def run (cnt : Counts) : List Call → List Ev × Option Stop
  | [] => ([], none)
  | c :: cs =>
    match post cnt c.time c.code c.pressed with
    | .error e => ([], some e)
    | .ok (cnt', evs) =>
      let (rest, st) := run cnt' cs
      (evs ++ rest, st)

/-- All counts zero: `evdev_device_create` zero-allocates the device.
Models: /repo/src/evdev.c:2244 (`zalloc`). -/
def init : Counts := fun _ => 0

/-! ### Several devices on one seat -/

/-- Per-seat counter and per-device counters.
Models: /repo/src/libinput-private.h:182 (`button_count`), one `key_count` per device. -/
structure SeatState where
  counts : Nat → Counts
  seat : Nat → Nat

/-- `update_seat_button_count` / `update_seat_key_count`.
Models: /repo/src/libinput.c:2160-2200.  Both use the same array. Simplified: `uint32_t` is `Nat`. -/
def updateSeatCount (seat : Nat → Nat) (code : Nat) (pressed : Bool) : (Nat → Nat) × Nat :=
  if pressed then (set seat code (seat code + 1), seat code + 1)
  else if seat code = 0 then (seat, 0)
  else (set seat code (seat code - 1), seat code - 1)

/-- An event as delivered to the client: which device, which code, pressed or
released, and the value of `libinput_event_pointer_get_seat_button_count` /
`libinput_event_keyboard_get_seat_key_count`.
Models: /repo/src/libinput.c:2414-2424 and 2339-2349. -/
structure SeatEv where
  dev : Nat
  code : Nat
  down : Bool
  seatCount : Nat
deriving DecidableEq, Repr

/-- `pointer_notify_button` / `keyboard_notify_key` after the use-count gate.
Models: /repo/src/libinput.c:2325-2351 and 2399-2427.  Simplified: the device has the capability
(otherwise neither the count nor the event happens). -/
def seatPost (s : SeatState) (dev time code : Nat) (pressed : Bool) :
    Except Stop (SeatState × List SeatEv) :=
  match post (s.counts dev) time code pressed with
  | .error e => .error e
  | .ok (cnt', []) =>
    .ok ({ s with counts := fun d => if d = dev then cnt' else s.counts d }, [])
  | .ok (cnt', _ :: _) =>
    let (seat', n) := updateSeatCount s.seat code pressed
    .ok ({ counts := fun d => if d = dev then cnt' else s.counts d, seat := seat' },
         [⟨dev, code, pressed, n⟩])

/-- A call on one of the devices of the seat. -/
structure SeatCall where
  dev : Nat
  time : Nat
  code : Nat
  pressed : Bool
deriving DecidableEq, Repr

/-- Any interleaving of calls on any number of devices of one seat. -/
def seatRun (s : SeatState) : List SeatCall → List SeatEv × Option Stop
  | [] => ([], none)
  | c :: cs =>
    match seatPost s c.dev c.time c.code c.pressed with
    | .error e => ([], some e)
    | .ok (s', evs) =>
      let (rest, st) := seatRun s' cs
      (evs ++ rest, st)

/-- A new seat: `libinput_seat_init` on a zero-allocated seat.
Models: /repo/src/libinput.c:1984-1998; `zalloc` at /repo/src/path-seat.c:97 and /repo/src/udev-seat.c:350. -/
def seatInit : SeatState := ⟨fun _ => init, fun _ => 0⟩

end Libinput.Buttons
