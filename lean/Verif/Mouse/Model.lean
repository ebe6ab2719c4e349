import Verif.Debounce.Model
import Verif.MiddleButton.Model
import Verif.ButtonScroll.Model
/-
A whole mouse or keyboard: the path from kernel key events to the caller through debouncing,
left-handed mapping, middle-button emulation, on-button scrolling and the use counts, together with
the configuration calls that act on it and suspension.
/repo/src/evdev-fallback.c, /repo/src/evdev.c, and the stages modelled in
`Verif/Debounce`, `Verif/MiddleButton`, `Verif/ButtonScroll` and `Verif/Buttons`.
-/
namespace Libinput.Mouse
open Libinput.Buttons (Call Ev Stop Counts)

variable {R : Type}

/-- The scroll configuration: `method == ON_BUTTON_DOWN`, the button and the lock.
Models: /repo/src/evdev.h:204-239 (`want_method`, `want_button`, `want_lock_enabled`). -/
structure ScrollCfg where
  onButton : Bool
  button : Nat
  lock : Bool
deriving DecidableEq, Repr

/-- A device.  `has` is the set of `EV_KEY` codes the kernel device has.  `hw_key_mask` and
`last_hw_key_mask` are split by key type: `deb.hw`, `deb.last` are the parts for buttons, `keyHw` the
part of `hw_key_mask` for keys; the bits of other codes are never looked at.
`scLock` is `scroll.lock_enabled`, `inhibited` is `wheel.is_inhibited`.
Models: /repo/src/evdev.h:161-300 and /repo/src/evdev-fallback.h:74-165, the fields used here. -/
structure Dev (R : Type) where
  has : Nat → Bool
  deb : Debounce.Dev
  keyHw : Nat → Bool
  inhibited : Bool
  lh : Bool
  lhWant : Bool
  mb : MiddleButton.State
  sc : ButtonScroll.State R
  scLock : Bool
  scWant : ScrollCfg
  cnt : Counts

/-- What the caller gets: `LIBINPUT_EVENT_POINTER_BUTTON`, `LIBINPUT_EVENT_KEYBOARD_KEY`, scroll events
of on-button scrolling, wheel events (vertical?, discrete value) and pointer motion. -/
inductive Out (R : Type) where
  | button (e : Ev)
  | key (e : Ev)
  | axis (o : Scroll.Out R)
  | wheel (t : Nat) (vertical : Bool) (v : Int)
  | motion (t : Nat) (dx dy : R)

/-- Result of running a piece of the program: what was sent to the caller, and the device afterwards or
the reason the process died. -/
structure Res (R : Type) where
  out : List (Out R)
  next : Except Stop (Dev R)

/-- Nothing happens. -/
def ret (d : Dev R) : Res R := ⟨[], .ok d⟩

/-- Sequential composition. -/
def Res.bind (r : Res R) (f : Dev R → Res R) : Res R :=
  match r.next with
  | .error e => ⟨r.out, .error e⟩
  | .ok d => ⟨r.out ++ (f d).out, (f d).next⟩

/-- Run `f` for each element of a list. -/
def each {α : Type} (f : Dev R → α → Res R) : List α → Dev R → Res R
  | [], d => ret d
  | a :: as, d => (f d a).bind (each f as)

/-- `fallback_any_button_down`.  Models: /repo/src/evdev-fallback.c:872-884. -/
def anyButtonDown (d : Dev R) : Bool :=
  (List.range (BTN_JOYSTICK - BTN_LEFT)).any
    (fun i => d.has (BTN_LEFT + i) && d.deb.hw (BTN_LEFT + i))

/-- `fallback_change_to_left_handed`.  Models: /repo/src/evdev-fallback.c:1492-1504. -/
def changeLeftHanded (d : Dev R) : Dev R :=
  if d.lhWant = d.lh then d
  else if anyButtonDown d then d
  else { d with lh := d.lhWant }

/-- `fallback_change_scroll_method`.  Models: /repo/src/evdev-fallback.c:1506-1523. -/
def changeScroll (d : Dev R) : Dev R :=
  if d.scWant.onButton = d.sc.onButton ∧ d.scWant.button = d.sc.button ∧ d.scWant.lock = d.scLock then d
  else if anyButtonDown d then d
  else
    { d with
      scLock := d.scWant.lock,
      sc := ButtonScroll.setLockEnabled
        { d.sc with onButton := d.scWant.onButton, button := d.scWant.button } d.scWant.lock }

/-- `evdev_pointer_post_button`.  Models: /repo/src/evdev.c:165-188, including the configuration callbacks
after a release that reached the caller. -/
def postButton (d : Dev R) (t code : Nat) (press : Bool) : Res R :=
  match Buttons.post d.cnt t code press with
  | .error e => ⟨[], .error e⟩
  | .ok (cnt, evs) =>
    let d := { d with cnt := cnt }
    let d := if evs ≠ [] ∧ press = false then changeScroll (changeLeftHanded d) else d
    ⟨evs.map .button, .ok d⟩

/-- What the scroll stage hands on is sent to the caller or posted as a button.
Models: the calls made in /repo/src/evdev.c:260-283. -/
def deliver (d : Dev R) : ButtonScroll.Out R → Res R
  | .button c => postButton d c.time c.code c.pressed
  | .axis o => ⟨[.axis o], .ok d⟩
  | .motion t dx dy => ⟨[.motion t dx dy], .ok d⟩

/-- `evdev_pointer_notify_button`.  Models: /repo/src/evdev.c:286-299. -/
def notifyButton (A : Scroll.Arith R) (d : Dev R) (c : Call) : Res R :=
  match ButtonScroll.notifyButton A d.sc c.time c.code c.pressed with
  | none => ⟨[], .error .assertFailed⟩
  | some (sc, os) => each deliver os { d with sc := sc }

/-- `fallback_notify_physical_button` and `evdev_pointer_notify_physical_button`.
Models: /repo/src/evdev-fallback.c:64-75, /repo/src/evdev.c:147-163. -/
def physicalButton (A : Scroll.Arith R) (d : Dev R) (t code : Nat) (press : Bool) : Res R :=
  let d := if code = BTN_MIDDLE then { d with inhibited := press } else d
  let (mb, calls) := MiddleButton.physicalButton d.mb t code press
  each (notifyButton A) calls { d with mb := mb }

/-- `evdev_to_left_handed` for a given setting.  Models: /repo/src/evdev.h:654-665. -/
def toLeftHanded (lh : Bool) (button : Nat) : Nat :=
  if lh then
    if button = BTN_LEFT then BTN_RIGHT
    else if button = BTN_RIGHT then BTN_LEFT
    else button
  else button

/-- `debounce_notify_button`: the mapping in force at this moment is used.
Models: /repo/src/evdev-debounce.c:169-180. -/
def debounced (A : Scroll.Arith R) (d : Dev R) (n : Debounce.Notify) : Res R :=
  physicalButton A d n.time (toLeftHanded d.lh n.code) n.down

/-- `fallback_keyboard_notify_key`.  Models: /repo/src/evdev-fallback.c:34-48. -/
def notifyKey (d : Dev R) (t code : Nat) (press : Bool) : Res R :=
  match Buttons.post d.cnt t code press with
  | .error e => ⟨[], .error e⟩
  | .ok (cnt, evs) => ⟨evs.map .key, .ok { d with cnt := cnt }⟩

/-- One `EV_KEY` event: code and value (0 released, 1 pressed, 2 kernel autorepeat). -/
structure KeyEv where
  code : Nat
  value : Nat
deriving DecidableEq, Repr

/-- `fallback_process_key`.  Models: /repo/src/evdev-fallback.c:540-595.  Simplified: `BTN_TOUCH` only
concerns single-touch devices, modelled in `Verif/TouchSlots`. -/
def processKey (t : Nat) (d : Dev R) (e : KeyEv) : Res R :=
  if e.value = 2 then ret d
  else
    match getKeyType e.code with
    | .none => ret d
    | .button => ret { d with deb := Debounce.processKey d.deb e.code (e.value != 0) }
    | .key =>
      let down := e.value != 0
      if d.keyHw e.code = down then ret d
      else notifyKey { d with keyHw := fun c => if c = e.code then down else d.keyHw c } t e.code down

/-- `fallback_flush_wheels` for the wheel movement of one frame.
Models: /repo/src/evdev-fallback.c:217-278.  Simplified: the device is a pointer and not a Lenovo
ScrollPoint; only the discrete value is kept (the angle is a constant multiple of it). -/
def flushWheels (d : Dev R) (t : Nat) (wx wy : Int) : Res R :=
  if d.inhibited then ret d
  else
    ⟨(if wy ≠ 0 then [.wheel t true (-1 * wy)] else []) ++ (if wx ≠ 0 then [.wheel t false wx] else []),
      .ok d⟩

/-- `fallback_flush_relative_motion`.  Models: /repo/src/evdev-fallback.c:175-215 (see
`ButtonScroll.motion` for what is left out). -/
def flushMotion (A : Scroll.Arith R) (d : Dev R) (t : Nat) : Option (R × R) → Res R
  | none => ret d
  | some (dx, dy) =>
    let (sc, os) := ButtonScroll.motion A d.sc t dx dy
    each deliver os { d with sc := sc }

/-- The "Buttons and keys" part of `fallback_handle_state`.  Models: /repo/src/evdev-fallback.c:1020-1039. -/
def syncButtons (A : Scroll.Arith R) (d : Dev R) (t : Nat) : Res R :=
  let (deb, ns) := Debounce.sync d.deb t
  each (debounced A) ns { d with deb := deb }

/-- The debounce timers expire if due.  Models: /repo/src/evdev-debounce.c:542-560. -/
def debounceTimers (A : Scroll.Arith R) (d : Dev R) (now : Nat) : Res R :=
  let (s, ns) := Debounce.fire d.deb.deb now
  each (debounced A) ns { d with deb := { d.deb with deb := s } }

/-- The middle-button timer expires if due.  Models: /repo/src/evdev-middle-button.c:642-648. -/
def middleTimer (A : Scroll.Arith R) (d : Dev R) (now : Nat) : Res R :=
  let (mb, calls) := MiddleButton.fire d.mb now
  each (notifyButton A) calls { d with mb := mb }

/-- `release_pressed_keys` from the given codes on.  Models: /repo/src/evdev-fallback.c:1101-1149.
The log messages are left out. -/
def releasePressed (A : Scroll.Arith R) (t : Nat) : List Nat → Dev R → Res R
  | [], d => ret d
  | code :: codes, d =>
    if d.cnt code = 0 then releasePressed A t codes d
    else
      let r := match getKeyType code with
        | .none => ret d
        | .key => notifyKey d t code false
        | .button => notifyButton A d ⟨t, toLeftHanded d.lh code, false⟩
      r.bind (fun d => if d.cnt code ≠ 0 then ret d else releasePressed A t codes d)

/-- `fallback_return_to_neutral_state`.  Models: /repo/src/evdev-fallback.c:1151-1165.  Both `memset` calls
of the C code clear `hw_key_mask`; `last_hw_key_mask` (`deb.last`) keeps its bits.  Simplified: touches
are in `Verif/TouchSlots`; `libinput_now` is assumed to succeed. -/
def suspend (A : Scroll.Arith R) (d : Dev R) (t : Nat) : Res R :=
  (releasePressed A t (List.range Buttons.KEY_CNT) d).bind
    (fun d => ret { d with keyHw := fun _ => false, deb := { d.deb with hw := fun _ => false } })

/-- What can happen to a device.  The order in which the three groups of timers are dispatched, and how
late, is left to the environment; the debounce timers that are due are also dispatched before a frame. -/
inductive Op (R : Type) where
  /-- a kernel frame: key events, wheel and pointer movement, then `SYN_REPORT` -/
  | frame (t : Nat) (keys : List KeyEv) (wheel : Int × Int) (rel : Option (R × R))
  | debounceTimers (now : Nat)
  | middleTimer (now : Nat)
  | scrollTimer (now : Nat)
  /-- `libinput_device_config_left_handed_set` -/
  | setLeftHanded (on : Bool)
  /-- `libinput_device_config_middle_emulation_set_enabled` -/
  | setMiddle (on : Bool)
  /-- `libinput_device_config_scroll_set_method` -/
  | setScrollMethod (onButton : Bool)
  /-- `libinput_device_config_scroll_set_button` -/
  | setScrollButton (button : Nat)
  /-- `libinput_device_config_scroll_set_button_lock` -/
  | setScrollLock (on : Bool)
  /-- the device is suspended or removed -/
  | suspend (t : Nat)

/-- One operation.  Models: /repo/src/evdev.c:971-984 (timer flush before each event),
/repo/src/evdev-fallback.c:976-1070, /repo/src/evdev.c:607-617, 655-665, 695-705, 737-757,
/repo/src/evdev-middle-button.c:656-676, /repo/src/evdev-fallback.c:1167-1174. -/
def step (A : Scroll.Arith R) (d : Dev R) : Op R → Res R
  | .frame t keys wheel rel =>
    (debounceTimers A d t).bind fun d =>
    (each (processKey t) keys d).bind fun d =>
    (flushMotion A d t rel).bind fun d =>
    (flushWheels d t wheel.1 wheel.2).bind fun d =>
    syncButtons A d t
  | .debounceTimers now => debounceTimers A d now
  | .middleTimer now => middleTimer A d now
  | .scrollTimer now => ret { d with sc := ButtonScroll.fire d.sc now }
  | .setLeftHanded on => ret (changeLeftHanded { d with lhWant := on })
  | .setMiddle on => ret { d with mb := MiddleButton.setConfig d.mb on }
  | .setScrollMethod on => ret (changeScroll { d with scWant := { d.scWant with onButton := on } })
  | .setScrollButton b => ret (changeScroll { d with scWant := { d.scWant with button := b } })
  | .setScrollLock on => ret (changeScroll { d with scWant := { d.scWant with lock := on } })
  | .suspend t => suspend A d t

/-- A new device with the given key codes and default settings: debouncing in use, middle-button
emulation default, default scroll method and button.
Models: /repo/src/evdev-fallback.c:1711-1770, /repo/src/evdev.c:635-647 and 787-817. -/
def init (A : Scroll.Arith R) (has : Nat → Bool) (debounce middle onButton : Bool) (button : Nat) : Dev R :=
  { has := has, deb := Debounce.init debounce, keyHw := fun _ => false, inhibited := false,
    lh := false, lhWant := false, mb := MiddleButton.init middle,
    sc := ButtonScroll.init A onButton button false, scLock := false,
    scWant := ⟨onButton, button, false⟩, cnt := Buttons.init }

/-- Any history; it ends early if the process dies. -/
def run (A : Scroll.Arith R) (d : Dev R) (ops : List (Op R)) : Res R := each (step A) ops d

end Libinput.Mouse
