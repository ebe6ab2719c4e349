import Verif.Buttons.Model
/-!
The physical buttons of a touchpad that is no clickpad: the bits they are kept in, the loop that tells their changes, and the left-handed mapping that may change
during this loop.  Without tapping and middle button emulation, which also press buttons, and
without suspending.
-/
namespace Libinput.PadButtons
open Buttons

/-- `tp->buttons.state`, `tp->buttons.old_state`, `left_handed.enabled`, `left_handed.want_enabled` and `key_count`.
Models: /repo/src/evdev-mt-touchpad.h:362-368, /repo/src/evdev.h:248-259. -/
structure State where
  now : BitVec 32
  old : BitVec 32
  enabled : Bool
  want : Bool
  cnt : Counts

/-- Nothing is held, and right-handed.  Models: /repo/src/evdev.c:635-647, /repo/src/evdev-mt-touchpad.c:3865-3876. -/
def init : State := ⟨0, 0, false, false, fun _ => 0⟩

/-- `tp_process_key` for the buttons, and `tp_process_button` for a touchpad that is no clickpad.  Other codes are no buttons.
Models: /repo/src/evdev-mt-touchpad.c:739-753, /repo/src/evdev-mt-touchpad-buttons.c:607-629. -/
def key (now : BitVec 32) (code value : Nat) : BitVec 32 :=
  if value = 2 then now
  else if code = 0x110 ∨ code = 0x112 ∨ code = 0x111 then
    let mask := 1#32 <<< (code - 0x110)
    if value ≠ 0 then now ||| mask else now &&& ~~~mask
  else now

/-- `tp_change_to_left_handed`.  The rotation is modelled in `Rotate` and is not a matter of buttons.
Models: /repo/src/evdev-mt-touchpad.c:3773-3789. -/
def change (s : State) : State :=
  if s.want = s.enabled then s else if s.now &&& 3#32 ≠ 0#32 then s else { s with enabled := s.want }

/-- `evdev_left_handed_set`.  Models: /repo/src/evdev.c:607-617. -/
def setLeft (v : Bool) (s : State) : State := change { s with want := v }

/-- `evdev_to_left_handed`.  Models: /repo/src/evdev.h:654-665. -/
def toLeft (enabled : Bool) (button : Nat) : Nat :=
  if enabled then if button = 0x110 then 0x111 else if button = 0x111 then 0x110 else button else button

/-- `evdev_pointer_notify_physical_button` without middle button emulation, `evdev_pointer_notify_button` (no on-button scrolling on touchpads) and
`evdev_pointer_post_button` with its callback after a release that is told.
Models: /repo/src/evdev.c:147-188, /repo/src/evdev.c:286-299. -/
def notify (time b : Nat) (down : Bool) (s : State) : Except Stop (State × List Ev) :=
  match post s.cnt time b down with
  | .error e => .error e
  | .ok (cnt, evs) =>
    let s := { s with cnt := cnt }
    .ok (if down = false ∧ evs ≠ [] then change s else s, evs)

/-- One turn of the loop of `tp_post_physical_buttons`.  Models: /repo/src/evdev-mt-touchpad-buttons.c:1041-1056. -/
def turn (time : Nat) (current old : BitVec 32) (button : Nat) (s : State) : Except Stop (State × List Ev) :=
  if (current &&& 1#32) ^^^ (old &&& 1#32) ≠ 0#32 then notify time (toLeft s.enabled button) (decide (current &&& 1#32 ≠ 0#32)) s
  else .ok (s, [])

/-- `while (current || old)`.  Models: /repo/src/evdev-mt-touchpad-buttons.c:1041-1062. -/
def loop (time : Nat) (current old : BitVec 32) (button : Nat) (s : State) : Except Stop (State × List Ev) :=
  if _h : current ≠ 0#32 ∨ old ≠ 0#32 then
    match turn time current old button s with
    | .error e => .error e
    | .ok (s, evs) =>
      match loop time (current >>> 1) (old >>> 1) (button + 1) s with
      | .error e => .error e
      | .ok (s, more) => .ok (s, evs ++ more)
  else .ok (s, [])
termination_by current.toNat + old.toNat
decreasing_by
  have k : ∀ b : BitVec 32, b ≠ 0#32 → b.toNat ≠ 0 := fun b h c => h (BitVec.eq_of_toNat_eq (by simpa using c))
  simp only [BitVec.toNat_ushiftRight, Nat.shiftRight_eq_div_pow]
  rcases _h with h | h
  · have := k _ h; omega
  · have := k _ h; omega

/-- A report of the kernel, with all its button events, or a call of `libinput_device_config_left_handed_set`.  The kernel wakes a reader at the
end of a report, so there is no call in the middle of one.  Models: /repo/src/evdev-mt-touchpad.c:1938-1965, /repo/src/evdev.c:607-617. -/
inductive Op where
  | report (time : Nat) (keys : List (Nat × Nat))
  | left (v : Bool)

/-- The button events one after the other, then `tp_post_physical_buttons` and `tp_post_process_state`.
Models: /repo/src/evdev-mt-touchpad.c:1901-1912, /repo/src/evdev-mt-touchpad.c:1844-1845, /repo/src/evdev-mt-touchpad-buttons.c:1032-1065. -/
def step (s : State) : Op → Except Stop (State × List Ev)
  | .left v => .ok (setLeft v s, [])
  | .report time keys =>
    let s := { s with now := keys.foldl (fun n k => key n k.1 k.2) s.now }
    match loop time s.now s.old 0x110 s with
    | .error e => .error e
    | .ok (s, evs) => .ok ({ s with old := s.now }, evs)

/-- A history: what is told at each step, and why the program stopped if it did.  Models: /repo/src/evdev-mt-touchpad.c:1938-1965. -/
def run (s : State) : List Op → List (List Ev) × Option Stop
  | [] => ([], none)
  | o :: os =>
    match step s o with
    | .error e => ([], some e)
    | .ok (s, evs) => let r := run s os; (evs :: r.1, r.2)

end Libinput.PadButtons
