/-
Event codes and the key/button classification used by the fallback dispatch.
-/
namespace Libinput

/-- Models: /repo/include/linux/linux/input-event-codes.h:355. -/
def BTN_LEFT : Nat := 0x110
/-- Models: /repo/include/linux/linux/input-event-codes.h:356. -/
def BTN_RIGHT : Nat := 0x111
/-- Models: /repo/include/linux/linux/input-event-codes.h:357. -/
def BTN_MIDDLE : Nat := 0x112
/-- Models: /repo/include/linux/linux/input-event-codes.h:411. -/
def BTN_TOUCH : Nat := 0x14a
/-- Models: /repo/include/linux/linux/input-event-codes.h:364. -/
def BTN_JOYSTICK : Nat := 0x120
/-- Models: /repo/include/linux/linux/input-event-codes.h:777. -/
def KEY_MAX : Nat := 0x2ff

/-- Models: /repo/src/evdev-fallback.h:167-171. -/
inductive KeyType where
  | none | key | button
deriving DecidableEq, Repr

/-- `get_key_type`.  Models: /repo/src/evdev-fallback.h:173-206.
The `BTN_TOOL_*` codes and `BTN_TOUCH` are 0x140-0x148, 0x14a, 0x14d-0x14f
(/repo/include/linux/linux/input-event-codes.h:401-416). -/
def getKeyType (code : Nat) : KeyType :=
  if (0x140 ≤ code ∧ code ≤ 0x148) ∨ code = 0x14a ∨ (0x14d ≤ code ∧ code ≤ 0x14f) then .none
  else if 1 ≤ code ∧ code ≤ 248 then .key
  else if 0x100 ≤ code ∧ code ≤ 0x151 then .button
  else if 0x160 ≤ code ∧ code ≤ 0x21e then .key
  else if 0x220 ≤ code ∧ code ≤ 0x223 then .button
  else if 0x230 ≤ code ∧ code < 0x2c0 then .key
  else if 0x2c0 ≤ code ∧ code ≤ 0x2e7 then .button
  else .none

/-- Is this code a button (as opposed to a keyboard key or a tool code)?
Models: /repo/src/evdev-fallback.h:173-206. -/
def isButton (code : Nat) : Bool := getKeyType code == .button

end Libinput
