/-!
The LEDs of a keyboard (evdev.c).
-/
namespace Libinput.Leds

/-- `struct input_event`, without its time.  Models: /repo/src/evdev.c:312. -/
structure Ev where
  type : Nat
  code : Nat
  value : Nat
deriving DecidableEq, Repr

/-- `map`: which flag of the API is which LED of the kernel.  Models: /repo/src/evdev.c:304-311, /repo/src/libinput.h:217-221. -/
def map : List (Nat × Nat) := [(1, 0), (2, 1), (4, 2)]

/-- `evdev_device_led_update`, `libinput_device_led_update`: what is written to the device, if anything.  A write writes all or nothing.
Models: /repo/src/evdev.c:301-329, /repo/src/libinput.c:3108-3113. -/
def update (keyboard : Bool) (leds : BitVec 32) : Option (List Ev) :=
  if keyboard = false then none
  else some ((map.map fun m => ⟨0x11, m.2, if leds &&& BitVec.ofNat 32 m.1 ≠ 0#32 then 1 else 0⟩) ++ [⟨0, 0, 0⟩])

end Libinput.Leds
