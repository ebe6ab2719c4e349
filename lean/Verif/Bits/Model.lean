/-!
Sets of numbers kept as bits of an array (util-bits.h), and what pads and pens make of two of them (evdev-tablet-pad.c, evdev-tablet.c).  `w` is the number of
bits of a word of the array: 8 or 64.
-/
namespace Libinput.Bits

/-- `bit_is_set`, `long_bit_is_set`.  Reading outside of the array, which is undefined in C, reads zeros here.
Models: /repo/src/util-bits.h:45-49, /repo/src/util-bits.h:63-67. -/
def isSet {w : Nat} (a : List (BitVec w)) (bit : Nat) : Bool := a.getD (bit / w) 0#w &&& (1#w <<< (bit % w)) != 0#w

/-- `set_bit`, `long_set_bit`.  Writing outside of the array, which is undefined in C, does nothing here.
Models: /repo/src/util-bits.h:51-55, /repo/src/util-bits.h:69-73. -/
def setBit {w : Nat} (a : List (BitVec w)) (bit : Nat) : List (BitVec w) := a.modify (bit / w) fun x => x ||| (1#w <<< (bit % w))

/-- `clear_bit`, `long_clear_bit`.  Models: /repo/src/util-bits.h:57-61, /repo/src/util-bits.h:75-79. -/
def clearBit {w : Nat} (a : List (BitVec w)) (bit : Nat) : List (BitVec w) := a.modify (bit / w) fun x => x &&& ~~~(1#w <<< (bit % w))

/-- `long_set_bit_state`, and what `pad_button_set_down`, `tablet_process_key` do.
Models: /repo/src/util-bits.h:81-88, /repo/src/evdev-tablet-pad.c:83-97, /repo/src/evdev-tablet.c:778-784. -/
def setState {w : Nat} (a : List (BitVec w)) (bit : Nat) (state : Bool) : List (BitVec w) := if state then setBit a bit else clearBit a bit

/-- `long_any_bit_set`, `pad_any_button_down`.  Models: /repo/src/util-bits.h:90-101, /repo/src/evdev-tablet-pad.c:70-81. -/
def anySet {w : Nat} : List (BitVec w) → Bool
  | [] => false
  | x :: xs => if x ≠ 0#w then true else anySet xs

/-- `pad_get_buttons_pressed`, `tablet_get_pressed_buttons`.  Models: /repo/src/evdev-tablet-pad.c:39-49, /repo/src/evdev-tablet.c:49-59. -/
def pressed (state prev : List (BitVec 8)) : List (BitVec 8) := state.zipWith (fun s p => s &&& ~~~p) prev

/-- `pad_get_buttons_released`, `tablet_get_released_buttons`.  Models: /repo/src/evdev-tablet-pad.c:51-61, /repo/src/evdev-tablet.c:61-72. -/
def released (state prev : List (BitVec 8)) : List (BitVec 8) := state.zipWith (fun s p => p &&& ~~~s) prev

/-- `tablet_force_button_presses`: the state and the previous state.  Models: /repo/src/evdev-tablet.c:74-87. -/
def force (state prev : List (BitVec 8)) : List (BitVec 8) × List (BitVec 8) := (state.zipWith (fun s p => s ||| p) prev, prev.map fun _ => 0#8)

/-- `while (buttons_slice)`: the codes of the bits of a byte.  Models: /repo/src/evdev-tablet-pad.c:373-382. -/
def slice (b : BitVec 8) (code : Nat) : List Nat :=
  if _h : b = 0#8 then [] else (if b &&& 1#8 ≠ 0#8 then [code] else []) ++ slice (b >>> 1) (code + 1)
termination_by b.toNat
decreasing_by
  have : b.toNat ≠ 0 := fun c => _h (BitVec.eq_of_toNat_eq (by simpa using c))
  rw [BitVec.toNat_ushiftRight, Nat.shiftRight_eq_div_pow]
  omega

/-- `pad_notify_button_mask`: the codes that are looked up and told, in this order.  What is told of each is modelled in `Pad.Model`.
Models: /repo/src/evdev-tablet-pad.c:370-382. -/
def padCodes (i : Nat) : List (BitVec 8) → List Nat
  | [] => []
  | b :: bs => slice b (i * 8) ++ padCodes (i + 1) bs

/-- `tablet_notify_button_mask`: the codes that are told, in this order.  Models: /repo/src/evdev-tablet.c:1202-1213. -/
def tabletCodes (bits : List (BitVec 8)) : List Nat := (List.range (8 * bits.length)).filter fun i => isSet bits i

/-- Presses and releases as they are written.  Models: /repo/src/evdev-tablet-pad.c:83-97, /repo/src/evdev-tablet.c:778-784, /repo/src/evdev-fallback.h:207-212. -/
def run {w : Nat} (a : List (BitVec w)) : List (Nat × Bool) → List (BitVec w)
  | [] => a
  | o :: os => run (setState a o.1 o.2) os

/-- An array of zeros.  Models: /repo/src/evdev-tablet.c:1900-1902. -/
def zeros (w n : Nat) : List (BitVec w) := List.replicate n 0#w

end Libinput.Bits
