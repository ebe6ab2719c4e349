import Verif.Leds.Model
/-!
What a keyboard does with what is written to it, and the words of the properties.
-/
namespace Libinput.Leds.Spec

/-- The kernel: events wait until a report (type 0, code 0) ends them; an event of type 0x11 switches an LED.  `lit` are the LEDs that shine, the other events wait. -/
def kernel (lit : Nat → Bool) (waiting : List Ev) : List Ev → (Nat → Bool) × List Ev
  | [] => (lit, waiting)
  | e :: es =>
    if e.type = 0 ∧ e.code = 0 then kernel (fun c => (waiting.foldl (fun v w => if w.type = 0x11 ∧ w.code = c then w.value != 0 else v) (lit c))) [] es
    else kernel lit (waiting ++ [e]) es

/-- The keyboard after many updates. -/
def after (keyboard : Bool) (lit : Nat → Bool) : List (BitVec 32) → Nat → Bool
  | [] => lit
  | l :: ls =>
    match update keyboard l with
    | none => after keyboard lit ls
    | some es => after keyboard (kernel lit [] es).1 ls

/-- The LEDs of num lock, caps lock and scroll lock are numbers 0, 1 and 2 of the kernel, and the bits 0, 1 and 2 of what the API takes. -/
def asked (l : BitVec 32) (c : Nat) : Bool := l.getLsbD c

end Libinput.Leds.Spec
