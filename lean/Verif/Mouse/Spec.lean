import Verif.Mouse.Model
import Verif.Debounce.Spec
/-
What the user and the caller did to a device, read off the operations alone, and what it means that the
caller changed settings with care.  Independent of the code under test except for the type of operations.
-/
namespace Libinput.Mouse.Spec
open Libinput.Buttons (Ev)
variable {R : Type}

/-- The button changes in the key events of a frame: code and pressed?; autorepeat (value 2) and codes
that are not buttons are left out. -/
def buttonKeys (keys : List KeyEv) : List (Nat × Bool) :=
  (keys.filter fun e => e.value != 2 && isButton e.code).map fun e => (e.code, e.value != 0)

/-- The state of the keyboard keys after the key events of a frame. -/
def applyKeyboard (k : Nat → Bool) (keys : List KeyEv) : Nat → Bool :=
  keys.foldl (fun k e =>
    if e.value != 2 && getKeyType e.code == .key then (fun c => if c = e.code then e.value != 0 else k c)
    else k) k

/-- `hand`: the physical buttons.  `settled`: the buttons were left alone for the debounce time of 25ms and
the timers were dispatched after it.  `lateLeft`, `lateScroll`: the last change of the left-handed, or of
the scroll, configuration was made while a button was held.  `keyboard`: the keyboard keys. -/
structure World where
  hand : Debounce.Spec.World
  settled : Bool
  lateLeft : Bool
  lateScroll : Bool
  keyboard : Nat → Bool

def start : World := ⟨Debounce.Spec.start, true, false, false, fun _ => false⟩

/-- Some mouse button (0x110..0x11f) is physically held. -/
def anyHeld (p : Nat → Bool) : Bool := (List.range 16).any fun i => p (0x110 + i)

def stepWorld (w : World) : Op R → World
  | .frame t keys _ _ =>
    { w with
      hand := Debounce.Spec.stepWorld w.hand (.frame t (buttonKeys keys)),
      settled := w.settled && (buttonKeys keys).isEmpty,
      keyboard := applyKeyboard w.keyboard keys }
  | .debounceTimers now => { w with settled := w.settled || decide (w.hand.latest + 25000 ≤ now) }
  | .setLeftHanded _ => { w with lateLeft := anyHeld w.hand.phys }
  | .setScrollMethod _ | .setScrollButton _ | .setScrollLock _ =>
    { w with lateScroll := anyHeld w.hand.phys }
  | .suspend _ => { w with hand := { w.hand with phys := fun _ => false }, keyboard := fun _ => false }
  | .middleTimer _ | .scrollTimer _ | .setMiddle _ => w

def world (ops : List (Op R)) : World := ops.foldl stepWorld start

/-- No button is physically held. -/
def NoneHeld (w : World) : Prop := ∀ c, w.hand.phys c = false

/-- At rest: no button held, and that for the debounce time. -/
def AtRest (w : World) : Prop := NoneHeld w ∧ w.settled = true

/-- The operation is one the code is made for:
- the device only has mouse buttons 0x110..0x11f that it announced, at most 16 change in a frame;
- settings of left-handed and scrolling are not changed in the 25ms after the last button went up (they
  may be changed while a button is held);
- as long as such a change made while a button was held may be outstanding, the last button goes up
  alone: no other button was held and the buttons had settled;
- middle-button emulation is switched on at rest;
- the device is suspended at rest (as far as its buttons go). -/
def CarefulOp (has : Nat → Bool) (w : World) : Op R → Prop
  | .frame t keys wheel rel =>
    (buttonKeys keys).length ≤ 16 ∧
    (∀ e ∈ buttonKeys keys, 0x110 ≤ e.1 ∧ e.1 < 0x120 ∧ has e.1 = true) ∧
    (w.lateLeft = true ∨ w.lateScroll = true → NoneHeld (stepWorld w (.frame (R := R) t keys wheel rel)) →
      NoneHeld w ∨ (w.settled = true ∧ ∀ a b, w.hand.phys a = true → w.hand.phys b = true → a = b))
  | .setLeftHanded _ | .setScrollMethod _ | .setScrollButton _ | .setScrollLock _ =>
    NoneHeld w → w.settled = true
  | .setMiddle on => on = true → AtRest w
  | .suspend _ => AtRest w
  | .debounceTimers _ | .middleTimer _ | .scrollTimer _ => True

def Careful (has : Nat → Bool) : World → List (Op R) → Prop
  | _, [] => True
  | w, op :: ops => CarefulOp has w op ∧ Careful has (stepWorld w op) ops

/-- The scroll-button lock, middle-button emulation and a physical middle button are not all used. -/
def NotAllThree (middle : Bool) (ops : List (Op R)) : Prop :=
  (.setScrollLock true ∉ ops) ∨
  (middle = false ∧ .setMiddle true ∉ ops) ∨
  (∀ t keys wheel rel, .frame t keys wheel rel ∈ ops → ∀ e ∈ keys, e.code ≠ 0x112)

/-- The pointer button events sent. -/
def buttons (os : List (Out R)) : List (Edge Nat) :=
  os.filterMap fun o => match o with
    | .button e => some ⟨e.code, e.down⟩
    | _ => none

/-- The keyboard key events sent. -/
def keys (os : List (Out R)) : List (Edge Nat) :=
  os.filterMap fun o => match o with
    | .key e => some ⟨e.code, e.down⟩
    | _ => none

/-- The wheel events sent: time, vertical?, value. -/
def wheels (os : List (Out R)) : List (Nat × Bool × Int) :=
  os.filterMap fun o => match o with
    | .wheel t v n => some (t, v, n)
    | _ => none

/-- The left-handed setting the caller asked for last. -/
def leftWanted (ops : List (Op R)) : Bool :=
  ops.foldl (fun b op => match op with | .setLeftHanded on => on | _ => b) false

/-- The code the button `c` is reported with: left and right (0x110, 0x111) trade places if left-handed. -/
def swap (left : Bool) (c : Nat) : Nat :=
  if left = true ∧ c = 0x110 then 0x111 else if left = true ∧ c = 0x111 then 0x110 else c

end Libinput.Mouse.Spec
