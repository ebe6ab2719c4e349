/-!
The words the properties of buttons kept as bits are stated with.
-/
namespace Libinput.Bits.Spec

/-- After presses and releases (`true` is a press): is this one held?  That is, is the last one of it a press? -/
def Held (b : Nat) : List (Nat × Bool) → Bool → Bool
  | [], h => h
  | o :: os, h => Held b os (if o.1 = b then o.2 else h)

/-- Held after all of these, of which none was held before. -/
def held (os : List (Nat × Bool)) (b : Nat) : Bool := Held b os false

end Libinput.Bits.Spec
