import Verif.Together.Model
import Verif.Follow.Spec
/-!
The words the properties of several fingers are stated with.
-/
namespace Libinput.Together.Spec
open Follow

/-- The slots, of `n`, whose fingers count. -/
def fingers (n : Nat) (on : Nat → Bool) : List Nat := (List.range n).filter on

/-- A sum. -/
def sum {α : Type} (f : α → Rat) : List α → Rat
  | [] => 0
  | a :: as => f a + sum f as

/-- An event that does not happen moves nothing. -/
def told : Option Vec → Vec
  | none => ⟨0, 0⟩
  | some v => v

/-- What events told altogether. -/
def toldX (es : List (Option Vec)) : Rat := sum (fun e => (told e).x) es
def toldY (es : List (Option Vec)) : Rat := sum (fun e => (told e).y) es

/-- The mean of the ways of fingers, in mm. -/
def meanX (c : Config) (is : List Nat) (way : Nat → Pt) : Rat := sum (fun i => ((way i).x : Rat) / c.rx) is / is.length
def meanY (c : Config) (is : List Nat) (way : Nat → Pt) : Rat := sum (fun i => ((way i).y : Rat) / c.ry) is / is.length

end Libinput.Together.Spec
