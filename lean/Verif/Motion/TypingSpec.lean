import Verif.Motion.Model
/-
What the user of a touchpad expects while they type, or use the trackpoint.
-/
namespace Libinput.Motion

/-- The event moves the pointer, scrolls, or begins or continues a gesture. -/
def Out.acts : Out → Bool
  | .motion _ | .edge .. | .two (.axis ..) | .begin .. | .update .. => true
  | .edgeStop .. | .two (.stop ..) | .end_ .. | .bug => false

/-- The modifiers, as they are numbered by the kernel: left control, right control, left alt, right alt, left shift, right
shift, Fn, caps lock, tab, compose, right meta and left meta. -/
def modifiers : List Nat := [29, 97, 56, 100, 42, 54, 464, 58, 15, 127, 126, 125]

/-- A key counts as typing if it comes before F1, which is 59, and is not a modifier. -/
def Types (code : Nat) : Prop := code < 59 ∧ code ∉ modifiers

instance (code : Nat) : Decidable (Types code) := inferInstanceAs (Decidable (_ ∧ _))

/-- The keys that are down at the end of a history, with the keyboard they are on. -/
def held (ks : List (Nat × Nat)) : List Op → List (Nat × Nat)
  | [] => ks
  | .key _ k code true :: ops => held ((k, code) :: ks) ops
  | .key _ k code false :: ops => held (ks.filter (· != (k, code))) ops
  | _ :: ops => held ks ops

/-- How many times the trackpoint was used. -/
def nudges : List Op → Nat
  | [] => 0
  | .trackpoint _ :: ops => nudges ops + 1
  | _ :: ops => nudges ops

end Libinput.Motion
