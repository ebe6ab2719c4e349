import Verif.PadButtons.Model
/-!
The physical buttons of a touchpad as the hand knows them.  0x110 is left, 0x111 right, 0x112 middle.  Only the names of operations and events are taken from the model.
-/
namespace Libinput.PadButtons.Spec
open Buttons PadButtons

/-- Which of the buttons are held, whether left and right are exchanged, and whether they were last asked to be. -/
structure Hand where
  left : Bool
  right : Bool
  middle : Bool
  exchanged : Bool
  wanted : Bool
deriving DecidableEq

/-- Nothing is held, and right-handed. -/
def atFirst : Hand := ⟨false, false, false, false, false⟩

/-- Whether a button is held after these keys of a report: what the last one of it says, repetitions (2) aside. -/
def after (code : Nat) : List (Nat × Nat) → Bool → Bool
  | [], h => h
  | k :: ks, h => after code ks (if k.1 = code ∧ k.2 ≠ 2 then decide (k.2 ≠ 0) else h)

/-- The event of a button, if it changed. -/
def event (time code : Nat) (before now : Bool) : List Ev := if before = now then [] else [⟨time, code, now⟩]

/-- The hand after a step.  A wish to exchange left and right is granted when neither of them is held. -/
def next (h : Hand) : Op → Hand
  | .left v => { h with wanted := v, exchanged := if h.left = false ∧ h.right = false then v else h.exchanged }
  | .report _ keys =>
    let l := after 0x110 keys h.left
    let r := after 0x111 keys h.right
    { left := l, right := r, middle := after 0x112 keys h.middle, wanted := h.wanted,
      exchanged := if l = false ∧ r = false then h.wanted else h.exchanged }

/-- What is told of a step: each button that changed, once; left and right exchanged if they were when the report came. -/
def told (h : Hand) : Op → List Ev
  | .left _ => []
  | .report time keys =>
    event time (if h.exchanged then 0x111 else 0x110) h.left (after 0x110 keys h.left) ++
    (event time (if h.exchanged then 0x110 else 0x111) h.right (after 0x111 keys h.right) ++
    event time 0x112 h.middle (after 0x112 keys h.middle))

/-- The report releases left and right at once while a wish to exchange them waits. -/
def Fatal (h : Hand) : Op → Prop
  | .left _ => False
  | .report _ keys => h.wanted ≠ h.exchanged ∧ h.left = true ∧ h.right = true ∧ after 0x110 keys true = false ∧ after 0x111 keys true = false

instance (h : Hand) : (o : Op) → Decidable (Fatal h o)
  | .left _ => isFalse id
  | .report _ _ => inferInstanceAs (Decidable (_ ∧ _))

/-- What a history tells, up to the first fatal report, if there is one. -/
def history (h : Hand) : List Op → List (List Ev) × Option Stop
  | [] => ([], none)
  | o :: os => if Fatal h o then ([], some .assertFailed) else let r := history (next h o) os; (told h o :: r.1, r.2)

/-- The hand after a history. -/
def hand (h : Hand) : List Op → Hand
  | [] => h
  | o :: os => hand (next h o) os

/-- Whether the caller takes a button to be down after these events. -/
def down (code : Nat) : List Ev → Bool → Bool
  | [], d => d
  | e :: es, d => down code es (if e.code = code then e.down else d)

end Libinput.PadButtons.Spec
