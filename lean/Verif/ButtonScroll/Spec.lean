import Verif.ButtonScroll.Model
/-
What on-button scrolling should do, without reference to the state machine.
-/
namespace Libinput.ButtonScroll.Spec
open Libinput.Buttons (Call)
variable {R : Type}

/-- The scroll button `b` is physically held after these operations. -/
def held (b : Nat) (start : Bool) (ops : List (Op R)) : Bool :=
  ops.foldl (fun h op => match op with
    | .button _ c p => if c = b then p else h
    | _ => h) start

/-- The scroll button alternates: it is pressed only when up and released only when down. -/
def Alternates (b : Nat) (ops : List (Op R)) : Prop :=
  ∀ pre t p post, ops = pre ++ .button t b p :: post → held b false pre = !p

/-- No event of the scroll button. -/
def NoScrollButton (b : Nat) (mid : List (Op R)) : Prop :=
  ∀ t p, .button t b p ∉ mid

/-- The motions that happen after the scroll timeout `due` has been seen to expire. -/
def motionsAfter (due : Nat) : List (Op R) → List (Nat × R × R)
  | [] => []
  | .timer now :: ops =>
    if due ≤ now then ops.filterMap (fun op => match op with
      | .motion t dx dy => some (t, dx, dy)
      | _ => none)
    else motionsAfter due ops
  | _ :: ops => motionsAfter due ops

/-- The button events among the operations. -/
def buttonsIn (ops : List (Op R)) : List Call :=
  ops.filterMap (fun op => match op with
    | .button t c p => some ⟨t, c, p⟩
    | _ => none)

/-! Projections of what is sent. -/
def buttons (os : List (Out R)) : List Call := os.filterMap (fun o => match o with | .button c => some c | _ => none)
def axes (os : List (Out R)) : List (Scroll.Out R) := os.filterMap (fun o => match o with | .axis a => some a | _ => none)
def motions (os : List (Out R)) : List (Nat × R × R) :=
  os.filterMap (fun o => match o with | .motion t x y => some (t, x, y) | _ => none)

/-- The logical button behind the button lock: of every four consecutive events of the scroll button
(press, release, press, release) only the first press and the second release count. -/
def unlock (b : Nat) : Nat → List (Op R) → List (Op R)
  | _, [] => []
  | k, .button t c p :: ops =>
    if c = b then
      if k = 0 ∨ k = 3 then .button t c p :: unlock b ((k + 1) % 4) ops
      else unlock b ((k + 1) % 4) ops
    else .button t c p :: unlock b k ops
  | k, op :: ops => op :: unlock b k ops

end Libinput.ButtonScroll.Spec
