import Verif.Hand.Model
/-!
Where the pen is, and where the hand that holds it.
-/
namespace Libinput.Hand.Spec
open Libinput.TouchSlots

/-- Where the pen is. -/
inductive Pen where
  | away
  | upright
  | tilted (p : Pt) (tilt : Rat)
deriving DecidableEq, Repr

/-- What was last heard of the pen. -/
def pen (w : Pen) : List Op → Pen
  | [] => w
  | .pen p tilt :: ops => pen (if tilt = 0 then .upright else .tilted p tilt) ops
  | .leave :: ops => pen .away ops
  | _ :: ops => pen w ops

/-- The tip of the pen, in whole millimetres from the left and from the top of the tablet. -/
def tip (T : Axes) (p : Pt) : Int × Int := ((p.1 - T.minX).tdiv T.resX, (p.2 - T.minY).tdiv T.resY)

/-- The finger at `q` on the touch screen is between `a` and `b` millimetres from its left. -/
def Across (S : Axes) (q : Pt) (a b : Int) : Prop := a * S.resX ≤ q.1 - S.minX ∧ q.1 - S.minX < b * S.resX

/-- The finger at `q` on the touch screen is between `a` and `b` millimetres from its top. -/
def Along (S : Axes) (q : Pt) (a b : Int) : Prop := a * S.resY ≤ q.2 - S.minY ∧ q.2 - S.minY < b * S.resY

/-- Where the hand is: 200 by 200 mm, from 50 mm above the tip to 150 mm below it, and from 20 mm left of it to 180 mm right of it if the
pen is tilted to the right, or the other way round. -/
def Hand (T S : Axes) (p : Pt) (tilt : Rat) (q : Pt) : Prop :=
  (if tilt > 0 then Across S q ((tip T p).1 - 20) ((tip T p).1 + 180) else Across S q ((tip T p).1 - 180) ((tip T p).1 + 20)) ∧
  Along S q ((tip T p).2 - 50) ((tip T p).2 + 150)

/-- The finger is where fingers are ignored while the pen is like that: where the hand is, but what is missing of the area at the left or
at the top is added at the right or at the bottom, twice. -/
def Ignored (T S : Axes) (p : Pt) (tilt : Rat) (q : Pt) : Prop :=
  (if tilt > 0 then
    (20 ≤ (tip T p).1 ∧ Across S q ((tip T p).1 - 20) ((tip T p).1 + 180)) ∨ ((tip T p).1 < 20 ∧ Across S q 0 (220 - (tip T p).1))
  else
    (180 ≤ (tip T p).1 ∧ Across S q ((tip T p).1 - 180) ((tip T p).1 + 20)) ∨ ((tip T p).1 < 180 ∧ Across S q 0 (380 - (tip T p).1))) ∧
  ((50 ≤ (tip T p).2 ∧ Along S q ((tip T p).2 - 50) ((tip T p).2 + 150)) ∨ ((tip T p).2 < 50 ∧ Along S q 0 (250 - (tip T p).2)))

/-- A finger there is ignored. -/
def Covered (T S : Axes) (w : Pen) (q : Pt) : Prop :=
  match w with
  | .away => False
  | .upright => True
  | .tilted p tilt => Ignored T S p tilt q

/-- A finger comes down at `q` in slot `i`. -/
def finger (i : Nat) (id : Nat) (q : Pt) : List Op :=
  [.touch (.slot i), .touch (.tracking id false), .touch (.mtX q.1), .touch (.mtY q.2), .touch .syn]

/-- The pen is never held upright. -/
def NeverUpright (ops : List Op) : Prop := ∀ op ∈ ops, ∀ p, op ≠ .pen p 0

/-- The kernel only talks of the `n` slots that there are. -/
def InRange (n : Nat) (ops : List Op) : Prop := ∀ op ∈ ops, ∀ v, op = .touch (.slot v) → 0 ≤ v ∧ v < n

/-- The slot the kernel talks about. -/
def current (c : Nat) : List Op → Nat
  | [] => c
  | .touch (.slot v) :: ops => current v.toNat ops
  | _ :: ops => current c ops

/-- Where the kernel last said that the finger in slot `i` is; before, it was at `q`, and the kernel talked about slot `c`. -/
def place (i c : Nat) (q : Pt) : List Op → Pt
  | [] => q
  | .touch (.slot v) :: ops => place i v.toNat q ops
  | .touch (.mtX v) :: ops => place i c (if c = i then (v, q.2) else q) ops
  | .touch (.mtY v) :: ops => place i c (if c = i then (q.1, v) else q) ops
  | _ :: ops => place i c q ops

/-- No finger comes down in slot `i`, if the kernel talks about slot `c` first. -/
def NoNew (i : Nat) : Nat → List Op → Prop
  | _, [] => True
  | c, op :: ops => (∀ v b, op = .touch (.tracking v b) → 0 ≤ v → c ≠ i) ∧ NoNew i (current c [op]) ops

end Libinput.Hand.Spec
