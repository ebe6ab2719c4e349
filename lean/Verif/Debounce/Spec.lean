import Verif.Debounce.Model
/-
What the user's hand did, read off the kernel events alone.  Independent of the
debouncing code: only the type `Op` of environment operations is shared.
-/
namespace Libinput.Debounce.Spec

/-- Physical state of the buttons, when each last changed, and the newest frame time. -/
structure World where
  phys : Nat → Bool
  changedAt : Nat → Nat
  latest : Nat

/-- Nothing pressed yet. -/
def start : World := ⟨fun _ => false, fun _ => 0, 0⟩

/-- The physical state once all key events of a frame are applied (only button codes count). -/
def applyKeys (p : Nat → Bool) (keys : List (Nat × Bool)) : Nat → Bool :=
  keys.foldl (fun p k => if isButton k.1 then (fun c => if c = k.1 then k.2 else p c) else p) p

/-- Effect of one operation on the physical world. -/
def stepWorld (w : World) : Op → World
  | .frame t keys =>
    let p := applyKeys w.phys keys
    ⟨p, fun c => if p c ≠ w.phys c then t else w.changedAt c, max w.latest t⟩
  | .timer _ => w

/-- The world after a history. -/
def world (ops : List Op) : World := ops.foldl stepWorld start

/-- At most 16 key events per frame: the limit built into the code. -/
def AtMost16 (ops : List Op) : Prop :=
  ∀ t keys, Op.frame t keys ∈ ops → keys.length ≤ 16

/-- Kernel time stamps do not go backwards. -/
def FramesInOrder : List Op → Prop
  | [] => True
  | .frame t _ :: ops => (∀ t' keys, Op.frame t' keys ∈ ops → t ≤ t') ∧ FramesInOrder ops
  | .timer _ :: ops => FramesInOrder ops

end Libinput.Debounce.Spec
