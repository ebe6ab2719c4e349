import Verif.TwoFinger.Model
import Verif.Together.Spec
import Verif.Axis.Spec
/-!
The words the properties of two-finger scrolling are stated with; `Together.Spec` has the mean of ways in mm, `Axis.Spec` the directions.
-/
namespace Libinput.TwoFinger.Spec
open Follow Follow.Spec Together.Spec

/-- What the middle of the fingers moves in a frame, in mm. -/
def middle (c : Config) (on : Nat → Bool) (f : Frame) : Axis.V :=
  ⟨meanX c (fingers f.ds.length on) (fun i => moved i f.ds), meanY c (fingers f.ds.length on) (fun i => moved i f.ds)⟩

/-- In each frame the middle of the fingers rests, or moves as `P` says. -/
def Always (c : Config) (on : Nat → Bool) (P : Axis.V → Prop) (fs : List Frame) : Prop := ∀ f ∈ fs, middle c on f = ⟨0, 0⟩ ∨ P (middle c on f)

end Libinput.TwoFinger.Spec
