import Verif.MiddleButton.Model
/-
What the user did with the physical buttons and with the setting, independent of the emulation code.
-/
namespace Libinput.MiddleButton.Spec

/-- Physical buttons, the configured setting, and the setting in effect: a new setting takes effect at
once if no button is held, and otherwise when the last button is released. -/
structure World where
  held : Nat → Bool
  want : Bool
  eff : Bool

/-- No mouse button (0x110..0x12f) is held. -/
def noneHeld (held : Nat → Bool) : Bool := (List.range 32).all (fun i => !held (0x110 + i))

/-- Effect of one operation. -/
def stepWorld (w : World) : Op → World
  | .button _ c d =>
    let held := fun b => if b = c then d else w.held b
    ⟨held, w.want, if noneHeld held then w.want else w.eff⟩
  | .timer _ => w
  | .set on => ⟨w.held, on, if noneHeld w.held then on else w.eff⟩

/-- The world after a history, starting with setting `en` and no button held. -/
def world (en : Bool) (ops : List Op) : World := ops.foldl stepWorld ⟨fun _ => false, en, en⟩

/-- The device really behaves like buttons: pressed only when up, released only when down, and the
codes are mouse button codes (`BTN_LEFT`..0x12f). -/
def ButtonsWellFormed (en : Bool) (ops : List Op) : Prop :=
  ∀ pre post t c d, ops = pre ++ .button t c d :: post →
    (world en pre).held c = !d ∧ 0x110 ≤ c ∧ c < 0x130

/-- Emulation is not switched on while it is out of effect and a button is held. -/
def EnabledOnlyAtRest (en : Bool) (ops : List Op) : Prop :=
  ∀ pre post, ops = pre ++ .set true :: post →
    (world en pre).eff = true ∨ ∀ b, (world en pre).held b = false

end Libinput.MiddleButton.Spec
