import Verif.Accel.Model
/-!
C68: the constant filters of touchpads multiply.
-/
namespace Libinput.Together
open Accel

/-- A filter that touchpads have. -/
def Touchpads : Impl → Prop
  | .x230 _ | .touchpad _ | .touchpadFlat _ => True
  | _ => False

/-- C68.  The movement without acceleration of swipes and scrolling is the movement, times a number that depends on the filter alone. -/
theorem constant_multiplies (f : Filter) (h : Touchpads f.impl) : ∃ k : ℝ, ∀ d : V, f.constant d = some ⟨d.x * k, d.y * k⟩ := by
  unfold Filter.constant
  match hf : f.impl with
  | .x230 p => exact ⟨(defaultMouseDpi : ℝ) / p.dpi * (0.4 / 4), fun d => by simp only [normalizeForDpi, V.mul, Option.some.injEq, V.mk.injEq]; constructor <;> ring⟩
  | .touchpad p => exact ⟨(defaultMouseDpi : ℝ) / p.dpi * (0.9 * 0.2968), fun d => by simp only [normalizeForDpi, V.mul, Option.some.injEq, V.mk.injEq]; constructor <;> ring⟩
  | .touchpadFlat p => exact ⟨(defaultMouseDpi : ℝ) / p.dpi * 0.2968, fun d => by simp only [normalizeForDpi, V.mul, Option.some.injEq, V.mk.injEq]; constructor <;> ring⟩
  | .mouse _ | .lowDpi _ | .trackpoint _ | .flat _ | .tablet _ => rw [hf] at h; exact h.elim

/-- Non-vacuity. -/
example (s : ℝ) (p : Flat) : Touchpads (⟨s, .touchpadFlat p⟩ : Filter).impl := trivial

end Libinput.Together
