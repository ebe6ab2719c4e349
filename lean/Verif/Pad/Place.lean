import Mathlib.Algebra.Order.Field.Rat
import Mathlib.Analysis.SpecialFunctions.Log.Base
import Mathlib.Tactic.Linarith
import Mathlib.Tactic.Ring
import Verif.Pad.Axes
/-
The positions on rings and strips as numbers.
-/
namespace Libinput.Pad

/-- The number a client gets for a position.  Real arithmetic instead of doubles.  Models: /repo/src/evdev-tablet-pad.c:163-175,
/repo/src/evdev-tablet-pad.c:196-216, /repo/src/evdev-tablet-pad.c:250-324. -/
noncomputable def Pos.value : Pos → ℝ
  | .up => -1
  | .angle d => (d : ℝ)
  | .slide v max flip =>
    if v = 0 then 0
    else
      let x := Real.logb 2 (v : ℝ) / Real.logb 2 (max : ℝ)
      if flip then 1 - x else x

/-- What a client is to get for a finger on an axis whose value is `v`: on a ring an angle of at least 0 and less than 360 degrees that
goes around once from one end of the axis to the other, begins on the left, and is turned by half for a left-handed pad; on a strip the
number of the bit that is set as a part of the number of the topmost bit, counted from the other end for a left-handed pad. -/
def Shows (cfg : Cfg) (left : Bool) (a : Abs) (v : Int) (x : ℝ) : Prop :=
  match a with
  | .ring1 | .ring2 => cfg.min a ≤ v → v ≤ cfg.max a → 0 ≤ x ∧ x < 360 ∧
      ∃ turns : Int, x = 360 * (v - cfg.min a) / (cfg.max a - cfg.min a + 1) - 90 + (if left then 180 else 0) + 360 * turns
  | _ => ∀ top : ℕ, cfg.max a = 2 ^ top → 1 ≤ top → (v = 0 → x = 0) ∧
      ∀ bit : ℕ, v = 2 ^ bit → (bit ≤ top → 0 ≤ x ∧ x ≤ 1) ∧ x = if left then 1 - (bit : ℝ) / top else (bit : ℝ) / top

theorem ring_shows (cfg : Cfg) (left : Bool) (a : Abs) (v : Int) (h1 : cfg.min a ≤ v) (h2 : v ≤ cfg.max a) :
    0 ≤ ringAngle cfg left a v ∧ ringAngle cfg left a v < 360 ∧
    ∃ turns : Int, ringAngle cfg left a v = 360 * ((v : Rat) - cfg.min a) / ((cfg.max a : Rat) - cfg.min a + 1) - 90 + (if left then 180 else 0) + 360 * turns := by
  unfold ringAngle
  have e1 : ((v - cfg.min a : Int) : Rat) = (v : Rat) - cfg.min a := by push_cast; ring
  have e2 : ((cfg.max a - cfg.min a + 1 : Int) : Rat) = (cfg.max a : Rat) - cfg.min a + 1 := by push_cast; ring
  rw [e1, e2]
  have d1 : (0 : Rat) ≤ (v : Rat) - cfg.min a := by
    have : (cfg.min a : Rat) ≤ v := by exact_mod_cast h1
    linarith
  have d2 : (v : Rat) - cfg.min a < (cfg.max a : Rat) - cfg.min a + 1 := by
    have : (v : Rat) ≤ cfg.max a := by exact_mod_cast h2
    linarith
  have d3 : (0 : Rat) < (cfg.max a : Rat) - cfg.min a + 1 := by linarith
  have q1 := div_nonneg d1 d3.le
  have q2 := (div_lt_one d3).2 d2
  have q3 : 360 * ((v : Rat) - cfg.min a) / ((cfg.max a : Rat) - cfg.min a + 1) = 360 * (((v : Rat) - cfg.min a) / ((cfg.max a : Rat) - cfg.min a + 1)) := by ring
  rw [q3]
  generalize ((v : Rat) - cfg.min a) / ((cfg.max a : Rat) - cfg.min a + 1) = q at q1 q2
  dsimp only
  cases left <;> simp only [Bool.false_eq_true, if_false, if_true]
  · split
    · exact ⟨by linarith, by linarith, 1, by push_cast; ring⟩
    · exact ⟨by linarith, by linarith, 0, by push_cast; ring⟩
  · split <;> split
    · exact ⟨by linarith, by linarith, 1, by push_cast; ring⟩
    · exact ⟨by linarith, by linarith, 0, by push_cast; ring⟩
    · exact ⟨by linarith, by linarith, 0, by push_cast; ring⟩
    · exact ⟨by linarith, by linarith, -1, by push_cast; ring⟩

theorem place_shows (cfg : Cfg) (left : Bool) (a : Abs) (ha : a ∈ axes) (v : Int) : Shows cfg left a v (place cfg left a v).value := by
  have ring : ∀ a, (cfg.min a ≤ v → v ≤ cfg.max a → 0 ≤ (Pos.angle (ringAngle cfg left a v)).value ∧ (Pos.angle (ringAngle cfg left a v)).value < 360 ∧
      ∃ turns : Int, (Pos.angle (ringAngle cfg left a v)).value = 360 * (v - cfg.min a) / (cfg.max a - cfg.min a + 1) - 90 + (if left then 180 else 0) + 360 * turns) := by
    intro a h1 h2
    obtain ⟨r1, r2, t, r3⟩ := ring_shows cfg left a v h1 h2
    refine ⟨?_, ?_, t, ?_⟩
    · simp only [Pos.value]; exact_mod_cast r1
    · simp only [Pos.value]; exact_mod_cast r2
    · simp only [Pos.value]
      rw [r3]
      cases left <;> push_cast <;> simp
  have strip : ∀ a, ∀ top : Nat, cfg.max a = 2 ^ top → 1 ≤ top → (v = 0 → (stripPos cfg left a v).value = 0) ∧
      ∀ bit : Nat, v = 2 ^ bit → (bit ≤ top → 0 ≤ (stripPos cfg left a v).value ∧ (stripPos cfg left a v).value ≤ 1) ∧
        (stripPos cfg left a v).value = if left then 1 - (bit : ℝ) / top else (bit : ℝ) / top := by
    intro a top ht h1
    refine ⟨fun h => by simp [stripPos, Pos.value, h], fun bit hb => ?_⟩
    have hv0 : v ≠ 0 := by rw [hb]; exact pow_ne_zero _ (by norm_num)
    have hval : (stripPos cfg left a v).value = if left then 1 - (bit : ℝ) / top else (bit : ℝ) / top := by
      have l1 : Real.logb 2 (v : ℝ) = bit := by
        rw [hb]; push_cast
        rw [Real.logb_pow, Real.logb_self_eq_one (by norm_num)]; ring
      have l2 : Real.logb 2 (cfg.max a : ℝ) = top := by
        rw [ht]; push_cast
        rw [Real.logb_pow, Real.logb_self_eq_one (by norm_num)]; ring
      have hb : (v != 0) = true := by simpa using hv0
      simp only [stripPos, Pos.value, if_neg hv0, l1, l2, hb, Bool.and_true]
    refine ⟨fun hle => ?_, hval⟩
    have ht0 : (0 : ℝ) < top := by exact_mod_cast h1
    have q1 : (0 : ℝ) ≤ (bit : ℝ) / top := by positivity
    have q2 : (bit : ℝ) / top ≤ 1 := (div_le_one ht0).2 (by exact_mod_cast hle)
    rw [hval]
    cases left <;> simp only [Bool.false_eq_true, if_false, if_true] <;> constructor <;> linarith
  simp only [axes, List.mem_cons, List.not_mem_nil, or_false] at ha
  rcases ha with rfl | rfl | rfl | rfl
  · exact ring _
  · exact ring _
  · exact strip _
  · exact strip _

theorem value_up : Pos.up.value = -1 := rfl

end Libinput.Pad
