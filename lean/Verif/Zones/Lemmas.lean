import Verif.Zones.Spec
/-!
Units and millimetres.
-/
namespace Libinput.Zones
open Spec

theorem lt_of_lt_toInt {v : Int} {q : Rat} (h : v < toInt q) : (v : Rat) < q := by
  unfold toInt at h
  split at h
  · have : (v : Rat) < (q.floor : Rat) := Rat.intCast_lt_intCast.mpr h
    have := Rat.floor_le q
    grind
  · exact Rat.lt_ceil_iff.mp h

theorem lt_of_toInt_lt {v : Int} {q : Rat} (h : toInt q < v) : q < (v : Rat) := by
  unfold toInt at h
  split at h
  · exact Rat.floor_lt_iff.mp h
  · have : (q.ceil : Rat) < (v : Rat) := Rat.intCast_lt_intCast.mpr h
    have := Rat.le_ceil (x := q)
    grind

theorem toInt_le {v : Int} {q : Rat} (h : q ≤ (v : Rat)) : toInt q ≤ v := by
  have := fun c : v < toInt q => lt_of_lt_toInt c
  by_cases c : v < toInt q
  · have := lt_of_lt_toInt c; grind
  · omega

theorem le_toInt {v : Int} {q : Rat} (h : (v : Rat) ≤ q) : v ≤ toInt q := by
  by_cases c : toInt q < v
  · have := lt_of_toInt_lt c; grind
  · omega

theorem toInt_lt {v : Int} {q : Rat} (h : q + 1 ≤ (v : Rat)) : toInt q < v := by
  have e : ((v - 1 : Int) : Rat) = (v : Rat) - 1 := by simp [Rat.intCast_sub]
  have := toInt_le (v := v - 1) (q := q) (by rw [e]; grind)
  omega

theorem lt_toInt {v : Int} {q : Rat} (h : (v : Rat) ≤ q - 1) : v < toInt q := by
  have e : ((v + 1 : Int) : Rat) = (v : Rat) + 1 := by simp [Rat.intCast_add]
  have := le_toInt (v := v + 1) (q := q) (by rw [e]; grind)
  omega

/-- The resolution is positive. -/
def Good (a : Axis) : Prop := 0 < a.res

theorem Good.pos {a : Axis} (h : Good a) : (0 : Rat) < (a.res : Rat) := by
  have := Rat.intCast_lt_intCast.mpr h
  simpa using this

theorem mm_mul {a : Axis} (h : Good a) : mm a * (a.res : Rat) = (a.max : Rat) - (a.min : Rat) :=
  Rat.div_mul_cancel (Rat.ne_of_gt h.pos)
theorem from0_mul {a : Axis} (h : Good a) (v : Int) : from0 a v * (a.res : Rat) = (v : Rat) - (a.min : Rat) :=
  Rat.div_mul_cancel (Rat.ne_of_gt h.pos)
theorem unit_mul {a : Axis} (h : Good a) : unit a * (a.res : Rat) = 1 := Rat.div_mul_cancel (Rat.ne_of_gt h.pos)

/-- The two distances add up. -/
theorem from_add (a : Axis) (v : Int) : from0 a v + from1 a v = mm a := by
  unfold from0 from1 mm
  rw [Rat.div_def, Rat.div_def, Rat.div_def]
  grind

theorem size_mm (a : Axis) : size a = mm a := rfl

variable {a : Axis} {v : Int} {d : Rat}

theorem units_lt (h : Good a) (c : units a d < v) : d < from0 a v := by
  have := lt_of_toInt_lt c
  have e := from0_mul h v
  have p := h.pos
  exact (Rat.mul_lt_mul_right p).mp (by grind)

theorem lt_units (h : Good a) (c : v < units a d) : from0 a v < d := by
  have := lt_of_lt_toInt c
  have e := from0_mul h v
  have p := h.pos
  exact (Rat.mul_lt_mul_right p).mp (by grind)

theorem scale (h : Good a) {p q : Rat} (c : p ≤ q) : p * (a.res : Rat) ≤ q * (a.res : Rat) :=
  Rat.mul_le_mul_of_nonneg_right c (Rat.le_of_lt h.pos)

theorem units_le (h : Good a) (c : d ≤ from0 a v) : units a d ≤ v := by
  apply toInt_le
  have := scale h c
  have := from0_mul h v
  grind

theorem le_units (h : Good a) (c : from0 a v ≤ d) : v ≤ units a d := by
  apply le_toInt
  have := scale h c
  have := from0_mul h v
  grind

theorem units_lt_of (h : Good a) (c : d + unit a ≤ from0 a v) : units a d < v := by
  apply toInt_lt
  have := scale h c
  have := from0_mul h v
  have := unit_mul h
  grind

theorem lt_units_of (h : Good a) (c : from0 a v ≤ d - unit a) : v < units a d := by
  apply lt_toInt
  have := scale h c
  have := from0_mul h v
  have := unit_mul h
  grind

theorem of_units_le (h : Good a) (c : units a d ≤ v) : d < from0 a v + unit a := by
  by_cases e : from0 a v ≤ d - unit a
  · have := lt_units_of h e; omega
  · grind

theorem of_le_units (h : Good a) (c : v ≤ units a d) : from0 a v < d + unit a := by
  by_cases e : d + unit a ≤ from0 a v
  · have := units_lt_of h e; omega
  · grind

end Libinput.Zones
