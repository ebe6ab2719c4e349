import Verif.Tablet.Values
/-
C46: the values of tablet events are within their ranges.
-/
namespace Libinput.Tablet

/-! ### The parts of the tablet that are given from outside -/

/-- `adjust_tilt` for a device that does not state its resolution.  Models: /repo/src/evdev-tablet.c:384-410. -/
def plainTilt (r : Range) (v : Int) : Rat := (((v - r.min : Int) : Rat) / ((r.max - r.min : Int) : Rat) * 2 - 1) * 64

/-- The last steps of `convert_tilt_to_rotation`, `angle` being between -180 and 180.
Models: /repo/src/evdev-tablet.c:418-440. -/
def puckAngle (angle : Rat) : Rat := mod360 (360 + angle - 5)

theorem plainTilt_bound (r : Range) (v : Int) (h : r.min ≤ v ∧ v ≤ r.max) : -64 ≤ plainTilt r v ∧ plainTilt r v ≤ 64 := by
  have := ratio_bounds (v - r.min) (r.max - r.min) (by omega) (by omega)
  unfold plainTilt
  constructor <;> linarith [this.1, this.2]

theorem puckAngle_bound (angle : Rat) : 0 ≤ puckAngle angle ∧ puckAngle angle < 360 := mod360_ok _

/-! ### A tablet to try the theorems on -/

/-- A tablet with all axes. -/
def full : Cfg where
  has _ := true
  range a := match a with
    | .x => ⟨0, 44704, 0⟩
    | .y => ⟨0, 27940, 0⟩
    | .distance => ⟨0, 63, 0⟩
    | .pressure => ⟨0, 2047, 0⟩
    | .tiltX | .tiltY => ⟨0, 127, 0⟩
    | .rotation => ⟨-900, 899, 0⟩
    | .slider => ⟨0, 1023, 0⟩
    | .wheel => ⟨-1, 1, 0⟩
  toolCaps _ _ := [.x, .y, .distance, .pressure, .tiltX, .tiltY, .rotation, .slider, .wheel]
  tilt a v := plainTilt (match a with | .tiltX | .tiltY => ⟨0, 127, 0⟩ | _ => ⟨0, 0, 0⟩) v
  puck x _ := puckAngle x

/-- The axes of all events of a history. -/
def seen (cfg : Cfg) (ops : List Op) : List Axes :=
  (events (run cfg (start cfg (fun a => (cfg.range a).min) none 0 0) ops).2).map (fun e => e.data.axes)

/-- A pen comes, presses, and is lifted. -/
def strokes : List Op :=
  [.frame [.key 320 1, .abs .x 22352, .abs .y 27940, .abs .distance 63, .abs .tiltX 127, .abs .rotation 899] 1000,
   .frame [.abs .distance 0, .abs .pressure 2047, .abs .slider 1023] 2000,
   .frame [.abs .distance 63, .abs .pressure 0, .key 320 0] 3000]

/-! ### The theorems -/

/-- Whatever happens to a tablet, every value a client is given is within its documented range. -/
theorem values_in_range (cfg : Cfg) (b : Rat) (S : Sane cfg b) (raw : Axis → Int) (hr : ∀ a, InRange cfg a (raw a)) (tool : Option Kind)
    (id now : Nat) (ops : List Op) (h : ∀ op ∈ ops, op.InRange cfg) :
    ∀ e ∈ events (run cfg (start cfg raw tool id now) ops).2, Within cfg b e.data.axes :=
  run_fine S ops _ h (start_val S raw tool id now hr)

instance (cfg : Cfg) (a : Axis) (v : Int) : Decidable (InRange cfg a v) := by unfold InRange; infer_instance

theorem full_sane : Sane full 64 where
  size := by decide
  range a := by cases a <;> decide
  pressure := by decide
  quirk _ _ h := by cases h
  calib _ h1 h2 := ⟨h1, h2⟩
  bound := by decide
  tilt a v h := by
    cases a <;> first
      | exact plainTilt_bound ⟨0, 127, 0⟩ v h
      | (show -64 ≤ plainTilt ⟨0, 0, 0⟩ v ∧ plainTilt ⟨0, 0, 0⟩ v ≤ 64; simp [plainTilt])
  puck x _ := puckAngle_bound x

/-- The hypotheses of the theorem hold of a pen that comes, presses with all its might and leaves; the values reach both ends of
their ranges. -/
example : ∀ op ∈ strokes, op.InRange full := by
  intro op hop
  simp only [strokes, List.mem_cons, List.not_mem_nil, or_false] at hop
  rcases hop with rfl | rfl | rfl <;> intro a v hm <;> simp only [List.mem_cons, List.not_mem_nil, or_false, KEv.abs.injEq, reduceCtorEq, false_or] at hm <;>
    grind [InRange, full]

example : (seen full strokes).map (fun a => (a.pressure, a.distance, a.slider, a.tiltX)) =
    [(0, 1, -1, 64), (1, 0, 1, 64), (1, 0, 1, 64), (1, 0, 1, 64)] := by decide +kernel

/-! ### Where the hypotheses are needed -/

/-- A pressure range in the quirks file that ends above the maximum of the device makes pressures larger than 1. -/
theorem quirk_breaks_pressure :
    ∃ a ∈ seen { full with quirk := some (10, 3000) }
      [.frame [.key 320 1, .abs .x 100, .abs .y 100] 1000, .frame [.abs .pressure 500] 2000], 1 < a.pressure :=
  by decide +kernel

/-- A tablet with 255 levels of pressure. -/
def coarse : Cfg := { full with range := fun a => if a = .pressure then ⟨0, 255, 0⟩ else full.range a }

/-- A pen first used on another tablet, with 8192 levels of pressure, and then on this one: its thresholds are those of the other
tablet.  A light touch is reported as a pressure of more than 1, and the tip never goes down, however hard the pen is pressed. -/
theorem shared_pen_breaks_pressure :
    (∃ a ∈ seen coarse
      [.foreign { kind := .pen, serial := 77, caps := [.x, .y, .pressure, .distance], lower := 81, upper := 409 },
       .frame [.serial 77, .key 320 1, .abs .x 100, .abs .y 100] 1000, .frame [.abs .pressure 5] 2000], 1 < a.pressure) ∧
    ∀ e ∈ events (run coarse (start coarse (fun a => (coarse.range a).min) none 0 0)
      [.foreign { kind := .pen, serial := 77, caps := [.x, .y, .pressure, .distance], lower := 81, upper := 409 },
       .frame [.serial 77, .key 320 1, .abs .x 100, .abs .y 100] 1000, .frame [.abs .pressure 5] 2000,
       .frame [.abs .pressure 255] 3000]).2, e.data.tip = false :=
  ⟨by decide +kernel, by decide +kernel⟩

/-- A tablet whose coordinates begin at 100. -/
def margin : Cfg := { full with range := fun a => if a = .x then ⟨100, 10000, 0⟩ else full.range a }

/-- A pen that was near when the tablet was plugged in, and leaves in its first frame, is reported at 0, outside the tablet. -/
theorem unseen_pen_at_zero :
    (events (run margin (start margin (fun a => (margin.range a).min) (some .pen) 0 0) [.frame [.key 320 0] 1000]).2).map
      (fun e => e.data.axes.x) = [0, 0] := by decide +kernel

end Libinput.Tablet
