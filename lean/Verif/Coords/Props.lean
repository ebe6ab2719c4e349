import Verif.Coords.Spec
import Verif.Accel.Props
/-
C51: positions and movements are where the device, the calibration and the rotation say.
-/
namespace Libinput.Coords
open Accel (V)

theorem trunc_cut (r : ℝ) : IsCut r (trunc r) := by
  unfold IsCut trunc
  split
  · rename_i h
    have h1 : (0 : ℝ) ≤ ⌊r⌋ := by exact_mod_cast Int.floor_nonneg.mpr h
    have h2 := Int.floor_le r
    have h3 := Int.lt_floor_add_one r
    rw [abs_of_nonneg h1, abs_of_nonneg h]
    refine ⟨h2, ?_, mul_nonneg h h1⟩
    rw [abs_of_nonneg (by linarith)]; linarith
  · rename_i h
    have h := not_le.mp h
    have h1 : (⌈r⌉ : ℝ) ≤ 0 := by exact_mod_cast Int.ceil_le.mpr (by push_cast; exact h.le)
    have h2 := Int.le_ceil r
    have h3 := Int.ceil_lt_add_one r
    rw [abs_of_nonpos h1, abs_of_neg h]
    refine ⟨by linarith, ?_, mul_nonneg_of_nonpos_of_nonpos h.le h1⟩
    rw [abs_of_nonpos (by linarith)]; linarith

theorem trunc_int (z : Int) : trunc z = z := by
  unfold trunc
  split <;> simp

theorem cut_unique {r : ℝ} {a b : Int} (h1 : IsCut r a) (h2 : IsCut r b) : a = b := by
  obtain ⟨a1, a2, a3⟩ := h1
  obtain ⟨b1, b2, b3⟩ := h2
  rw [abs_lt] at a2 b2
  rcases lt_trichotomy r 0 with h | h | h
  · have ha : (a : ℝ) ≤ 0 := by by_contra hc; exact absurd a3 (not_le.mpr (mul_neg_of_neg_of_pos h (not_le.mp hc)))
    have hb : (b : ℝ) ≤ 0 := by by_contra hc; exact absurd b3 (not_le.mpr (mul_neg_of_neg_of_pos h (not_le.mp hc)))
    rw [abs_of_nonpos ha, abs_of_neg h] at a1
    rw [abs_of_nonpos hb, abs_of_neg h] at b1
    have : (a : ℝ) < b + 1 := by linarith
    have : (b : ℝ) < a + 1 := by linarith
    have : a < b + 1 := by exact_mod_cast ‹(a : ℝ) < b + 1›
    have : b < a + 1 := by exact_mod_cast ‹(b : ℝ) < a + 1›
    omega
  · subst h
    rw [abs_zero] at a1 b1
    have := abs_nonpos_iff.mp a1
    have := abs_nonpos_iff.mp b1
    have h1 : a = 0 := by exact_mod_cast ‹(a : ℝ) = 0›
    have h2 : b = 0 := by exact_mod_cast this
    rw [h1, h2]
  · have ha : 0 ≤ (a : ℝ) := by by_contra hc; exact absurd a3 (not_le.mpr (mul_neg_of_pos_of_neg h (not_le.mp hc)))
    have hb : 0 ≤ (b : ℝ) := by by_contra hc; exact absurd b3 (not_le.mpr (mul_neg_of_pos_of_neg h (not_le.mp hc)))
    rw [abs_of_nonneg ha, abs_of_pos h] at a1
    rw [abs_of_nonneg hb, abs_of_pos h] at b1
    have h3 : (a : ℝ) < b + 1 := by linarith
    have h4 : (b : ℝ) < a + 1 := by linarith
    have : a < b + 1 := by exact_mod_cast h3
    have : b < a + 1 := by exact_mod_cast h4
    omega

/-! ### Calibration -/

theorem ofSix_identity (m : Six) : (Mat.ofSix m).isIdentity ↔ m = noCalibration := by
  unfold Mat.isIdentity Mat.ofSix noCalibration
  constructor
  · rintro ⟨h1, h2, h3, h4, h5, h6, -⟩
    cases m
    simp_all
  · rintro rfl
    simp

/-- The axes after a matrix was set. -/
structure Calib (a : Abs) (rx ry : Range) (m : Six) : Prop where
  isRx : a.rx = rx
  isRy : a.ry = ry
  user : a.user = Mat.ofSix m
  applies : a.applies = true ↔ m ≠ noCalibration
  matrix : a.applies = true → ∀ p : P,
    p.x * a.calibration.v00 + p.y * a.calibration.v01 + a.calibration.v02 = rx.min + rx.size * (m.apply rx ry p).1 ∧
    p.x * a.calibration.v10 + p.y * a.calibration.v11 + a.calibration.v12 = ry.min + ry.size * (m.apply rx ry p).2

theorem calibrate_calib {a : Abs} {rx ry : Range} (h1 : a.rx = rx) (h2 : a.ry = ry) (hx : rx.min < rx.max) (hy : ry.min < ry.max) (m : Six) :
    Calib (a.calibrate m) rx ry m := by
  subst h1 h2
  by_cases hm : m = noCalibration
  · have hi := (ofSix_identity m).mpr hm
    have e : a.calibrate m = { a with applies := false, user := Mat.ofSix m, calibration := Mat.identity } := by
      unfold Abs.calibrate; simp [hi]
    rw [e]
    exact ⟨rfl, rfl, rfl, by simp [hm], fun h => by cases h⟩
  · have hi := (not_congr (ofSix_identity m)).mpr hm
    have hsx : (0 : ℝ) < a.rx.max - a.rx.min + 1 := by
      have : (a.rx.min : ℝ) < a.rx.max := by exact_mod_cast hx
      linarith
    have hsy : (0 : ℝ) < a.ry.max - a.ry.min + 1 := by
      have : (a.ry.min : ℝ) < a.ry.max := by exact_mod_cast hy
      linarith
    unfold Abs.calibrate
    simp only [hi, not_false_eq_true, decide_true, Bool.true_eq_false, if_false]
    refine ⟨rfl, rfl, rfl, by simp [hm], fun _ p => ?_⟩
    simp only [Mat.mult, Mat.translate, Mat.scale, Mat.identity, Mat.ofSix, Six.apply, Range.part, Range.size]
    have h1 := hsx.ne'
    have h2 := hsy.ne'
    constructor <;> field_simp <;> ring

theorem transform_calibrated {a : Abs} {rx ry : Range} {m : Six} (hx : rx.min < rx.max) (hy : ry.min < ry.max) (h : Calib a rx ry m) (p : P) :
    IsCalibrated m rx ry p (a.transform p) := by
  have hsx : (0 : ℝ) < rx.max - rx.min + 1 := by
    have : (rx.min : ℝ) < rx.max := by exact_mod_cast hx
    linarith
  have hsy : (0 : ℝ) < ry.max - ry.min + 1 := by
    have : (ry.min : ℝ) < ry.max := by exact_mod_cast hy
    linarith
  unfold Abs.transform
  cases ha : a.applies with
  | true =>
    simp only [if_true]
    refine ⟨fun hm => absurd hm (h.applies.mp ha), ?_, ?_⟩
    · unfold Mat.multVec; dsimp only; rw [(h.matrix ha p).1]; exact trunc_cut _
    · unfold Mat.multVec; dsimp only; rw [(h.matrix ha p).2]; exact trunc_cut _
  | false =>
    have hm : m = noCalibration := by
      by_contra hc
      have := h.applies.mpr hc
      rw [ha] at this; cases this
    simp only [Bool.false_eq_true, if_false]
    subst hm
    refine ⟨fun _ => rfl, ?_, ?_⟩
    · have e : (rx.min : ℝ) + rx.size * (noCalibration.apply rx ry p).1 = p.x := by
        simp only [noCalibration, Six.apply, Range.part, Range.size]
        have := hsx.ne'
        field_simp; ring
      rw [e]
      exact ⟨le_refl _, by simp, mul_self_nonneg _⟩
    · have e : (ry.min : ℝ) + ry.size * (noCalibration.apply rx ry p).2 = p.y := by
        simp only [noCalibration, Six.apply, Range.part, Range.size]
        have := hsy.ne'
        field_simp; ring
      rw [e]
      exact ⟨le_refl _, by simp, mul_self_nonneg _⟩

/-! ### Rotation -/

theorem rotate_turned (a : Nat) (h : a = 0 ∨ a = 90 ∨ a = 180 ∨ a = 270) (p : P) : (Mat.rotate a).multVec p = turned p a := by
  have e90 : Real.pi * (90 : ℕ) / 180 = Real.pi / 2 := by push_cast; ring
  have e180 : Real.pi * (180 : ℕ) / 180 = Real.pi := by push_cast; ring
  have e270 : Real.pi * (270 : ℕ) / 180 = Real.pi / 2 + Real.pi := by push_cast; ring
  have cut : ∀ z : Int, trunc (z : ℝ) = z := trunc_int
  rcases h with rfl | rfl | rfl | rfl
  · unfold Mat.rotate Mat.multVec turned Mat.identity
    simp only [Nat.cast_zero, mul_zero, zero_div, Real.sin_zero, Real.cos_zero, neg_zero, mul_one, add_zero, zero_add]
    rw [cut, cut]; rfl
  · unfold Mat.rotate Mat.multVec turned Mat.identity
    simp only [e90, Real.sin_pi_div_two, Real.cos_pi_div_two, mul_one, add_zero, mul_zero, zero_add, mul_neg]
    rw [show -(p.y : ℝ) = ((-p.y : Int) : ℝ) by push_cast; rfl, cut, cut]
    rfl
  · unfold Mat.rotate Mat.multVec turned Mat.identity
    simp only [e180, Real.sin_pi, Real.cos_pi, mul_one, add_zero, mul_zero, zero_add, mul_neg, neg_zero]
    rw [show -(p.x : ℝ) = ((-p.x : Int) : ℝ) by push_cast; rfl, show -(p.y : ℝ) = ((-p.y : Int) : ℝ) by push_cast; rfl, cut, cut]
    rfl
  · unfold Mat.rotate Mat.multVec turned Mat.identity
    simp only [e270, Real.sin_add_pi, Real.cos_add_pi, Real.sin_pi_div_two, Real.cos_pi_div_two, mul_one, add_zero, mul_zero, zero_add, mul_neg, neg_zero, neg_neg]
    rw [show -(p.x : ℝ) = ((-p.x : Int) : ℝ) by push_cast; rfl, cut, cut]
    simp [quarter]

/-! ### The state after a history -/

/-- The device and what is known of it. -/
structure Inv (hw : Hw) (d : Dev) (w : World) : Prop where
  same : d.hw = hw
  noAbs : hw.abs = none → d.abs = none
  axes : ∀ r, hw.abs = some r → ∃ a, d.abs = some a ∧ Calib a r.1 r.2 w.matrix ∧ a.dflt = Mat.ofSix (hw.prop.getD noCalibration)
  angle : w.angle = 0 ∨ w.angle = 90 ∨ w.angle = 180 ∨ w.angle = 270
  told : d.angle = w.angle
  still : hw.turns = false → w.angle = 0
  matrix : hw.turns = true → ∀ p, d.matrix.multVec p = turned p w.angle
  filter : ∃ f, hw.accel.filter 0 = some f ∧ f.run w.moves = some d.filter
  rel : d.rel = w.rel
  moved : d.relPending = w.moved
  rest : w.moved = false → w.rel = ⟨0, 0⟩
  pointer : w.moved = true → hw.pointer = true
  point : d.point = w.point
  placed : d.absPending = w.placed

theorem calibrate_dflt (a : Abs) (v : Six) : (a.calibrate v).dflt = a.dflt := by
  unfold Abs.calibrate
  dsimp only
  split <;> rfl

theorem new_dflt (rx ry : Range) (prop : Option Six) : (Abs.new rx ry prop).dflt = Mat.ofSix (prop.getD noCalibration) := by
  unfold Abs.new
  cases prop with
  | none => unfold Mat.identity Mat.ofSix noCalibration; rfl
  | some v => exact calibrate_dflt _ v

theorem new_calib (rx ry : Range) (prop : Option Six) (hx : rx.min < rx.max) (hy : ry.min < ry.max) :
    Calib (Abs.new rx ry prop) rx ry (prop.getD noCalibration) := by
  unfold Abs.new
  cases prop with
  | none =>
    refine ⟨rfl, rfl, ?_, by simp, fun h => by cases h⟩
    unfold Mat.identity Mat.ofSix noCalibration; rfl
  | some v => exact calibrate_calib rfl rfl hx hy v

theorem init_inv {hw : Hw} (hv : hw.Valid) {p : P} {d : Dev} (h : hw.dev p = some d) : Inv hw d (World.init hw p) := by
  unfold Hw.dev at h
  cases hf : hw.accel.filter 0 with
  | none => rw [hf] at h; cases h
  | some f =>
    rw [hf] at h
    obtain rfl := Option.some.inj h
    refine ⟨rfl, fun h => by simp [h], fun r hr => ?_, Or.inl rfl, rfl, fun _ => rfl, fun _ p => ?_, ⟨f, hf, rfl⟩, rfl, rfl, fun _ => rfl, (fun h => by cases h), rfl, rfl⟩
    · obtain ⟨a1, a2, -⟩ := hv.axes r hr
      exact ⟨Abs.new r.1 r.2 hw.prop, by simp [hr], new_calib _ _ _ a1 a2, new_dflt _ _ _⟩
    · unfold Mat.multVec Mat.identity turned World.init
      simp only [mul_one, mul_zero, add_zero, zero_add, trunc_int]
      rfl

theorem rotateRelative_eq {hw : Hw} {d : Dev} {w : World} (h : Inv hw d w) : d.rotateRelative = { d with rel := w.delta } := by
  obtain rfl := h.same
  unfold Dev.rotateRelative World.delta
  cases ht : d.hw.turns with
  | false =>
    simp only [if_true]
    rw [h.still ht]
    have : turned w.rel 0 = d.rel := by rw [h.rel]; rfl
    rw [this]
  | true =>
    simp only [Bool.true_eq_false, if_false]
    rw [h.matrix ht, h.rel]

theorem zero_iff (hw : Hw) (hv : hw.Valid) (p : P) : isZero ⟨(p.x : ℝ) * 1000 / hw.accel.dpi, (p.y : ℝ) * 1000 / hw.accel.dpi⟩ ↔ p = ⟨0, 0⟩ := by
  have hd : (hw.accel.dpi : ℝ) ≠ 0 := by exact_mod_cast hv.dpi.ne'
  unfold isZero
  constructor
  · rintro ⟨h1, h2⟩
    dsimp only at h1 h2
    have a1 : (p.x : ℝ) = 0 := by
      rcases div_eq_zero_iff.mp h1 with h | h
      · linarith
      · exact absurd h hd
    have a2 : (p.y : ℝ) = 0 := by
      rcases div_eq_zero_iff.mp h2 with h | h
      · linarith
      · exact absurd h hd
    cases p
    simp only [P.mk.injEq]
    exact ⟨by exact_mod_cast a1, by exact_mod_cast a2⟩
  · rintro rfl
    simp

theorem V_zero {v : V} (h : v = ⟨0, 0⟩) : isZero v := by subst h; exact ⟨rfl, rfl⟩

/-- The pointer acceleration makes nothing out of nothing. -/
theorem filter_zero {hw : Accel.Hw} {f e : Accel.Filter} {ms : List Accel.Op} (hf : hw.filter 0 = some f) (he : f.run ms = some e) (t : Nat) :
    isZero (e.dispatch false ⟨0, 0⟩ t).1 := by
  obtain ⟨last, h1, h2, -⟩ := Accel.run_at ms hf he
  obtain ⟨v, -, ho, -⟩ := Accel.dispatch_at h2 false ⟨0, 0⟩ t
  rw [ho]
  unfold isZero Accel.V.mul Accel.Hw.natural
  cases hw.kind <;> simp

theorem raw_zero {p : P} (h : p = ⟨0, 0⟩) : p.raw = ⟨0, 0⟩ := by subst h; simp [P.raw]

theorem flushRelative_eq {hw : Hw} (hv : hw.Valid) {d : Dev} {w : World} (h : Inv hw d w) (hp : hw.pointer = true)
    (hf : ∃ f, hw.accel.filter 0 = some f ∧ f.run w.moves = some d.filter) (t : Nat) (scrolling : Bool) :
    d.flushRelative t scrolling =
      (if scrolling then [.scroll t ⟨w.delta.x * 1000 / hw.accel.dpi, w.delta.y * 1000 / hw.accel.dpi⟩]
        else if w.delta = ⟨0, 0⟩ then [] else [.motion t (d.filter.dispatch false w.delta.raw t).1 w.delta.raw],
       { d with rel := ⟨0, 0⟩, filter := if scrolling then d.filter else (d.filter.dispatch false w.delta.raw t).2 }) := by
  obtain ⟨f, hf1, hf2⟩ := hf
  obtain rfl := h.same
  unfold Dev.flushRelative
  rw [rotateRelative_eq h, if_neg (by rw [hp]; simp)]
  dsimp only [Dev.normalizeDelta]
  cases scrolling with
  | true => simp
  | false =>
    have hraw : (⟨(w.delta.x : ℝ), (w.delta.y : ℝ)⟩ : V) = w.delta.raw := rfl
    simp only [Bool.false_eq_true, if_false, hraw]
    have hz := zero_iff d.hw hv w.delta
    by_cases h0 : w.delta = ⟨0, 0⟩
    · rw [if_pos ⟨by rw [show (⟨(w.delta.x : ℝ), (w.delta.y : ℝ)⟩ : V) = ⟨0, 0⟩ from raw_zero h0]; exact filter_zero hf1 hf2 t, hz.mpr h0⟩, if_pos h0]
    · rw [if_neg (fun h => h0 (hz.mp h.2)), if_neg h0]

theorem syn_inv {hw : Hw} (hv : hw.Valid) {d : Dev} {w : World} (h : Inv hw d w) (t : Nat) (scrolling : Bool) :
    Inv hw (d.handleState t scrolling).2 (w.step hw (.syn t scrolling)) ∧
    ∃ o1 o2, (d.handleState t scrolling).1 = o1 ++ o2 ∧
      o1 = (if w.moved = true then
        if scrolling then [.scroll t ⟨w.delta.x * 1000 / hw.accel.dpi, w.delta.y * 1000 / hw.accel.dpi⟩]
        else if w.delta = ⟨0, 0⟩ then [] else [.motion t (d.filter.dispatch false w.delta.raw t).1 w.delta.raw]
        else []) ∧
      o2 = (match d.abs with
        | some a => if w.placed = true ∧ hw.pointer = true then [.absolute t (a.transform w.point)] else []
        | none => []) := by
  have hflush : ∀ d' : Dev, d'.hw = hw → d'.abs = d.abs → d'.point = w.point → d'.absPending = w.placed →
      (if d'.absPending then d'.flushAbsolute t else []) = (match d.abs with
        | some a => if w.placed = true ∧ hw.pointer = true then [Out.absolute t (a.transform w.point)] else []
        | none => []) := by
    intro d' h1 h2 h3 h4
    unfold Dev.flushAbsolute
    rw [h1, h2, h3, h4]
    cases d.abs <;> cases w.placed <;> cases hw.pointer <;> simp
  obtain ⟨f, hf1, hf2⟩ := h.filter
  unfold Dev.handleState
  cases hm : w.moved with
  | false =>
    simp only [h.moved, hm, Bool.false_eq_true, if_false, List.nil_append]
    refine ⟨?_, [], _, rfl, rfl, hflush d h.same rfl h.point h.placed⟩
    unfold World.step
    simp only [hm, Bool.false_eq_true, false_and, if_false]
    exact ⟨h.same, h.noAbs, h.axes, h.angle, h.told, h.still, h.matrix, ⟨f, hf1, hf2⟩, by rw [← h.rest hm]; exact h.rel, rfl, fun _ => rfl, (fun h => by cases h), h.point, rfl⟩
  | true =>
    simp only [h.moved, hm, if_true]
    have hi : ∀ (g : Accel.Filter) (ms : List Accel.Op), f.run ms = some g →
        Inv hw { d with rel := ⟨0, 0⟩, filter := g, relPending := false, absPending := false }
          { w with rel := ⟨0, 0⟩, moved := false, placed := false, moves := ms } := fun g ms hg =>
      ⟨h.same, h.noAbs, h.axes, h.angle, h.told, h.still, h.matrix, ⟨f, hf1, hg⟩, rfl, rfl, fun _ => rfl, (fun h => by cases h), h.point, rfl⟩
    rw [flushRelative_eq hv h (h.pointer hm) ⟨f, hf1, hf2⟩]
    cases scrolling with
    | true =>
      have e : w.step hw (.syn t true) = { w with rel := ⟨0, 0⟩, moved := false, placed := false, moves := w.moves } := by
        unfold World.step; simp
      rw [e]
      exact ⟨hi _ _ hf2, _, _, rfl, rfl, hflush { d with rel := ⟨0, 0⟩ } h.same rfl h.point h.placed⟩
    | false =>
      have e : w.step hw (.syn t false) = { w with rel := ⟨0, 0⟩, moved := false, placed := false, moves := w.moves ++ [.move false w.delta.raw t] } := by
        unfold World.step; simp [hm]
      rw [e]
      have hfil : f.run (w.moves ++ [.move false w.delta.raw t]) = some (d.filter.dispatch false w.delta.raw t).2 := by
        rw [Accel.run_snoc, hf2]; rfl
      exact ⟨hi _ _ hfil, _, _, rfl, rfl, hflush { d with rel := ⟨0, 0⟩, filter := (d.filter.dispatch false w.delta.raw t).2 } h.same rfl h.point h.placed⟩

theorem angle_iff (a : Nat) : ¬ (a ≥ 360 ∨ a % 90 ≠ 0) ↔ (a = 0 ∨ a = 90 ∨ a = 180 ∨ a = 270) := by omega

theorem step_inv {hw : Hw} (hv : hw.Valid) {d d' : Dev} {w : World} (h : Inv hw d w) {op : Op} {out : List Out} (hs : d.step op = some (out, d')) :
    Inv hw d' (w.step hw op) := by
  cases op with
  | relX v =>
    simp only [Dev.step, Option.some.injEq, Prod.mk.injEq] at hs
    obtain ⟨-, rfl⟩ := hs
    obtain rfl := h.same
    unfold Dev.processRel World.step
    cases hp : d.hw.pointer with
    | false => simpa using h
    | true =>
      simp only [Bool.true_eq_false, if_false, if_true]
      exact ⟨h.same, h.noAbs, h.axes, h.angle, h.told, h.still, h.matrix, h.filter, by simp [h.rel], rfl, (fun h => by cases h), fun _ => hp, h.point, h.placed⟩
  | relY v =>
    simp only [Dev.step, Option.some.injEq, Prod.mk.injEq] at hs
    obtain ⟨-, rfl⟩ := hs
    obtain rfl := h.same
    unfold Dev.processRel World.step
    cases hp : d.hw.pointer with
    | false => simpa using h
    | true =>
      simp only [Bool.true_eq_false, if_false, if_true]
      exact ⟨h.same, h.noAbs, h.axes, h.angle, h.told, h.still, h.matrix, h.filter, by simp [h.rel], rfl, (fun h => by cases h), fun _ => hp, h.point, h.placed⟩
  | absX v =>
    simp only [Dev.step, Option.some.injEq, Prod.mk.injEq] at hs
    obtain ⟨-, rfl⟩ := hs
    exact ⟨h.same, h.noAbs, h.axes, h.angle, h.told, h.still, h.matrix, h.filter, h.rel, h.moved, h.rest, h.pointer, by simp [World.step, h.point], rfl⟩
  | absY v =>
    simp only [Dev.step, Option.some.injEq, Prod.mk.injEq] at hs
    obtain ⟨-, rfl⟩ := hs
    exact ⟨h.same, h.noAbs, h.axes, h.angle, h.told, h.still, h.matrix, h.filter, h.rel, h.moved, h.rest, h.pointer, by simp [World.step, h.point], rfl⟩
  | syn t sc =>
    simp only [Dev.step, Option.some.injEq] at hs
    have := (syn_inv hv h t sc).1
    rw [hs] at this
    exact this
  | setMatrix v =>
    simp only [Dev.step, Option.some.injEq, Prod.mk.injEq] at hs
    obtain ⟨-, rfl⟩ := hs
    refine ⟨h.same, fun hn => by simp [Dev.setMatrix, h.noAbs hn], fun r hr => ?_, h.angle, h.told, h.still, h.matrix, h.filter, h.rel, h.moved, h.rest, h.pointer, h.point, h.placed⟩
    obtain ⟨a, ha, hc, hdf⟩ := h.axes r hr
    obtain ⟨a1, a2, -⟩ := hv.axes r hr
    exact ⟨a.calibrate v, by simp [Dev.setMatrix, ha], calibrate_calib hc.isRx hc.isRy a1 a2 v, by rw [calibrate_dflt, hdf]⟩
  | setAngle a =>
    simp only [Dev.step, Option.some.injEq, Prod.mk.injEq] at hs
    obtain ⟨-, rfl⟩ := hs
    obtain rfl := h.same
    unfold Dev.setAngle World.step
    cases ht : d.hw.turns with
    | false => simpa using h
    | true =>
      simp only [Bool.true_eq_false, if_false]
      by_cases ha : a = 0 ∨ a = 90 ∨ a = 180 ∨ a = 270
      · rw [if_neg ((angle_iff a).mpr ha), if_pos ⟨trivial, ha⟩]
        exact ⟨h.same, h.noAbs, h.axes, ha, rfl, (fun hf => by rw [ht] at hf; cases hf), fun _ p => rotate_turned a ha p, h.filter, h.rel, h.moved, h.rest, h.pointer, h.point, h.placed⟩
      · rw [if_pos (by by_contra hc; exact ha ((angle_iff a).mp hc)), if_neg (fun h => ha h.2)]
        exact h
  | setSpeed s =>
    unfold Dev.step at hs
    dsimp only [Dev.setSpeed] at hs
    unfold World.step
    dsimp only
    by_cases hsp : Accel.IsSpeed s
    · have h1 : ¬ ¬ (-1 ≤ s ∧ s ≤ 1) := not_not.mpr hsp
      rw [if_neg h1] at hs
      rw [if_pos hsp]
      cases hf : d.filter.setSpeed s with
      | none => rw [hf] at hs; cases hs
      | some f =>
        rw [hf] at hs
        simp only [Option.some.injEq, Prod.mk.injEq] at hs
        obtain ⟨-, rfl⟩ := hs
        obtain ⟨f0, hf1, hf2⟩ := h.filter
        exact ⟨h.same, h.noAbs, h.axes, h.angle, h.told, h.still, h.matrix, ⟨f0, hf1, by rw [Accel.run_snoc, hf2]; exact hf⟩, h.rel, h.moved, h.rest, h.pointer, h.point, h.placed⟩
    · have h1 : ¬ (-1 ≤ s ∧ s ≤ 1) := hsp
      rw [if_pos h1] at hs
      rw [if_neg hsp]
      simp only [Option.some.injEq, Prod.mk.injEq] at hs
      obtain ⟨-, rfl⟩ := hs
      exact h

theorem run_inv {hw : Hw} (hv : hw.Valid) {d d' : Dev} {w : World} (ops : List Op) (h : Inv hw d w) {out : List Out}
    (hs : d.run ops = some (out, d')) : Inv hw d' (ops.foldl (World.step hw) w) := by
  induction ops generalizing d w out with
  | nil =>
    simp only [Dev.run, Option.some.injEq, Prod.mk.injEq] at hs
    obtain ⟨-, rfl⟩ := hs
    exact h
  | cons op ops ih =>
    unfold Dev.run at hs
    cases h1 : d.step op with
    | none => rw [h1] at hs; cases hs
    | some r =>
      rw [h1] at hs
      dsimp only at hs
      cases h2 : r.2.run ops with
      | none => rw [h2] at hs; cases hs
      | some r' =>
        rw [h2] at hs
        simp only [Option.some.injEq, Prod.mk.injEq] at hs
        obtain ⟨-, rfl⟩ := hs
        exact ih (step_inv hv h (out := r.1) (d' := r.2) h1) (out := r'.1) (by rw [h2])

/-! ### The properties -/

/-- C51.  No assertion fails. -/
theorem devices_run (hw : Hw) (p : P) (ops : List Op) : ∃ d out d', hw.dev p = some d ∧ d.run ops = some (out, d') := by
  obtain ⟨f, hf⟩ := Accel.setSpeed_some hw.accel.create 0 ⟨by norm_num, by norm_num⟩
  have step : ∀ (d : Dev) op, ∃ r, d.step op = some r := by
    intro d op
    cases op with
    | setSpeed s =>
      unfold Dev.step
      dsimp only [Dev.setSpeed]
      by_cases hsp : -1 ≤ s ∧ s ≤ 1
      · obtain ⟨f, hf⟩ := Accel.setSpeed_some d.filter s hsp
        rw [if_neg (not_not.mpr hsp), hf]
        exact ⟨_, rfl⟩
      · rw [if_pos hsp]; exact ⟨_, rfl⟩
    | _ => exact ⟨_, rfl⟩
  have run : ∀ ops (d : Dev), ∃ r, d.run ops = some r := by
    intro ops
    induction ops with
    | nil => exact fun d => ⟨_, rfl⟩
    | cons op ops ih =>
      intro d
      obtain ⟨⟨o, d1⟩, h1⟩ := step d op
      obtain ⟨⟨o2, d2⟩, h2⟩ := ih d1
      unfold Dev.run
      rw [h1]; dsimp only; rw [h2]
      exact ⟨_, rfl⟩
  have hd : ∃ d, hw.dev p = some d := by
    unfold Hw.dev Accel.Hw.filter
    rw [hf]
    exact ⟨_, rfl⟩
  obtain ⟨d, hd⟩ := hd
  obtain ⟨⟨o, d'⟩, hr⟩ := run ops d
  exact ⟨d, o, d', hd, hr⟩

/-- C51.  After every history, a point of the device is calibrated by the matrix set last: this is where absolute
movements, touches and pens are. -/
theorem points_are_calibrated (hw : Hw) (hv : hw.Valid) {p : P} {d d' : Dev} {ops : List Op} {out : List Out} (hd : hw.dev p = some d)
    (hr : d.run ops = some (out, d')) {r : Range × Range} (ha : hw.abs = some r) :
    ∃ a, d'.abs = some a ∧ ∀ q, IsCalibrated (World.after hw p ops).matrix r.1 r.2 q (a.transform q) := by
  obtain ⟨a, h1, h2, -⟩ := (run_inv hv ops (init_inv hv hd) hr).axes r ha
  obtain ⟨a1, a2, -⟩ := hv.axes r ha
  exact ⟨a, h1, fun q => transform_calibrated a1 a2 h2 q⟩

open Classical in
/-- C51.  The client is told the matrix set last, the default one, which is that of the system, and the angle. -/
theorem settings_are_told (hw : Hw) (hv : hw.Valid) {p : P} {d d' : Dev} {ops : List Op} {out : List Out} (hd : hw.dev p = some d)
    (hr : d.run ops = some (out, d')) :
    d'.angle = (World.after hw p ops).angle ∧
    ∀ r, hw.abs = some r → ∃ a, d'.abs = some a ∧ a.getMatrix = ((World.after hw p ops).matrix, decide ((World.after hw p ops).matrix ≠ noCalibration)) ∧
      a.getDefaultMatrix = (hw.prop.getD noCalibration, decide (hw.prop.getD noCalibration ≠ noCalibration)) := by
  have hi := run_inv hv ops (init_inv hv hd) hr
  refine ⟨hi.told, fun r ha => ?_⟩
  obtain ⟨a, h1, h2, h3⟩ := hi.axes r ha
  refine ⟨a, h1, ?_, ?_⟩
  · unfold Abs.getMatrix
    rw [h2.user]
    simp only [ofSix_identity]
    rfl
  · unfold Abs.getDefaultMatrix
    rw [h3]
    simp only [ofSix_identity]
    rfl

/-- C51.  After every history, a report tells the movement since the last report, turned by the angle set last, and accelerated as the pointer acceleration
does it that was given the same movements; and the position, calibrated by the matrix set last.  No movement is lost, told twice or made up. -/
theorem reports_tell_movements (hw : Hw) (hv : hw.Valid) {p : P} {d d' : Dev} {ops : List Op} {out : List Out} (hd : hw.dev p = some d)
    (hr : d.run ops = some (out, d')) (t : Nat) (scrolling : Bool) :
    let w := World.after hw p ops
    ∃ f e a o1 o2, hw.accel.filter 0 = some f ∧ f.run w.moves = some e ∧ d'.step (.syn t scrolling) = some (o1 ++ o2, a) ∧
      o1 = (if w.moved = true then
        if scrolling then [.scroll t ⟨w.delta.x * 1000 / hw.accel.dpi, w.delta.y * 1000 / hw.accel.dpi⟩]
        else if w.delta = ⟨0, 0⟩ then [] else [.motion t (e.dispatch false w.delta.raw t).1 w.delta.raw]
        else []) ∧
      (w.placed = true → hw.pointer = true → ∀ r, hw.abs = some r →
        ∃ q, o2 = [.absolute t q] ∧ IsCalibrated w.matrix r.1 r.2 w.point q) ∧
      (w.placed = false ∨ hw.pointer = false ∨ hw.abs = none → o2 = []) := by
  intro w
  have hi := run_inv hv ops (init_inv hv hd) hr
  obtain ⟨-, o1, o2, h1, h2, h3⟩ := syn_inv hv hi t scrolling
  obtain ⟨f, hf1, hf2⟩ := hi.filter
  refine ⟨f, d'.filter, (d'.handleState t scrolling).2, o1, o2, hf1, hf2, ?_, h2, fun hp hc r hr => ?_, fun hp => ?_⟩
  · show some (d'.handleState t scrolling) = some (o1 ++ o2, (d'.handleState t scrolling).2)
    rw [← h1]
  · obtain ⟨a, ha1, ha2, -⟩ := hi.axes r hr
    obtain ⟨a1, a2, -⟩ := hv.axes r hr
    rw [ha1] at h3
    dsimp only at h3
    rw [if_pos ⟨hp, hc⟩] at h3
    exact ⟨_, h3, transform_calibrated a1 a2 ha2 _⟩
  · rcases hp with hp | hp | hp
    · have hp' : (ops.foldl (World.step hw) (World.init hw p)).placed = false := hp
      rw [hp'] at h3
      rw [h3]
      cases d'.abs <;> simp
    · rw [hp] at h3
      rw [h3]
      cases d'.abs <;> simp
    · rw [hi.noAbs hp] at h3
      exact h3

/-- C51.  On the screen, a calibrated point is less than the width of a unit from the matrix times the point. -/
theorem screen_position {m : Six} {rx ry : Range} {p q : P} (hx : rx.min < rx.max) (hy : ry.min < ry.max) (h : IsCalibrated m rx ry p q) (w : Nat) (hw : 0 < w) :
    |scaleAxis rx q.x w - w * (m.apply rx ry p).1| < w / rx.size ∧ |scaleAxis ry q.y w - w * (m.apply rx ry p).2| < w / ry.size := by
  have key : ∀ (r : Range) (z : Int) (v : ℝ), r.min < r.max → IsCut (r.min + r.size * v) z → |scaleAxis r z w - w * v| < w / r.size := by
    intro r z v hr hc
    have hs : 0 < r.size := by
      have : (r.min : ℝ) < r.max := by exact_mod_cast hr
      unfold Range.size; linarith
    have hw' : (0 : ℝ) < w := by exact_mod_cast hw
    have e : scaleAxis r z w - w * v = -((r.min + r.size * v - z) * (w / r.size)) := by
      unfold scaleAxis
      rw [show (r.max : ℝ) - r.min + 1 = r.size from rfl]
      field_simp
      ring
    rw [e, abs_neg, abs_mul, abs_of_pos (div_pos hw' hs)]
    calc |↑r.min + r.size * v - ↑z| * (↑w / r.size) < 1 * (w / r.size) := mul_lt_mul_of_pos_right hc.2.1 (div_pos hw' hs)
      _ = w / r.size := one_mul _
  exact ⟨key rx q.x _ hx h.2.1, key ry q.y _ hy h.2.2⟩

/-- C51.  Coordinates of the device, and only these, are on the screen, in the same order. -/
theorem screen_range (r : Range) (hr : r.min < r.max) (w : Nat) (hw : 0 < w) (v : Int) :
    ((r.min ≤ v ∧ v ≤ r.max) ↔ (0 ≤ scaleAxis r v w ∧ scaleAxis r v w < w)) ∧
    (∀ u : Int, v < u ↔ scaleAxis r v w < scaleAxis r u w) ∧
    scaleAxis r r.min w = 0 := by
  have hr' : (r.min : ℝ) < r.max := by exact_mod_cast hr
  have hs : (0 : ℝ) < r.max - r.min + 1 := by linarith
  have hw' : (0 : ℝ) < w := by exact_mod_cast hw
  unfold scaleAxis
  refine ⟨?_, fun u => ?_, by simp⟩
  · rw [le_div_iff₀ hs, zero_mul, div_lt_iff₀ hs]
    constructor
    · rintro ⟨h1, h2⟩
      have h1' : (r.min : ℝ) ≤ v := by exact_mod_cast h1
      have h2' : (v : ℝ) ≤ r.max := by exact_mod_cast h2
      refine ⟨mul_nonneg (by linarith) hw'.le, ?_⟩
      rw [mul_comm]
      exact mul_lt_mul_of_pos_left (by linarith) hw'
    · rintro ⟨h1, h2⟩
      rw [mul_comm] at h2
      have h2' := lt_of_mul_lt_mul_left h2 hw'.le
      have h1' := nonneg_of_mul_nonneg_left h1 hw'
      constructor
      · have : (r.min : ℝ) ≤ v := by linarith
        exact_mod_cast this
      · have : (v : ℝ) < r.max + 1 := by linarith
        have : v < r.max + 1 := by exact_mod_cast this
        omega
  · rw [div_lt_div_iff_of_pos_right hs]
    constructor
    · intro h
      have : (v : ℝ) < u := by exact_mod_cast h
      exact mul_lt_mul_of_pos_right (by linarith) hw'
    · intro h
      have := lt_of_mul_lt_mul_right h hw'.le
      have : (v : ℝ) < u := by linarith
      exact_mod_cast this

/-- C51.  In mm, a coordinate of the device is between 0 and the size of the device (the one the device is said to have). -/
theorem mm_range (r : Range) (hr : 0 < r.res) (v : Int) :
    (r.min ≤ v ∧ v ≤ r.max) ↔ (0 ≤ convertToMm r v ∧ convertToMm r v ≤ convertToMm r r.max) := by
  have hr' : (0 : ℝ) < r.res := by exact_mod_cast hr
  unfold convertToMm
  rw [le_div_iff₀ hr', zero_mul, div_le_div_iff_of_pos_right hr']
  constructor
  · rintro ⟨h1, h2⟩
    have h1' : (r.min : ℝ) ≤ v := by exact_mod_cast h1
    have h2' : (v : ℝ) ≤ r.max := by exact_mod_cast h2
    constructor <;> linarith
  · rintro ⟨h1, h2⟩
    have h1' : (r.min : ℝ) ≤ v := by linarith
    have h2' : (v : ℝ) ≤ r.max := by linarith
    exact ⟨by exact_mod_cast h1', by exact_mod_cast h2'⟩

/-- C51.  Four quarter turns are none, and two are the opposite direction. -/
theorem turns (p : P) : turned p 0 = p ∧ turned p 90 = ⟨-p.y, p.x⟩ ∧ turned p 180 = ⟨-p.x, -p.y⟩ ∧ turned p 270 = ⟨p.y, -p.x⟩ ∧
    turned (turned p 270) 90 = p := by
  refine ⟨rfl, rfl, rfl, ?_, ?_⟩ <;> simp [turned, quarter]

/-- The matrix that turns a screen upside down. -/
def upsideDown : Six := ⟨-1, 0, 1, 0, -1, 1⟩

/-- C51.  Turned upside down by its matrix, the first unit of an axis is mapped to one after the last one: on the screen, that is one
width from the left, which is outside. -/
theorem upside_down_leaves_screen {rx ry : Range} {p q : P} (hx : rx.min < rx.max) (h : IsCalibrated upsideDown rx ry p q)
    (hp : p.x = rx.min) (w : Nat) : q.x = rx.max + 1 ∧ scaleAxis rx q.x w = w := by
  have hs : 0 < rx.size := by
    have : (rx.min : ℝ) < rx.max := by exact_mod_cast hx
    unfold Range.size; linarith
  have e : (rx.min : ℝ) + rx.size * (upsideDown.apply rx ry p).1 = ((rx.max + 1 : Int) : ℝ) := by
    simp only [upsideDown, Six.apply, Range.part, hp, sub_self, zero_div, mul_zero, zero_mul, zero_add, mul_one]
    unfold Range.size
    push_cast
    ring
  have h1 : q.x = rx.max + 1 := by
    refine cut_unique (e ▸ h.2.1) ?_
    exact ⟨le_refl _, by simp, mul_self_nonneg _⟩
  refine ⟨h1, ?_⟩
  rw [h1]
  unfold scaleAxis
  unfold Range.size at hs
  push_cast
  rw [show (rx.max : ℝ) + 1 - rx.min = rx.max - rx.min + 1 by ring, mul_comm, mul_div_assoc, div_self hs.ne', mul_one]

/-- There are such points. -/
example : ∃ q, IsCalibrated upsideDown ⟨0, 1023, 40⟩ ⟨0, 767, 40⟩ ⟨0, 5⟩ q :=
  ⟨_, transform_calibrated (rx := ⟨0, 1023, 40⟩) (ry := ⟨0, 767, 40⟩) (by norm_num) (by norm_num)
    (calibrate_calib (rx := ⟨0, 1023, 40⟩) (ry := ⟨0, 767, 40⟩) (a := Abs.new ⟨0, 1023, 40⟩ ⟨0, 767, 40⟩ none) rfl rfl (by norm_num) (by norm_num) upsideDown) _⟩

/-- A trackball, a history, and what is known after it: a movement by (3, -2), a quarter turn, a position. -/
example :
    let hw : Hw := ⟨some (⟨0, 1023, 40⟩, ⟨0, 767, 40⟩), none, true, true, ⟨.mouse, 1000, false, 1, 1, 1⟩⟩
    let w := World.after hw ⟨0, 0⟩ [.setAngle 90, .relX 1, .relX 2, .relY (-2), .absX 7, .setAngle 45]
    hw.Valid ∧ w.moved = true ∧ w.delta = ⟨2, 3⟩ ∧ w.placed = true ∧ w.point = ⟨7, 0⟩ := by
  refine ⟨⟨fun r h => ?_, by norm_num⟩, ?_⟩
  · simp only [Option.some.injEq] at h
    subst h
    norm_num
  · simp [World.after, World.step, World.init, World.delta, turned, quarter]

end Libinput.Coords
