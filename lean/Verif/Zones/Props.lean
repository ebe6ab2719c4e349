import Verif.Zones.Lemmas
/-!
C65: the zones of a touchpad.
-/
namespace Libinput.Zones
open Spec SoftButtons

/-- A touchpad of 100 by 60 mm for the examples. -/
def X0 : Axis := ⟨-2000, 2000, 40, 0⟩
/-- Its other axis. -/
def Y0 : Axis := ⟨100, 2500, 40, 0⟩

theorem goodX : Good X0 := by unfold Good; decide
theorem goodY : Good Y0 := by unfold Good; decide

/-! ## Software buttons -/

theorem areas_edges {s : Pad} (hm : s.method = .areas) (big : Bool) : (edges s big).top = s.geo.top ∧
    (edges s big).right = (if s.emulWant then s.geo.half else s.geo.midR) ∧
    (s.emulWant = true → (edges s big).mid = INT_MAX) ∧ (s.emulWant = false → (edges s big).mid = s.geo.midL) := by
  unfold edges initTop switchMethod initSoftbuttons
  rw [hm]
  dsimp only
  cases he : s.emulWant <;> cases s.hasTop <;> simp

/-- C65.  The bottom buttons are the lowest 10 mm of the touchpad, or 15 % if that is less; to one unit of the axis. -/
theorem bottom_buttons {x y : Axis} (gy : Good y) {marker : Bool} {far : Pt → Pt → Bool} {s : Pad} (hs : s.geo = geo x y marker far)
    (hm : s.method = .areas) (big : Bool) (p : Pt) :
    (from1 y p.2 ≤ bottomHeight y → inBottom (edges s big) p = true) ∧
    (inBottom (edges s big) p = true → from1 y p.2 < bottomHeight y + unit y) := by
  have top : (edges s big).top = units y (mm y - bottomHeight y) := by
    have e : (edges s big).top = s.geo.top := by
      exact (areas_edges hm big).1
    rw [e, hs]
    simp only [geo, bottomHeight]
    congr 1
    have m := size_mm y
    by_cases c : size y * (15 / 100) > 10
    · rw [if_pos c, if_neg (by rw [← m]; grind), m]
    · rw [if_neg c, if_pos (by rw [← m]; grind), m]; grind
  have add := from_add y p.2
  simp only [inBottom, top, decide_eq_true_eq]
  constructor
  · intro h
    exact units_le gy (by grind)
  · intro h
    have := of_units_le gy h
    grind

/-- A clickpad of 100 by 60 mm: 9 mm, not 10. -/
example : bottomHeight Y0 = 9 ∧ mm X0 = 100 ∧ mm Y0 = 60 := by decide +kernel

/-- C65.  Among the bottom buttons the left one ends and the right one starts where it should, to one unit: in the middle of the touchpad if a
middle click is both buttons together; else the middle button is between, 10 mm or a quarter of the width, in the middle. -/
theorem which_button {x y : Axis} (gx : Good x) {marker : Bool} {far : Pt → Pt → Bool} {s : Pad} (hs : s.geo = geo x y marker far)
    (hm : s.method = .areas) (big : Bool) {p : Pt} (hp : inBottom (edges s big) p = true) (fit : Fits p.1) (wide : 0 ≤ mm x) :
    (from0 x p.1 ≤ leftEnds x marker s.emulWant → zoneOf (edges s big) p = .bottomL) ∧
    (s.emulWant = false → leftEnds x marker s.emulWant + unit x ≤ from0 x p.1 → from0 x p.1 ≤ rightStarts x marker s.emulWant →
      zoneOf (edges s big) p = .bottomM) ∧
    (rightStarts x marker s.emulWant + unit x ≤ from0 x p.1 → zoneOf (edges s big) p = .bottomR) ∧
    (s.emulWant = true → zoneOf (edges s big) p ≠ .bottomM) := by
  have er : (edges s big).right = units x (rightStarts x marker s.emulWant) := by
    have e : (edges s big).right = if s.emulWant then s.geo.half else s.geo.midR := by
      exact (areas_edges hm big).2.1
    rw [e, hs]
    simp only [geo, rightStarts, size_mm]
    cases s.emulWant <;> cases marker <;> simp <;> congr 1 <;> grind
  have em : s.emulWant = false → (edges s big).mid = units x (leftEnds x marker s.emulWant) := by
    intro h0
    have e : (edges s big).mid = s.geo.midL := by
      exact (areas_edges hm big).2.2.2 h0
    rw [e, hs, h0]
    simp only [geo, leftEnds, size_mm]
    cases marker <;> simp; congr 1; grind
  have ex : s.emulWant = true → (edges s big).mid = INT_MAX := by
    intro h0
    exact (areas_edges hm big).2.2.1 h0
  have lr : leftEnds x marker s.emulWant ≤ rightStarts x marker s.emulWant := by
    unfold leftEnds rightStarts
    split
    · grind
    · split <;> grind
  have z : zoneOf (edges s big) p = if p.1 > (edges s big).right then .bottomR else if p.1 > (edges s big).mid then .bottomM else .bottomL := by
    unfold zoneOf inBottomM inBottomR
    rw [if_pos hp, hp]
    by_cases c : p.1 > (edges s big).right <;> by_cases c2 : p.1 > (edges s big).mid <;> simp [c, c2]
  rw [z]
  refine ⟨?_, ?_, ?_, ?_⟩
  · intro h
    have h1 : ¬ p.1 > (edges s big).right := by
      intro c
      rw [er] at c
      have := units_lt gx c
      grind
    have h2 : ¬ p.1 > (edges s big).mid := by
      intro c
      by_cases h0 : s.emulWant = true
      · rw [ex h0] at c
        have := fit.2
        unfold INT_MAX at c
        omega
      · rw [em (by simpa using h0)] at c
        have := units_lt gx c
        grind
    rw [if_neg h1, if_neg h2]
  · intro h0 h1 h2
    rw [if_neg, if_pos]
    · rw [em h0]; exact units_lt_of gx h1
    · intro c
      rw [er] at c
      have := units_lt gx c
      grind
  · intro h
    rw [if_pos]
    rw [er]; exact units_lt_of gx h
  · intro h0 c
    rw [ex h0] at c
    have := fit.2
    split at c
    · cases c
    · split at c
      · unfold INT_MAX at *; omega
      · cases c

/-- On the touchpad of the example the middle button is from 37.5 to 62.5 mm. -/
example : leftEnds X0 false false = 75 / 2 ∧ rightStarts X0 false false = 125 / 2 ∧ leftEnds X0 true false = 45 ∧ leftEnds X0 true true = 50 := by
  decide +kernel

/-- C65.  The top buttons, on touchpads that have them, are the upper 10 mm, and 30 mm while the touchpad itself is off, to one unit; there
the left and the right button have 40 % of the width each and the middle button is between.  Other touchpads have none. -/
theorem top_buttons {x y : Axis} (gx : Good x) (gy : Good y) {marker : Bool} {far : Pt → Pt → Bool} {s : Pad} (hs : s.geo = geo x y marker far)
    (big : Bool) (p : Pt) :
    (s.hasTop = false → -2147483648 < p.2 → inTop (edges s big) p = false) ∧
    (s.hasTop = true →
      (from0 y p.2 ≤ (if big then 30 else 10) → inTop (edges s big) p = true) ∧
      (inTop (edges s big) p = true → from0 y p.2 < (if big then 30 else 10) + unit y) ∧
      (inBottom (edges s big) p = false → inTop (edges s big) p = true → 0 ≤ mm x →
        (from0 x p.1 ≤ mm x * 40 / 100 - unit x → zoneOf (edges s big) p = .topL) ∧
        (mm x * 40 / 100 ≤ from0 x p.1 → from0 x p.1 ≤ mm x * 60 / 100 → zoneOf (edges s big) p = .topM) ∧
        (mm x * 60 / 100 + unit x ≤ from0 x p.1 → zoneOf (edges s big) p = .topR))) := by
  have sw : ∀ s : Pad, (switchMethod s).hasTop = s.hasTop ∧ (switchMethod s).geo = s.geo := by
    intro s
    unfold switchMethod initSoftbuttons
    split
    · split <;> exact ⟨rfl, rfl⟩
    · exact ⟨rfl, rfl⟩
    · exact ⟨rfl, rfl⟩
  constructor
  · intro h0 hp
    have e : (edges s big).upper = INT_MIN := by
      unfold edges initTop
      rw [(sw s).1, h0]; rfl
    unfold inTop
    rw [e]
    unfold INT_MIN
    simp only [decide_eq_false_iff_not]
    omega
  · intro h0
    have e : (edges s big).upper = units y (if big then 30 else 10) := by
      unfold edges initTop
      rw [(sw s).1, h0, (sw s).2, hs]
      cases big
      · rfl
      · simp only [geo, if_true]; congr 1; decide +kernel
    have el : (edges s big).upL = units x (mm x * 40 / 100) := by
      unfold edges initTop
      rw [(sw s).1, h0, (sw s).2, hs]
      simp only [geo, size_mm, if_true]; congr 1; grind
    have eu : (edges s big).upR = units x (mm x * 60 / 100) := by
      unfold edges initTop
      rw [(sw s).1, h0, (sw s).2, hs]
      simp only [geo, size_mm, if_true]; congr 1; grind
    have it : inTop (edges s big) p = decide (p.2 ≤ units y (if big then 30 else 10)) := by unfold inTop; rw [e]
    refine ⟨?_, ?_, ?_⟩
    · intro h
      rw [it]; simp only [decide_eq_true_eq]; exact le_units gy h
    · intro h
      rw [it] at h; simp only [decide_eq_true_eq] at h
      exact of_le_units gy h
    · intro hb ht hw
      have z : zoneOf (edges s big) p = if p.1 > units x (mm x * 60 / 100) then .topR else
          if p.1 ≥ units x (mm x * 40 / 100) ∧ p.1 ≤ units x (mm x * 60 / 100) then .topM else .topL := by
        unfold zoneOf inTopM inTopR
        rw [if_neg (by simp [hb]), if_pos ht, ht, el, eu]
        simp
      rw [z]
      refine ⟨?_, ?_, ?_⟩
      · intro h
        have := lt_units_of gx h
        have n : ¬ p.1 > units x (mm x * 60 / 100) := by
          intro c
          have := units_lt gx c
          have := lt_units gx (lt_units_of gx h)
          grind
        rw [if_neg n, if_neg (by omega)]
      · intro h1 h2
        have a := units_le gx h1
        have b := le_units gx h2
        rw [if_neg (by omega), if_pos ⟨a, b⟩]
      · intro h
        rw [if_pos (units_lt_of gx h)]

/-! ## Palms -/

theorem palm_in (x y : Axis) (k : Kind) (c : Motion.Config) (p : Motion.Point) : (config x y k c).inPalmEdge p =
    (decide (p.x < (palm x y k).1) || decide ((palm x y k).2.1 < p.x) || decide (p.y < (palm x y k).2.2)) := rfl

/-- The touchpad is one with strips for palms: built in, or below its keyboard, no tablet, and at least 70 mm wide. -/
def Strips (x : Axis) (k : Kind) : Prop := (k.external = false ∨ k.below = true) ∧ k.tablet = false ∧ 70 ≤ mm x

theorem palm_eq {x y : Axis} {k : Kind} (h : Strips x k) : palm x y k =
    (units x (palmWidth x), units x (mm x - palmWidth x), if k.hasTop = false ∧ 55 < mm y then units y (mm y * 5 / 100) else INT_MIN) := by
  obtain ⟨h1, h2, h3⟩ := h
  have n : (k.external && !k.below) = false := by rcases h1 with h | h <;> simp [h]
  have mx := size_mm x
  have my := size_mm y
  have e : (if 8 < size x * (8 / 100) then 8 else size x * (8 / 100)) = palmWidth x := by
    unfold palmWidth
    rw [← mx]
    by_cases c : 8 < size x * (8 / 100)
    · rw [if_pos c, if_neg (by grind)]
    · rw [if_neg c, if_pos (by grind)]; grind
  have e2 : size y * (5 / 100) = mm y * 5 / 100 := by rw [my]; grind
  have e3 : (if (!k.hasTop && decide (size y > 55)) = true then units y (size y * (5 / 100)) else INT_MIN) =
      (if k.hasTop = false ∧ 55 < mm y then units y (mm y * 5 / 100) else INT_MIN) := by
    rw [e2]
    by_cases c : k.hasTop = false ∧ 55 < mm y
    · rw [if_pos c, if_pos]
      rw [c.1, my]
      simpa using c.2
    · rw [if_neg c, if_neg]
      intro d
      rw [my] at d
      apply c
      simpa using d
  unfold palm palmEdges
  rw [n, h2]
  simp only [Bool.false_and, Bool.false_eq_true, if_false]
  rw [if_neg (by rw [mx]; grind), e, e3, mx]

/-- C65.  The strips at the left and the right where palms are expected are 8 mm wide, or 8 % of the width if that is less, and the one at the top
is 5 % of the height, on touchpads higher than 55 mm without top buttons; to one unit. -/
theorem palm_strips {x y : Axis} (gx : Good x) (gy : Good y) {k : Kind} (h : Strips x k) (c : Motion.Config) (p : Motion.Point) (fit : Fits p.y) :
    ((config x y k c).inPalmEdge p = true → from0 x p.x < palmWidth x ∨ from1 x p.x < palmWidth x ∨
      (k.hasTop = false ∧ 55 < mm y ∧ from0 y p.y < mm y * 5 / 100)) ∧
    (from0 x p.x ≤ palmWidth x - unit x ∨ from1 x p.x ≤ palmWidth x - unit x ∨
      (k.hasTop = false ∧ 55 < mm y ∧ from0 y p.y ≤ mm y * 5 / 100 - unit y) → (config x y k c).inPalmEdge p = true) := by
  rw [palm_in, palm_eq h]
  have add := from_add x p.x
  simp only [Bool.or_eq_true, decide_eq_true_eq]
  constructor
  · rintro ((h | h) | h)
    · exact .inl (lt_units gx h)
    · have := units_lt gx h
      exact .inr (.inl (by grind))
    · split at h
      · rename_i e
        exact .inr (.inr ⟨e.1, e.2, lt_units gy h⟩)
      · have := fit.1
        unfold INT_MIN at h
        omega
  · rintro (h | h | ⟨h1, h2, h3⟩)
    · exact .inl (.inl (lt_units_of gx h))
    · exact .inl (.inr (units_lt_of gx (by grind)))
    · rw [if_pos ⟨h1, h2⟩]
      exact .inr (lt_units_of gy h3)

/-- The touchpad of the example has strips of 8 mm. -/
example : Strips X0 {} ∧ palmWidth X0 = 8 := ⟨⟨.inl rfl, rfl, by decide +kernel⟩, by decide +kernel⟩

/-- C65.  Other touchpads have no such strips: small ones, tablets, and external ones but those below their keyboard. -/
theorem no_strips {x : Axis} (y : Axis) {k : Kind} (h : ¬ Strips x k) (c : Motion.Config) (p : Motion.Point) (fx : Fits p.x) (fy : Fits p.y) :
    (config x y k c).inPalmEdge p = false := by
  have e : palm x y k = (INT_MIN, INT_MAX, INT_MIN) := by
    unfold palm palmEdges
    rw [size_mm]
    split
    · rfl
    · rename_i n1
      split
      · rfl
      · rename_i n2
        split
        · rfl
        · rename_i n3
          split
          · rfl
          · rename_i n4
            exfalso
            apply h
            refine ⟨?_, by simpa using n2, by grind⟩
            cases hb : k.external <;> cases hc : k.below <;> simp [hb, hc] at n3 ⊢
  rw [palm_in, e]
  have := fx.1
  have := fx.2
  have := fy.1
  unfold INT_MIN INT_MAX
  simp only [Bool.or_eq_false_iff, decide_eq_false_iff_not]
  omega

/-- A touchpad of 60 mm. -/
example : ¬ Strips ⟨0, 2400, 40, 0⟩ {} := by rintro ⟨_, _, h⟩; exact absurd h (by decide +kernel)

/-! ## Edge scrolling and thumbs -/

/-- C65.  The edges where scrolling starts are 7 mm wide at the right, and 7 mm high at the bottom of clickpads and of touchpads at least
40 mm high, to one unit; other touchpads have no edge at the bottom. -/
theorem scroll_edges {x y : Axis} (gx : Good x) (gy : Good y) (k : Kind) (c : Motion.Config) (px py : Int) (fit : Fits py) :
    let e := config x y k c
    (e.rightEdge < px → from1 x px < 7) ∧ (from1 x px ≤ 7 - unit x → e.rightEdge < px) ∧
    (e.bottomEdge < py → (k.clickpad = true ∨ 40 ≤ mm y) ∧ from1 y py < 7) ∧
    (k.clickpad = true ∨ 40 ≤ mm y → from1 y py ≤ 7 - unit y → e.bottomEdge < py) := by
  have ax := from_add x px
  have ay := from_add y py
  have er : (config x y k c).rightEdge = units x (mm x - 7) := rfl
  have eb : (config x y k c).bottomEdge = if k.clickpad = true ∨ 40 ≤ mm y then units y (mm y - 7) else INT_MAX := by
    simp only [config, scrollEdges, size_mm]
    cases k.clickpad <;> simp
  dsimp only
  rw [er, eb]
  refine ⟨?_, ?_, ?_, ?_⟩
  · intro h
    have := units_lt gx h
    grind
  · intro h
    exact units_lt_of gx (by grind)
  · intro h
    split at h
    · rename_i e
      have := units_lt gy h
      exact ⟨e, by grind⟩
    · have := fit.2
      unfold INT_MAX at h
      omega
  · intro h1 h2
    rw [if_pos h1]
    exact units_lt_of gy (by grind)

/-- C65.  Thumbs are looked for on clickpads at least 50 mm high: a finger above the lowest 15 % is above the upper line and is not taken for a
thumb for its pressure, and one above the lowest 8 % is not below the lower line; to one unit. -/
theorem thumb_lines {x y : Axis} (gy : Good y) (k : Kind) (c : Motion.Config) (py : Int) :
    let e := config x y k c
    (e.thumbs = true ↔ k.clickpad = true ∧ 50 ≤ mm y) ∧
    (e.thumbs = true →
      (e.lowerLine < py → mm y * 92 / 100 < from0 y py) ∧ (mm y * 92 / 100 + unit y ≤ from0 y py → e.lowerLine < py) ∧
      (py < e.upperLine → from0 y py < mm y * 85 / 100) ∧ (from0 y py ≤ mm y * 85 / 100 - unit y → py < e.upperLine)) := by
  have et : (config x y k c).thumbs = true ↔ k.clickpad = true ∧ 50 ≤ mm y := by
    have m := size_mm y
    simp only [config, thumbLines]
    by_cases h : (!k.clickpad || decide (size y < 50)) = true
    · rw [if_pos h]
      simp only [Bool.or_eq_true, Bool.not_eq_true', decide_eq_true_eq] at h
      constructor
      · intro c; cases c
      · rintro ⟨h1, h2⟩
        rcases h with h | h
        · rw [h1] at h; cases h
        · grind
    · rw [if_neg h]
      simp only [Bool.or_eq_true, Bool.not_eq_true', decide_eq_true_eq, not_or] at h
      refine ⟨fun _ => ⟨by simpa using h.1, by grind⟩, fun _ => rfl⟩
  dsimp only
  refine ⟨et, fun ht => ?_⟩
  obtain ⟨h1, h2⟩ := et.mp ht
  have e : thumbLines y k = (true, units y (mm y * 85 / 100), units y (mm y * 92 / 100)) := by
    unfold thumbLines
    rw [if_neg (by simp only [h1, size_mm, Bool.not_true, Bool.false_or]; grind), size_mm]
    have e1 : mm y * (85 / 100) = mm y * 85 / 100 := by grind
    have e2 : mm y * (92 / 100) = mm y * 92 / 100 := by grind
    rw [e1, e2]
  have el : (config x y k c).lowerLine = units y (mm y * 92 / 100) := by simp only [config, e]
  have eu : (config x y k c).upperLine = units y (mm y * 85 / 100) := by simp only [config, e]
  rw [el, eu]
  exact ⟨units_lt gy, units_lt_of gy, lt_units gy, lt_units_of gy⟩

example : 50 ≤ mm Y0 := by decide +kernel

/-- C65.  A touchpad smooths jitter from the start if the kernel says that one of its axes is fuzzy; the margin is that fuzz, or else at most a
quarter of a millimetre and more than a quarter less one unit. -/
theorem hysteresis_margins {x y : Axis} (gx : Good x) (gy : Good y) :
    ((hysteresis x y).2.2 = true ↔ x.fuzz ≠ 0 ∨ y.fuzz ≠ 0) ∧
    (x.fuzz ≠ 0 → (hysteresis x y).1 = x.fuzz) ∧ (y.fuzz ≠ 0 → (hysteresis x y).2.1 = y.fuzz) ∧
    (x.fuzz = 0 → 4 * (hysteresis x y).1 ≤ x.res ∧ x.res < 4 * ((hysteresis x y).1 + 1)) ∧
    (y.fuzz = 0 → 4 * (hysteresis x y).2.1 ≤ y.res ∧ y.res < 4 * ((hysteresis x y).2.1 + 1)) := by
  unfold Good at gx gy
  have q : ∀ n : Int, 0 < n → n.tdiv 4 = n / 4 := fun n h => Int.tdiv_eq_ediv_of_nonneg (by omega)
  have qx := q x.res gx
  have qy := q y.res gy
  unfold hysteresis
  refine ⟨by simp, fun h => by simp [h], fun h => by simp [h], fun h => ?_, fun h => ?_⟩
  · simp only [h, ne_eq, not_true_eq_false, if_false]
    rw [qx]; omega
  · simp only [h, ne_eq, not_true_eq_false, if_false]
    rw [qy]; omega

example : hysteresis X0 ⟨100, 2500, 40, 8⟩ = (10, 8, true) := by decide

/-! ## The middle -/

/-- C65.  The middle of a touchpad is free: a finger at least 8 mm from the left and the right, and more than 10 mm from the top and the bottom
(on a touchpad that is not more than 200 mm high), is in no software button, no strip for palms and no edge for scrolling. -/
theorem middle_free {x y : Axis} (gx : Good x) (gy : Good y) {marker : Bool} {far : Pt → Pt → Bool} {s : Pad} (hs : s.geo = geo x y marker far)
    (hm : s.method = .areas) {k : Kind} (c : Motion.Config) {p : Pt} (fx : Fits p.1) (fy : Fits p.2) (low : -2147483648 < p.2) (flat : mm y ≤ 200)
    (h1 : 8 ≤ from0 x p.1) (h2 : 8 ≤ from1 x p.1) (h3 : 10 + unit y ≤ from0 y p.2) (h4 : 10 + unit y ≤ from1 y p.2) :
    zoneOf (edges s false) p = .area ∧ (config x y k c).inPalmEdge ⟨p.1, p.2⟩ = false ∧
    ¬ (config x y k c).rightEdge < p.1 ∧ ¬ (config x y k c).bottomEdge < p.2 := by
  have uy : 0 < unit y := by
    have := unit_mul gy
    have p := gy.pos
    unfold unit
    rw [Rat.lt_div_iff p]; grind
  have bh : bottomHeight y ≤ 10 := by unfold bottomHeight; split <;> grind
  have pw : palmWidth x ≤ 8 := by unfold palmWidth; split <;> grind
  refine ⟨?_, ?_, ?_, ?_⟩
  · have b : inBottom (edges s false) p = false := by
      cases e : inBottom (edges s false) p
      · rfl
      · have := (bottom_buttons gy hs hm false p).2 e
        grind
    have t : inTop (edges s false) p = false := by
      have tb := top_buttons gx gy hs false p
      cases ht : s.hasTop
      · exact tb.1 ht low
      · cases e : inTop (edges s false) p
        · rfl
        · have := (tb.2 ht).2.1 e
          simp at this
          grind
    unfold zoneOf
    rw [if_neg (by simp [b]), if_neg (by simp [t])]
  · by_cases hst : Strips x k
    · cases e : (config x y k c).inPalmEdge ⟨p.1, p.2⟩
      · rfl
      · rcases (palm_strips gx gy hst c ⟨p.1, p.2⟩ fy).1 e with h | h | ⟨_, _, h⟩ <;> dsimp only at h <;> grind
    · exact no_strips y hst c ⟨p.1, p.2⟩ fx fy
  · intro h
    have := (scroll_edges gx gy k c p.1 p.2 fy).1 h
    grind
  · intro h
    have := ((scroll_edges gx gy k c p.1 p.2 fy).2.2.1 h).2
    grind

/-- The centre of the touchpad of the example. -/
example : 8 ≤ from0 X0 0 ∧ 8 ≤ from1 X0 0 ∧ 10 + unit Y0 ≤ from0 Y0 1300 ∧ 10 + unit Y0 ≤ from1 Y0 1300 ∧ mm Y0 ≤ 200 := by decide +kernel

/-! ## Touchpads that do not say how large they are -/

/-- C65.  A touchpad that does not say how large it is, and has at least as many units, is taken to be at least as large as is assumed, and
hardly larger: by less than a unit for each millimetre. -/
theorem assumed_size {a : Axis} {n : Int} (hn : 0 < n) (h : n ≤ a.max - a.min) :
    (n : Rat) ≤ mm (assume a n) ∧ mm (assume a n) < n + n * unit (assume a n) := by
  have e : ((a.max - a.min).natAbs : Int) = a.max - a.min := by omega
  have r : (assume a n).res = (a.max - a.min) / n := by
    simp only [assume, e]
    exact Int.tdiv_eq_ediv_of_nonneg (by omega)
  have d := Int.mul_ediv_add_emod (a.max - a.min) n
  have d1 := Int.emod_nonneg (a.max - a.min) (b := n) (by omega)
  have d2 := Int.emod_lt_of_pos (a.max - a.min) hn
  rw [← r] at d
  have g : Good (assume a n) := by
    unfold Good
    rw [r]
    have := (Int.le_ediv_iff_mul_le hn (a := 1) (b := a.max - a.min)).mpr (by omega)
    omega
  have p := g.pos
  have m := mm_mul g
  have u := unit_mul g
  have em : ((assume a n).max : Rat) - ((assume a n).min : Rat) = ((a.max - a.min : Int) : Rat) := by rw [Rat.intCast_sub]; rfl
  have lo : n * (assume a n).res ≤ a.max - a.min := by omega
  have hi : a.max - a.min < n * (assume a n).res + n := by omega
  have lo' := Rat.intCast_le_intCast.mpr lo
  have hi' := Rat.intCast_lt_intCast.mpr hi
  rw [Rat.intCast_mul] at lo'
  rw [Rat.intCast_add, Rat.intCast_mul] at hi'
  rw [em] at m
  constructor
  · refine Rat.not_lt.mp fun c => ?_
    have := (Rat.mul_lt_mul_right p).mpr c
    grind
  · refine (Rat.mul_lt_mul_right p).mp ?_
    rw [m, Rat.add_mul, Rat.mul_assoc, u]
    grind

/-- C65.  Shown: a touchpad that does not say how large it is is meant to get no strips for palms, for 69 mm are assumed and strips start at 70;
but it gets them if its number of units is not nearly a multiple of 69: with 1000 units it is taken to be 71 mm wide. -/
theorem assumed_size_has_strips : Strips (assume ⟨0, 1000, 0, 0⟩ 69) {} ∧
    ∀ (y : Axis) (c : Motion.Config), (config (assume ⟨0, 1000, 0, 0⟩ 69) y {} c).inPalmEdge ⟨10, 500⟩ = true := by
  have h : Strips (assume ⟨0, 1000, 0, 0⟩ 69) {} := ⟨.inl rfl, rfl, by decide +kernel⟩
  refine ⟨h, fun y c => ?_⟩
  rw [palm_in, palm_eq h]
  have : (10 : Int) < units (assume ⟨0, 1000, 0, 0⟩ 69) (palmWidth (assume ⟨0, 1000, 0, 0⟩ 69)) := by decide +kernel
  simp [this]

end Libinput.Zones
