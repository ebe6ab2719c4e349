import Mathlib.Algebra.Order.Field.Rat
import Mathlib.Algebra.Order.Field.Basic
import Mathlib.Tactic.Linarith
import Mathlib.Tactic.Ring
import Mathlib.Tactic.NormNum
import Verif.Tablet.ArbProps
/-
The values an event carries are within their ranges.
-/
namespace Libinput.Tablet

/-! ### The specification -/

/-- The values a client may see.  Positions are within the range of the axis; 0 is there too, for a tool that leaves before
anything was measured.  Tilts are at most `b` degrees. -/
structure Within (cfg : Cfg) (b : Rat) (a : Axes) : Prop where
  x : min 0 (cfg.range .x).min ≤ a.x ∧ a.x ≤ max 0 (cfg.range .x).max
  y : min 0 (cfg.range .y).min ≤ a.y ∧ a.y ≤ max 0 (cfg.range .y).max
  pressure : 0 ≤ a.pressure ∧ a.pressure ≤ 1
  distance : 0 ≤ a.distance ∧ a.distance ≤ 1
  slider : -1 ≤ a.slider ∧ a.slider ≤ 1
  rotation : 0 ≤ a.rotation ∧ a.rotation < 360
  tiltX : -b ≤ a.tiltX ∧ a.tiltX ≤ b
  tiltY : -b ≤ a.tiltY ∧ a.tiltY ≤ b

/-- The data of an event. -/
def Ev.data : Ev → Data
  | .prox _ d | .tip _ d | .axis d | .button _ _ d => d

/-- A value the kernel may send. -/
def InRange (cfg : Cfg) (a : Axis) (v : Int) : Prop := (cfg.range a).min ≤ v ∧ v ≤ (cfg.range a).max

/-- A device whose ranges make sense: none is empty, pressures are not negative, the pressure range of the quirks file lies
within the one of the device; the calibration does not leave the tablet; tilts are at most `b` degrees. -/
structure Sane (cfg : Cfg) (b : Rat) : Prop where
  size : 0 < cfg.size
  range : ∀ a, (cfg.range a).min < (cfg.range a).max
  pressure : 0 ≤ (cfg.range .pressure).min ∧ 1 < (cfg.range .pressure).max
  quirk : ∀ lo hi, cfg.quirk = some (lo, hi) → hi < (cfg.range .pressure).max
  calib : ∀ p, InRange cfg .x p.1 → InRange cfg .y p.2 → InRange cfg .x (cfg.calib p).1 ∧ InRange cfg .y (cfg.calib p).2
  bound : 0 ≤ b
  tilt : ∀ a v, InRange cfg a v → -b ≤ cfg.tilt a v ∧ cfg.tilt a v ≤ b
  puck : ∀ x y, 0 ≤ cfg.puck x y ∧ cfg.puck x y < 360

/-- The kernel keeps to the ranges of the axes, and tools known from other tablets fit this one. -/
def Op.InRange (cfg : Cfg) : Op → Prop
  | .frame evs _ => ∀ a v, KEv.abs a v ∈ evs → Tablet.InRange cfg a v
  | .resume raw => ∀ a, Tablet.InRange cfg a (raw a)
  | .foreign t => t.upper < (cfg.range .pressure).max ∧ t.offset < (cfg.range .pressure).max
  | _ => True

/-! ### The invariant -/

def Fits (cfg : Cfg) (t : Tool) : Prop := t.upper < (cfg.range .pressure).max ∧ t.offset < (cfg.range .pressure).max

structure Vok (cfg : Cfg) (b : Rat) (v : Vals) : Prop where
  axes : Within cfg b v.axes
  hist : ∀ a ∈ v.hist, Within cfg b a
  len : v.hist = [] ∨ v.hist.length = cfg.size
  raw : ∀ a, InRange cfg a (v.raw a)

structure Ok (cfg : Cfg) (b : Rat) (s : Pen) : Prop where
  v : Vok cfg b s.v
  tools : ∀ t ∈ s.t.tools, Fits cfg t

/-! ### The values -/

theorem ratio_bounds (p q : Int) (hp : 0 ≤ p) (hq : p ≤ q) : 0 ≤ (p : Rat) / (q : Rat) ∧ (p : Rat) / (q : Rat) ≤ 1 := by
  have h1 : (0 : Rat) ≤ p := by exact_mod_cast hp
  have h2 : (p : Rat) ≤ q := by exact_mod_cast hq
  exact ⟨div_nonneg h1 (h1.trans h2), div_le_one_of_le₀ h2 (h1.trans h2)⟩

theorem normDistance_ok (r : Range) (v : Int) (h : r.min ≤ v ∧ v ≤ r.max) : 0 ≤ normDistance r v ∧ normDistance r v ≤ 1 :=
  ratio_bounds (v - r.min) (r.max - r.min) (by omega) (by omega)

theorem normSlider_ok (r : Range) (v : Int) (h : r.min ≤ v ∧ v ≤ r.max) : -1 ≤ normSlider r v ∧ normSlider r v ≤ 1 := by
  have := ratio_bounds (v - r.min) (r.max - r.min) (by omega) (by omega)
  unfold normSlider
  constructor <;> linarith [this.1, this.2]

theorem normPressure_ok (r : Range) (t : Tool) (v : Int) (h : v ≤ r.max) (h1 : t.upper < r.max) (h2 : t.offset < r.max) :
    0 ≤ normPressure r t v ∧ normPressure r t v ≤ 1 := by
  unfold normPressure
  dsimp only
  have ho : (if t.hasOffset = true then t.offset else t.upper) < r.max := by split <;> assumption
  generalize (if t.hasOffset = true then t.offset else t.upper) = o at ho ⊢
  refine ⟨le_max_left _ _, max_le (by norm_num) ?_⟩
  have h3 : (0 : Rat) < ((r.max - o : Int) : Rat) := by exact_mod_cast (by omega : 0 < r.max - o)
  rw [div_le_one h3]
  exact_mod_cast (by omega : v - o ≤ r.max - o)

theorem mod360_ok (a : Rat) : 0 ≤ mod360 a ∧ mod360 a < 360 := by
  unfold mod360
  have h1 : ((a / 360).floor : Rat) ≤ a / 360 := Rat.floor_le _
  have h2 : a / 360 < ((a / 360).floor : Rat) + 1 := by exact_mod_cast Rat.lt_floor_add_one (a / 360)
  have h3 : a / 360 * 360 = a := by ring
  constructor <;> linarith

theorem invert_ok (cfg : Cfg) (a : Axis) (v : Int) (h : InRange cfg a v) : InRange cfg a (invert (cfg.range a) v) := by
  unfold InRange invert at *; omega

theorem percent_lt (r : Range) (p : Int) (h0 : 0 ≤ r.min) (h1 : r.min < r.max) (hp : 0 ≤ p) (hp' : p < 100) : percent r p < r.max := by
  unfold percent
  have hnn : 0 ≤ (r.max - r.min) * p := Int.mul_nonneg (by omega) hp
  rw [Int.tdiv_eq_ediv_of_nonneg (by omega)]
  have h2 : (r.max - r.min) * p < (r.max - r.min) * 100 := Int.mul_lt_mul_of_pos_left hp' (by omega)
  omega

/-! ### The samples -/

theorem sum_int_bounds (l : List Int) (m M : Int) (h : ∀ x ∈ l, m ≤ x ∧ x ≤ M) : m * l.length ≤ l.sum ∧ l.sum ≤ M * l.length := by
  induction l with
  | nil => simp
  | cons x l ih =>
    have := ih (fun y hy => h y (by simp [hy]))
    have h' := h x (by simp)
    simp only [List.length_cons, List.sum_cons, Nat.cast_add, Nat.cast_one, mul_add, mul_one]
    omega

theorem sum_rat_bounds (l : List Rat) (m M : Rat) (h : ∀ x ∈ l, m ≤ x ∧ x ≤ M) : m * l.length ≤ l.sum ∧ l.sum ≤ M * l.length := by
  induction l with
  | nil => simp
  | cons x l ih =>
    have := ih (fun y hy => h y (by simp [hy]))
    have h' := h x (by simp)
    simp only [List.length_cons, List.sum_cons, Nat.cast_add, Nat.cast_one, mul_add, mul_one]
    constructor <;> linarith [this.1, this.2, h'.1, h'.2]

theorem mean_int (l : List Int) (n : Nat) (m M : Int) (h : ∀ x ∈ l, m ≤ x ∧ x ≤ M) (hn : l.length = n) (h0 : 0 < n) :
    m ≤ l.sum / n ∧ l.sum / n ≤ M := by
  have := sum_int_bounds l m M h
  rw [hn] at this
  have h0' : (0 : Int) < n := by omega
  constructor
  · exact (Int.le_ediv_iff_mul_le h0').2 this.1
  · exact Int.ediv_le_of_le_mul h0' this.2

theorem mean_rat (l : List Rat) (n : Nat) (m M : Rat) (h : ∀ x ∈ l, m ≤ x ∧ x ≤ M) (hn : l.length = n) (h0 : 0 < n) :
    m ≤ l.sum / n ∧ l.sum / n ≤ M := by
  have := sum_rat_bounds l m M h
  rw [hn] at this
  have h0' : (0 : Rat) < n := by exact_mod_cast h0
  exact ⟨(le_div_iff₀ h0').2 this.1, (div_le_iff₀ h0').2 this.2⟩

theorem push_ok (cfg : Cfg) (b : Rat) (h : List Axes) (a : Axes) (hh : ∀ x ∈ h, Within cfg b x) (hl : h = [] ∨ h.length = cfg.size)
    (ha : Within cfg b a) : (∀ x ∈ push cfg.size h a, Within cfg b x) ∧ (push cfg.size h a).length = cfg.size := by
  unfold push
  split
  · refine ⟨fun x hx => ?_, by simp⟩
    rw [(List.mem_replicate.1 hx).2]; exact ha
  · rename_i hne
    have hl' : h.length = cfg.size := by rcases hl with h | h; exact absurd h hne; exact h
    refine ⟨fun x hx => ?_, by simp [hl']⟩
    rcases List.mem_cons.1 (List.mem_of_mem_take hx) with rfl | h'
    · exact ha
    · exact hh x h'

theorem smooth_ok (cfg : Cfg) (b : Rat) (h : List Axes) (a : Axes) (h0 : 0 < cfg.size) (hh : ∀ x ∈ h, Within cfg b x) (hl : h.length = cfg.size)
    (ha : Within cfg b a) : Within cfg b (smooth cfg.size h a) := by
  obtain ⟨a1, a2, a3, a4, a5, a6, a7, a8⟩ := ha
  refine ⟨?_, ?_, a3, a4, a5, a6, ?_, ?_⟩
  · exact mean_int _ _ _ _ (fun x hx => by obtain ⟨y, hy, rfl⟩ := List.mem_map.1 hx; exact (hh y hy).x) (by simpa using hl) h0
  · exact mean_int _ _ _ _ (fun x hx => by obtain ⟨y, hy, rfl⟩ := List.mem_map.1 hx; exact (hh y hy).y) (by simpa using hl) h0
  · exact mean_rat _ _ _ _ (fun x hx => by obtain ⟨y, hy, rfl⟩ := List.mem_map.1 hx; exact (hh y hy).tiltX) (by simpa using hl) h0
  · exact mean_rat _ _ _ _ (fun x hx => by obtain ⟨y, hy, rfl⟩ := List.mem_map.1 hx; exact (hh y hy).tiltY) (by simpa using hl) h0

/-! ### The axes -/

section
variable {cfg : Cfg} {b : Rat}

theorem Vok.setAxes {v : Vals} (V : Vok cfg b v) (a : Axes) (c : List Axis) (h : Within cfg b a) : Vok cfg b { v with axes := a, changed := c } :=
  ⟨h, V.hist, V.len, V.raw⟩

theorem Vok.mark {v : Vals} (V : Vok cfg b v) (a : Axis) : Vok cfg b (v.mark a) := ⟨V.axes, V.hist, V.len, V.raw⟩

theorem Vok.unmark {v : Vals} (V : Vok cfg b v) (a : Axis) : Vok cfg b (v.unmark a) := ⟨V.axes, V.hist, V.len, V.raw⟩

theorem updateXY_ok {v : Vals} (S : Sane cfg b) (V : Vok cfg b v) (rot : Bool) : Vok cfg b (v.updateXY cfg rot) := by
  unfold Vals.updateXY
  split
  · dsimp only
    have hx : InRange cfg .x (if rot = true then invert (cfg.range .x) (v.raw .x) else v.raw .x) := by
      split
      · exact invert_ok cfg .x _ (V.raw .x)
      · exact V.raw .x
    have hy : InRange cfg .y (if rot = true then invert (cfg.range .y) (v.raw .y) else v.raw .y) := by
      split
      · exact invert_ok cfg .y _ (V.raw .y)
      · exact V.raw .y
    obtain ⟨c1, c2⟩ := S.calib (_, _) hx hy
    obtain ⟨a1, a2, a3, a4, a5, a6, a7, a8⟩ := V.axes
    unfold InRange at c1 c2
    exact V.setAxes _ v.changed ⟨⟨min_le_of_right_le c1.1, le_max_of_le_right c1.2⟩, ⟨min_le_of_right_le c2.1, le_max_of_le_right c2.2⟩, a3, a4, a5, a6, a7, a8⟩
  · exact V

theorem updatePressure_ok {v : Vals} (V : Vok cfg b v) (t : Tool) (ht : Fits cfg t) : Vok cfg b (v.updatePressure cfg t) := by
  unfold Vals.updatePressure
  split
  · obtain ⟨a1, a2, a3, a4, a5, a6, a7, a8⟩ := V.axes
    exact V.setAxes _ v.changed ⟨a1, a2, normPressure_ok _ t _ (V.raw .pressure).2 ht.1 ht.2, a4, a5, a6, a7, a8⟩
  · exact V

theorem updateDistance_ok {v : Vals} (V : Vok cfg b v) : Vok cfg b (v.updateDistance cfg) := by
  unfold Vals.updateDistance
  split
  · obtain ⟨a1, a2, a3, a4, a5, a6, a7, a8⟩ := V.axes
    exact V.setAxes _ v.changed ⟨a1, a2, a3, normDistance_ok _ _ (V.raw .distance), a5, a6, a7, a8⟩
  · exact V

theorem updateSlider_ok {v : Vals} (V : Vok cfg b v) : Vok cfg b (v.updateSlider cfg) := by
  unfold Vals.updateSlider
  split
  · obtain ⟨a1, a2, a3, a4, a5, a6, a7, a8⟩ := V.axes
    exact V.setAxes _ v.changed ⟨a1, a2, a3, a4, normSlider_ok _ _ (V.raw .slider), a6, a7, a8⟩
  · exact V

theorem updateTilt_ok {v : Vals} (S : Sane cfg b) (V : Vok cfg b v) (left : Bool) : Vok cfg b (v.updateTilt cfg left) := by
  unfold Vals.updateTilt
  split
  · obtain ⟨a1, a2, a3, a4, a5, a6, a7, a8⟩ := V.axes
    have hx := S.tilt .tiltX _ (V.raw .tiltX)
    have hy := S.tilt .tiltY _ (V.raw .tiltY)
    refine V.setAxes _ v.changed ⟨a1, a2, a3, a4, a5, a6, ?_, ?_⟩
    · dsimp only; split
      · constructor <;> linarith [hx.1, hx.2]
      · exact hx
    · dsimp only; split
      · constructor <;> linarith [hy.1, hy.2]
      · exact hy
  · exact V

theorem updateWheel_ok {v : Vals} (V : Vok cfg b v) : Vok cfg b v.updateWheel := by
  unfold Vals.updateWheel
  split
  · exact V
  · obtain ⟨a1, a2, a3, a4, a5, a6, a7, a8⟩ := V.axes
    exact V.setAxes _ v.changed ⟨a1, a2, a3, a4, a5, a6, a7, a8⟩

theorem updateRotation_ok {v : Vals} (S : Sane cfg b) (V : Vok cfg b v) (left : Bool) (k : Option Kind) : Vok cfg b (v.updateRotation cfg left k) := by
  unfold Vals.updateRotation
  split
  · dsimp only
    have h1 : ∀ w, w = (if .tiltX ∈ v.changed ∨ .tiltY ∈ v.changed then
        { v with axes := { v.axes with rotation := cfg.puck v.axes.tiltX v.axes.tiltY } }.mark .rotation else v) → Vok cfg b w := by
      intro w hw
      subst hw
      split
      · obtain ⟨a1, a2, a3, a4, a5, a6, a7, a8⟩ := V.axes
        exact Vok.mark (V.setAxes { v.axes with rotation := cfg.puck v.axes.tiltX v.axes.tiltY } v.changed ⟨a1, a2, a3, a4, a5, S.puck _ _, a7, a8⟩) .rotation
      · exact V
    have V2 := ((h1 _ rfl).unmark .tiltX).unmark .tiltY
    obtain ⟨a1, a2, a3, a4, a5, a6, a7, a8⟩ := V2.axes
    exact V2.setAxes _ _ ⟨a1, a2, a3, a4, a5, a6, ⟨by dsimp only; linarith [S.bound], S.bound⟩, ⟨by dsimp only; linarith [S.bound], S.bound⟩⟩
  · dsimp only
    have h1 : ∀ w, w = (if .rotation ∈ v.changed then
        { v with axes := { v.axes with rotation := toDegrees (cfg.range .rotation) 90 (v.raw .rotation) } } else v) → Vok cfg b w := by
      intro w hw
      subst hw
      split
      · obtain ⟨a1, a2, a3, a4, a5, a6, a7, a8⟩ := V.axes
        exact V.setAxes _ v.changed ⟨a1, a2, a3, a4, a5, mod360_ok _, a7, a8⟩
      · exact V
    have V1 := h1 _ rfl
    split
    · obtain ⟨a1, a2, a3, a4, a5, a6, a7, a8⟩ := V1.axes
      exact V1.setAxes _ _ ⟨a1, a2, a3, a4, a5, mod360_ok _, a7, a8⟩
    · exact V1

theorem updateAxes_ok {v : Vals} (S : Sane cfg b) (V : Vok cfg b v) (h : Hand) (k : Option Kind) (t : Tool) (ht : Fits cfg t) :
    Vok cfg b (v.updateAxes cfg h k t) := by
  unfold Vals.updateAxes
  split
  · exact V
  · exact updateRotation_ok S (updateWheel_ok (updateTilt_ok S (updateSlider_ok (updateDistance_ok (updatePressure_ok (updateXY_ok S V h.rotate) t ht))) h.left)) h.left k

theorem smoothen_ok {v : Vals} (S : Sane cfg b) (V : Vok cfg b v) (jump : Bool) :
    Vok cfg b (v.smoothen cfg jump).1 ∧ Within cfg b (v.smoothen cfg jump).2 := by
  have P := push_ok cfg b (if jump then [] else v.hist) v.axes (by split; simp; exact V.hist) (by split; exact .inl rfl; exact V.len) V.axes
  unfold Vals.smoothen
  dsimp only
  have V1 : Vok cfg b { v with hist := push cfg.size (if jump then [] else v.hist) v.axes } := ⟨V.axes, P.1, .inr P.2, V.raw⟩
  refine ⟨?_, smooth_ok cfg b _ _ S.size P.1 P.2 V.axes⟩
  have h : ∀ (v₁ : Vals) (a : Axes), Vok cfg b v₁ →
      Vok cfg b { (if a.y ≠ (if a.x ≠ v₁.lastX then v₁.mark .x else v₁).lastY then (if a.x ≠ v₁.lastX then v₁.mark .x else v₁).mark .y
        else (if a.x ≠ v₁.lastX then v₁.mark .x else v₁)) with lastX := a.x, lastY := a.y } := by
    intro v₁ a V1
    have V2 : Vok cfg b (if a.x ≠ v₁.lastX then v₁.mark .x else v₁) := by split <;> [exact V1.mark _; exact V1]
    generalize (if a.x ≠ v₁.lastX then v₁.mark .x else v₁) = v₂ at V2 ⊢
    have V3 : Vok cfg b (if a.y ≠ v₂.lastY then v₂.mark .y else v₂) := by split <;> [exact V2.mark _; exact V2]
    generalize (if a.y ≠ v₂.lastY then v₂.mark .y else v₂) = v₃ at V3 ⊢
    exact ⟨V3.axes, V3.hist, V3.len, V3.raw⟩
  exact h _ _ V1

theorem sanitizePressure_ok {v : Vals} (V : Vok cfg b v) (t : Tool) : Vok cfg b (v.sanitizePressure cfg t) := by
  obtain ⟨a1, a2, a3, a4, a5, a6, a7, a8⟩ := V.axes
  have hd : Within cfg b { v.axes with distance := 0 } := ⟨a1, a2, a3, ⟨le_refl _, by norm_num⟩, a5, a6, a7, a8⟩
  have hp : Within cfg b { v.axes with pressure := 0 } := ⟨a1, a2, ⟨le_refl _, by norm_num⟩, a4, a5, a6, a7, a8⟩
  unfold Vals.sanitizePressure
  split
  · exact V
  · split
    · exact V
    · dsimp only
      split
      · split
        · exact (V.unmark .distance).setAxes _ _ hd
        · exact (V.unmark .pressure).setAxes _ _ hp
      · split
        · split
          · exact V.unmark _
          · exact V.setAxes _ v.changed hp
        · exact V

theorem sanitizeRotation_ok {v : Vals} (V : Vok cfg b v) (k : Option Kind) : Vok cfg b (v.sanitizeRotation k) := by
  unfold Vals.sanitizeRotation
  split
  · split
    · exact V.mark _
    · exact V
  · exact V

theorem detectOffset_ok (S : Sane cfg b) {v : Vals} (V : Vok cfg b v) (e : Bool) (t : Tool) (ht : Fits cfg t) : Fits cfg (v.detectOffset cfg e t) := by
  unfold Vals.detectOffset
  dsimp only
  have h20 := percent_lt (cfg.range .pressure) 20 S.pressure.1 (S.range .pressure) (by omega) (by omega)
  repeat' split
  all_goals first | exact ht | (refine ⟨ht.1, ?_⟩; dsimp only; have := ht.2; omega)

theorem newTool_ok (S : Sane cfg b) (k : Kind) (id serial : Nat) : Fits cfg (newTool cfg k id serial) := by
  have h5 := percent_lt (cfg.range .pressure) 5 S.pressure.1 (S.range .pressure) (by omega) (by omega)
  have h0 := S.range .pressure
  have h1 := S.pressure
  unfold newTool
  dsimp only
  split
  · split
    · rename_i lo hi hq
      have := S.quirk lo hi hq
      split
      · exact ⟨h5, h0⟩
      · exact ⟨this, h0⟩
    · exact ⟨h5, h0⟩
  · exact ⟨h1.2, by dsimp only; omega⟩

/-! ### What is sent -/

/-- All events of `o` carry values within the ranges. -/
def Fine (cfg : Cfg) (b : Rat) (es : List Ev) : Prop := ∀ e ∈ es, Within cfg b e.data.axes

theorem fine_nil : Fine cfg b [] := fun _ h => by cases h

theorem fine_append {x y : List Ev} (hx : Fine cfg b x) (hy : Fine cfg b y) : Fine cfg b (x ++ y) := by
  intro e he
  rcases List.mem_append.1 he with h | h
  · exact hx e h
  · exact hy e h

theorem fine_one {e : Ev} (h : Within cfg b e.data.axes) : Fine cfg b [e] := by
  intro e' he
  rw [List.mem_singleton.1 he]; exact h

theorem Vok.clear {v : Vals} (V : Vok cfg b v) : Vok cfg b { v with changed := [] } := ⟨V.axes, V.hist, V.len, V.raw⟩

theorem sendProxIn_fine (s : Pen) (i : ToolId) (a : Axes) (V : Vok cfg b s.v) (ha : Within cfg b a) :
    Vok cfg b (s.sendProxIn i a).1.v ∧ Fine cfg b (s.sendProxIn i a).2 := by
  unfold Pen.sendProxIn
  split
  · exact ⟨V.clear, fine_one ha⟩
  · exact ⟨V, fine_nil⟩

theorem sendTip_fine (s : Pen) (i : ToolId) (a : Axes) (V : Vok cfg b s.v) (ha : Within cfg b a) :
    Vok cfg b (s.sendTip i a).1.v ∧ Fine cfg b (s.sendTip i a).2.1 := by
  unfold Pen.sendTip
  split
  · exact ⟨V.clear, fine_one ha⟩
  · split
    · exact ⟨V.clear, fine_one ha⟩
    · exact ⟨V, fine_nil⟩

theorem sendAxes_fine (s : Pen) (i : ToolId) (a : Axes) (V : Vok cfg b s.v) (ha : Within cfg b a) :
    Vok cfg b (s.sendAxes i a).1.v ∧ Fine cfg b (s.sendAxes i a).2 := by
  unfold Pen.sendAxes
  split
  · exact ⟨V.clear, fine_one ha⟩
  · exact ⟨V, fine_nil⟩

theorem buttonEvents_fine (s : Pen) (i : ToolId) (f : Nat → Bool) (down : Bool) (V : Vok cfg b s.v) : Fine cfg b (s.buttonEvents i f down) := by
  intro e he
  unfold Pen.buttonEvents at he
  obtain ⟨c, _, rfl⟩ := List.mem_map.1 he
  exact V.axes

theorem sendButtons_fine (s : Pen) (i : ToolId) (V : Vok cfg b s.v) :
    Vok cfg b (s.sendButtons i).1.v ∧ Fine cfg b (s.sendButtons i).2 := by
  unfold Pen.sendButtons
  refine ⟨V, fine_append ?_ ?_⟩
  · split
    · exact buttonEvents_fine s i _ _ V
    · exact fine_nil
  · split
    · exact buttonEvents_fine s i _ _ V
    · exact fine_nil

theorem changeRotation_v (s : Pen) (n : Bool) : (s.changeRotation n).1.v = s.v ∧ (s.changeRotation n).1.t = s.t ∧ events (s.changeRotation n).2 = [] := by
  unfold Pen.changeRotation Pen.applyRotation
  refine ⟨?_, ?_, ?_⟩
  · dsimp only; split <;> rfl
  · dsimp only; split <;> rfl
  · dsimp only; split <;> rfl

theorem changeLeft_v (s : Pen) : s.changeLeft.1.v = s.v ∧ s.changeLeft.1.t = s.t ∧ events s.changeLeft.2 = [] := by
  unfold Pen.changeLeft
  split
  · exact ⟨rfl, rfl, rfl⟩
  · exact changeRotation_v _ _

theorem sendProxOut_fine (s : Pen) (i : ToolId) (a : Axes) (V : Vok cfg b s.v) (ha : Within cfg b a) :
    Vok cfg b (s.sendProxOut i a).1.v ∧ Fine cfg b (events (s.sendProxOut i a).2) := by
  unfold Pen.sendProxOut
  split
  · dsimp only
    obtain ⟨h1, _, h2⟩ := changeLeft_v { s with st.outOfProx := true, st.leaving := false, v.changed := [] }
    generalize Pen.changeLeft _ = r at h1 h2 ⊢
    have h3 : r.1.applyRotation.v = r.1.v := by unfold Pen.applyRotation; split <;> rfl
    refine ⟨?_, ?_⟩
    · have V' : Vok cfg b r.1.applyRotation.v := by rw [h3, h1]; exact V.clear
      exact ⟨V'.axes, fun _ h => (by cases h), .inl rfl, V'.raw⟩
    · have he : events (.ev (.prox false ⟨i, false, s.v.changed, a⟩) :: r.2) = [.prox false ⟨i, false, s.v.changed, a⟩] := by
        show _ :: events r.2 = _
        rw [h2]
      rw [he]
      exact fine_one ha
  · exact ⟨V, fine_nil⟩

theorem send_fine (S : Sane cfg b) (s : Pen) (t : Tool) (V : Vok cfg b s.v) (ht : Fits cfg t) :
    Vok cfg b (s.send cfg t).1.v ∧ Fine cfg b (events (s.send cfg t).2) := by
  unfold Pen.send
  dsimp only
  have h1 : ∀ r, r = (if s.st.leaving = true then ({ s with st.axesUpdated := false }, s.v.axes) else s.notifyAxes cfg t) → Vok cfg b r.1.v ∧ Within cfg b r.2 := by
    intro r hr
    subst hr
    split
    · exact ⟨V, V.axes⟩
    · exact smoothen_ok S (updateAxes_ok S V _ _ t ht) _
  have h1 := h1 _ rfl
  generalize (if s.st.leaving = true then ({ s with st.axesUpdated := false }, s.v.axes) else s.notifyAxes cfg t) = r at h1 ⊢
  have h2 := sendProxIn_fine r.1 t.key r.2 h1.1 h1.2
  generalize r.1.sendProxIn t.key r.2 = p at h2 ⊢
  have h3 := sendTip_fine p.1 t.key r.2 h2.1 h1.2
  generalize p.1.sendTip t.key r.2 = q at h3 ⊢
  have h4 : ∀ x, x = (if q.2.2 = true then (q.1, []) else q.1.sendAxes t.key r.2) → Vok cfg b x.1.v ∧ Fine cfg b x.2 := by
    intro x hx
    subst hx
    split
    · exact ⟨h3.1, fine_nil⟩
    · exact sendAxes_fine q.1 t.key r.2 h3.1 h1.2
  have h4 := h4 _ rfl
  generalize (if q.2.2 = true then (q.1, []) else q.1.sendAxes t.key r.2) = x at h4 ⊢
  have h5 := sendButtons_fine (cfg := cfg) (b := b) { x.1 with st.enterContact := false, v.changed := [] } t.key h4.1.clear
  generalize Pen.sendButtons _ _ = y at h5 ⊢
  have h6 := sendProxOut_fine y.1 t.key r.2 h5.1 h1.2
  refine ⟨h6.1, ?_⟩
  rw [events_append, events_map]
  exact fine_append (fine_append (fine_append (fine_append h2.2 h3.2) h4.2) h5.2) h6.2

/-! ### A frame -/

theorem putTool_ok (s : ToolSt) (t : Tool) (hs : ∀ u ∈ s.tools, Fits cfg u) (ht : Fits cfg t) : ∀ u ∈ (s.putTool t).tools, Fits cfg u := by
  intro u hu
  obtain ⟨w, hw, rfl⟩ := List.mem_map.1 hu
  split
  · exact ht
  · exact hs w hw

theorem getTool_ok (S : Sane cfg b) (s : ToolSt) (k : Kind) (hs : ∀ u ∈ s.tools, Fits cfg u) :
    (∀ u ∈ (s.getTool cfg k).1.tools, Fits cfg u) ∧ Fits cfg (s.getTool cfg k).2 := by
  unfold ToolSt.getTool
  dsimp only
  split
  · rename_i t ht
    refine ⟨hs, hs t ?_⟩
    split at ht
    · exact List.mem_of_find?_eq_some ht
    · cases ht
  · split
    · rename_i t ht
      exact ⟨hs, hs t (List.mem_of_find?_eq_some ht)⟩
    · have := newTool_ok S k s.id s.serial
      refine ⟨fun u hu => ?_, this⟩
      rcases List.mem_cons.1 hu with rfl | h
      · exact this
      · exact hs u h

theorem cursorRange_ok (s : Pen) (t : Tool) (I : Ok cfg b s) : Ok cfg b (s.cursorRange cfg t) := by
  unfold Pen.cursorRange
  dsimp only
  repeat' split
  all_goals exact ⟨⟨I.v.axes, I.v.hist, I.v.len, I.v.raw⟩, I.tools⟩

theorem prepare_fine (S : Sane cfg b) (s : Pen) (t : Tool) (I : Ok cfg b s) (ht : Fits cfg t) :
    Ok cfg b (s.prepare cfg t).1 ∧ Fits cfg (s.prepare cfg t).2 := by
  unfold Pen.prepare
  split
  · exact ⟨⟨I.v, I.tools⟩, ht⟩
  · split
    · dsimp only
      have I0 : ∀ s₀, s₀ = (if s.st.entering = true then { s with v.changed := t.caps } else s) → Ok cfg b s₀ := by
        intro s₀ h
        subst h
        split
        · exact ⟨⟨I.v.axes, I.v.hist, I.v.len, I.v.raw⟩, I.tools⟩
        · exact I
      have I0 := I0 _ rfl
      generalize (if s.st.entering = true then { s with v.changed := t.caps } else s) = s₀ at I0 ⊢
      have ht' := detectOffset_ok S I0.v s₀.st.entering t ht
      generalize s₀.v.detectOffset cfg s₀.st.entering t = t' at ht' ⊢
      have I1 : Ok cfg b { s₀ with t := s₀.t.putTool t' } := ⟨I0.v, putTool_ok s₀.t t' I0.tools ht'⟩
      generalize ({ s₀ with t := s₀.t.putTool t' } : Pen) = s₁ at I1 ⊢
      have I2 : Ok cfg b (s₁.detectContact cfg t') := by
        unfold Pen.detectContact
        dsimp only
        repeat' split
        all_goals first | exact I1 | exact ⟨I1.v, I1.tools⟩
      exact ⟨⟨sanitizeRotation_ok (sanitizePressure_ok I2.v t') _, I2.tools⟩, ht'⟩
    · exact ⟨I, ht⟩

theorem pass_fine (S : Sane cfg b) (s : Pen) (j : Bool) (now : Nat) (I : Ok cfg b s) :
    Ok cfg b (s.pass cfg j now).1 ∧ Fine cfg b (events (s.pass cfg j now).2.1) := by
  unfold Pen.pass
  dsimp only
  obtain ⟨n, p, kd, q, st', e, _⟩ := toolChange_any s j now
  have I1 : Ok cfg b (s.toolChange j now).1 := by rw [e]; exact ⟨I.v, I.tools⟩
  generalize s.toolChange j now = c at I1 ⊢
  split
  · exact ⟨I1, fine_nil⟩
  · rename_i k _
    obtain ⟨g1, g2⟩ := getTool_ok S c.1.t k I1.tools
    generalize c.1.t.getTool cfg k = g at g1 g2 ⊢
    have I2 : Ok cfg b { c.1 with t := g.1 } := ⟨I1.v, g1⟩
    generalize ({ c.1 with t := g.1 } : Pen) = s₁ at I2 ⊢
    have I3 : ∀ s₂, s₂ = (if k.isCursor = true then s₁.cursorRange cfg g.2 else s₁) → Ok cfg b s₂ := by
      intro s₂ h
      subst h
      split
      · exact cursorRange_ok s₁ g.2 I2
      · exact I2
    have I3 := I3 _ rfl
    generalize (if k.isCursor = true then s₁.cursorRange cfg g.2 else s₁) = s₂ at I3 ⊢
    split
    · exact ⟨I3, fine_nil⟩
    · obtain ⟨p1, p2⟩ := prepare_fine S s₂ g.2 I3 g2
      generalize s₂.prepare cfg g.2 = w at p1 p2 ⊢
      obtain ⟨f1, f2⟩ := send_fine S w.1 w.2 p1.v p2
      refine ⟨⟨f1, ?_⟩, f2⟩
      obtain ⟨v', h', es⟩ := send_state cfg w.1 w.2
      dsimp only
      rw [es]
      exact p1.tools

theorem flush_fine (S : Sane cfg b) (j : Bool) (now : Nat) : ∀ n s, Ok cfg b s →
    Ok cfg b (Pen.flush cfg j now n s).1 ∧ Fine cfg b (events (Pen.flush cfg j now n s).2) := by
  intro n
  induction n with
  | zero => intro s I; exact ⟨⟨I.v, I.tools⟩, fine_nil⟩
  | succ n ih =>
    intro s I
    obtain ⟨p1, p2⟩ := pass_fine S s j now I
    unfold Pen.flush
    dsimp only
    split
    · obtain ⟨i1, i2⟩ := ih _ p1
      refine ⟨i1, ?_⟩
      dsimp only
      rw [events_append]
      exact fine_append p2 i2
    · exact ⟨p1, p2⟩

theorem syn_fine (S : Sane cfg b) (s : Pen) (j : Bool) (now : Nat) (I : Ok cfg b s) :
    Ok cfg b (s.syn cfg j now).1 ∧ Fine cfg b (events (s.syn cfg j now).2) := by
  obtain ⟨f1, f2⟩ := flush_fine S j now 4 s I
  unfold Pen.syn
  dsimp only
  obtain ⟨⟨a, ea⟩, ev⟩ := toggle_state (Pen.flush cfg j now 4 s).1
  rw [ea, events_append, ev, List.append_nil]
  obtain ⟨bd, er⟩ := reset_state { (Pen.flush cfg j now 4 s).1 with arb := a }
  rw [er]
  exact ⟨⟨f1.v, f1.tools⟩, f2⟩

theorem kev_val (s : Pen) (e : KEv) (h : ∀ a v, e = .abs a v → InRange cfg a v) (I : Ok cfg b s) : Ok cfg b (kev cfg s e) := by
  cases e with
  | abs a x =>
    have hr : ∀ c, InRange cfg c (if c = a then x else s.v.raw c) := by
      intro c
      split
      · rename_i e; subst e; exact h c x rfl
      · exact I.v.raw c
    simp only [kev, absEvent]
    split
    · exact ⟨⟨I.v.axes, I.v.hist, I.v.len, hr⟩, I.tools⟩
    · exact ⟨⟨I.v.axes, I.v.hist, I.v.len, hr⟩, I.tools⟩
  | wheel x =>
    obtain ⟨a1, a2, a3, a4, a5, a6, a7, a8⟩ := I.v.axes
    exact ⟨⟨⟨a1, a2, a3, a4, a5, a6, a7, a8⟩, I.v.hist, I.v.len, I.v.raw⟩, I.tools⟩
  | id x => exact ⟨I.v, I.tools⟩
  | serial x => simp only [kev]; split <;> exact ⟨I.v, I.tools⟩
  | key c x =>
    simp only [kev, keyEvent]
    split
    · exact ⟨I.v, I.tools⟩
    · split
      · exact ⟨I.v, I.tools⟩
      · repeat' split
        all_goals exact ⟨I.v, I.tools⟩

theorem fold_val (evs : List KEv) : ∀ s, (∀ a v, KEv.abs a v ∈ evs → InRange cfg a v) → Ok cfg b s → Ok cfg b (evs.foldl (kev cfg) s) := by
  induction evs with
  | nil => intro s _ I; exact I
  | cons e evs ih =>
    intro s h I
    exact ih _ (fun a v hm => h a v (by simp [hm])) (kev_val s e (fun a v he => h a v (by simp [he])) I)

theorem step_fine (S : Sane cfg b) (s : Pen) (op : Op) (hop : op.InRange cfg) (I : Ok cfg b s) :
    Ok cfg b (step cfg s op).1 ∧ Fine cfg b (events (step cfg s op).2) := by
  unfold step
  split
  · exact ⟨I, fine_nil⟩
  · cases op with
    | frame evs now =>
      dsimp only
      split
      · exact syn_fine S _ false now (fold_val evs s hop I)
      · exact ⟨I, fine_nil⟩
    | timeout now =>
      dsimp only
      split
      · split
        · unfold Pen.timeout
          dsimp only
          split
          · obtain ⟨q, e⟩ := setTimer_state { s with q.timer := none } now
            rw [e]; exact ⟨⟨I.v, I.tools⟩, fine_nil⟩
          · split
            · obtain ⟨q, e⟩ := setTimer_state { s with q.timer := none } s.q.lastTime
              rw [e]; exact ⟨⟨I.v, I.tools⟩, fine_nil⟩
            · have I0 : Ok cfg b { s with q.timer := none } := ⟨I.v, I.tools⟩
              have I1 := kev_val _ (.key 320 0) (fun a v h => by cases h) I0
              rw [kev] at I1
              generalize keyEvent cfg _ 320 0 = s₁ at I1 ⊢
              have := syn_fine S s₁ true now I1
              generalize s₁.syn cfg true now = r at this ⊢
              exact ⟨⟨this.1.v, this.1.tools⟩, this.2⟩
        · exact ⟨I, fine_nil⟩
      · exact ⟨I, fine_nil⟩
    | suspend now =>
      dsimp only
      split
      · unfold Pen.suspend
        dsimp only
        obtain ⟨⟨a, ea⟩, ev⟩ := setArb_state s .notActive
        rw [ea]
        split
        · rw [ev]; exact ⟨⟨I.v, I.tools⟩, fine_nil⟩
        · rw [events_append, ev, List.nil_append]
          have I0 : Ok cfg b { s with arb := a, st.leaving := true } := ⟨I.v, I.tools⟩
          have := flush_fine S false now 4 _ I0
          exact ⟨⟨this.1.v, this.1.tools⟩, this.2⟩
      · exact ⟨I, fine_nil⟩
    | resume raw =>
      dsimp only
      split
      · exact ⟨I, fine_nil⟩
      · exact ⟨⟨⟨I.v.axes, I.v.hist, I.v.len, hop⟩, I.tools⟩, fine_nil⟩
    | setLeft c =>
      dsimp only
      obtain ⟨h1, h2, h3⟩ := changeLeft_v { s with h.wantLeft := c }
      rw [h3]
      exact ⟨⟨by rw [h1]; exact I.v, by rw [h2]; exact I.tools⟩, fine_nil⟩
    | touchLeft c =>
      dsimp only
      split
      · obtain ⟨h1, h2, h3⟩ := changeRotation_v { s with h.touchLeft := c } false
        rw [h3]
        exact ⟨⟨by rw [h1]; exact I.v, by rw [h2]; exact I.tools⟩, fine_nil⟩
      · exact ⟨I, fine_nil⟩
    | touchAdded p l =>
      dsimp only
      split
      · split
        · obtain ⟨h1, h2, h3⟩ := changeRotation_v { s with h := { s.h with touch := true, rotTouch := true, touchLeft := true } } true
          rw [h3]
          exact ⟨⟨by rw [h1]; exact I.v, by rw [h2]; exact I.tools⟩, fine_nil⟩
        · exact ⟨⟨I.v, I.tools⟩, fine_nil⟩
      · exact ⟨⟨I.v, I.tools⟩, fine_nil⟩
    | touchRemoved =>
      dsimp only
      split
      · obtain ⟨h1, h2, h3⟩ := changeRotation_v { s with h := { s.h with touch := false, rotTouch := false, touchLeft := false } } true
        rw [h3]
        exact ⟨⟨by rw [h1]; exact I.v, by rw [h2]; exact I.tools⟩, fine_nil⟩
      · exact ⟨⟨I.v, I.tools⟩, fine_nil⟩
    | foreign t =>
      dsimp only
      split
      · exact ⟨I, fine_nil⟩
      · split
        · exact ⟨⟨I.v, putTool_ok s.t t I.tools hop⟩, fine_nil⟩
        · refine ⟨⟨I.v, fun u hu => ?_⟩, fine_nil⟩
          rcases List.mem_cons.1 hu with rfl | h
          · exact hop
          · exact I.tools u h

theorem run_fine (S : Sane cfg b) (ops : List Op) : ∀ s, (∀ op ∈ ops, op.InRange cfg) → Ok cfg b s → Fine cfg b (events (run cfg s ops).2) := by
  induction ops with
  | nil => intro s _ _; exact fine_nil
  | cons op ops ih =>
    intro s h I
    obtain ⟨h1, h2⟩ := step_fine S s op (h op (by simp)) I
    simp only [run, events_append]
    exact fine_append h2 (ih _ (fun o ho => h o (by simp [ho])) h1)

theorem zero_within (S : Sane cfg b) : Within cfg b {} :=
  ⟨⟨min_le_left _ _, le_max_left _ _⟩, ⟨min_le_left _ _, le_max_left _ _⟩, ⟨le_refl _, by decide⟩, ⟨le_refl _, by decide⟩,
   ⟨by decide, by decide⟩, ⟨le_refl _, by decide⟩, ⟨by have := S.bound; show -b ≤ 0; linarith, S.bound⟩,
   ⟨by have := S.bound; show -b ≤ 0; linarith, S.bound⟩⟩

theorem start_val (S : Sane cfg b) (raw : Axis → Int) (tool : Option Kind) (id now : Nat) (hr : ∀ a, InRange cfg a (raw a)) :
    Ok cfg b (start cfg raw tool id now) := by
  have V : Vok cfg b { raw } := ⟨zero_within S, fun _ h => (by cases h), .inl rfl, hr⟩
  unfold start
  dsimp only
  split
  · exact ⟨V, fun _ h => by cases h⟩
  · rename_i k
    have h : ∀ s : Pen, s.v = { raw } → s.t.tools = [] → Ok cfg b { ((s.updateTool (some k) true).setTimer now) with t.id := id } := by
      intro s h1 h2
      obtain ⟨q, e⟩ := setTimer_state (s.updateTool (some k) true) now
      rw [e]
      have hu : (s.updateTool (some k) true).v = s.v ∧ (s.updateTool (some k) true).t.tools = s.t.tools := by
        unfold Pen.updateTool
        repeat' split
        all_goals exact ⟨rfl, rfl⟩
      refine ⟨?_, ?_⟩
      · dsimp only; rw [hu.1, h1]; exact V
      · dsimp only; rw [hu.2, h2]; exact fun _ h => by cases h
    exact h _ rfl rfl

end

end Libinput.Tablet
