import Verif.Ways.Lemmas
import Verif.Motion.Demo
/-!
C66: the ways of fingers.
-/
namespace Libinput.Ways
open Spec Motion Accel

/-! ## Directions -/

theorem long_dirs {v : V} (h : Long v) : dirs v = near (octant v.x v.y) := by
  apply large_near
  rintro ⟨h1, h2⟩
  rcases h with h | h <;> linarith

theorem long_ne {v : V} (h : Long v) : vec v ≠ 0 := by
  intro e
  have hx := congrArg Complex.re e
  have hy := congrArg Complex.im e
  simp only [vec, Complex.zero_re, Complex.zero_im] at hx hy
  rcases h with h | h
  · rw [hx] at h; norm_num at h
  · rw [hy] at h; norm_num at h

theorem deg_scaled {a d : ℝ} (h : a ≤ deg d) : a * 4 / Real.pi ≤ d / 45 := by
  have hp := Real.pi_pos
  unfold deg at h
  rw [div_le_iff₀ hp]
  linarith

theorem scaled_deg {a d : ℝ} (h : deg d < a) : d / 45 < a * 4 / Real.pi := by
  have hp := Real.pi_pos
  unfold deg at h
  rw [lt_div_iff₀ hp]
  linarith

theorem close_same {u v : V} (hu : Long u) (hv : Long v) (h : angle u v ≤ deg 81) : sameDirections (dirs u) (dirs v) = true := by
  obtain ⟨t, k, e, et⟩ := octant_angle (long_ne hu) (long_ne hv)
  rw [long_dirs hu, long_dirs hv]
  refine near_alike (octant_range _ _).1 (octant_range _ _).1 e ?_
  rw [et]
  have := deg_scaled h
  norm_num at this ⊢
  linarith

theorem wide_differ {u v : V} (hu : Long u) (hv : Long v) (h : deg 126 < angle u v) : sameDirections (dirs u) (dirs v) = false := by
  obtain ⟨t, k, e, et⟩ := octant_angle (long_ne hu) (long_ne hv)
  rw [long_dirs hu, long_dirs hv]
  refine near_apart (octant_range _ _).1 (octant_range _ _).1 e ?_ ?_
  · rw [et]
    have := scaled_deg h
    norm_num at this ⊢
    linarith
  · rw [et]; exact angle_le_four u v

theorem mask_contrary {u v : V} (h : Contrary u v) (h0 : vec u ≠ 0) : sameDirections (mask u.x u.y) (mask v.x v.y) = false := by
  obtain ⟨h1, h2, h3, h4⟩ := h
  unfold mask
  simp only [gt_iff_lt, ← h1, ← h2, ← h3, ← h4]
  rcases lt_trichotomy u.x 0 with hx | hx | hx <;> rcases lt_trichotomy u.y 0 with hy | hy | hy
  · simp [hx, hy, not_lt.mpr hx.le, not_lt.mpr hy.le, sameDirections]
  · simp [hx, hy, not_lt.mpr hx.le, sameDirections]
  · simp [hx, hy, not_lt.mpr hx.le, not_lt.mpr hy.le, sameDirections]
  · simp [hx, hy, not_lt.mpr hy.le, sameDirections]
  · exact absurd (by unfold vec; rw [hx, hy]; rfl) h0
  · simp [hx, hy, not_lt.mpr hy.le, sameDirections]
  · simp [hx, hy, not_lt.mpr hx.le, not_lt.mpr hy.le, sameDirections]
  · simp [hx, hy, not_lt.mpr hx.le, sameDirections]
  · simp [hx, hy, not_lt.mpr hx.le, not_lt.mpr hy.le, sameDirections]

theorem contrary_ne {u v : V} (h : Contrary u v) (h0 : vec u ≠ 0) : vec v ≠ 0 := by
  intro e
  have hx := congrArg Complex.re e
  have hy := congrArg Complex.im e
  simp only [vec, Complex.zero_re, Complex.zero_im] at hx hy
  apply h0
  obtain ⟨h1, h2, h3, h4⟩ := h
  rw [hx] at h1 h2
  rw [hy] at h3 h4
  have a : u.x = 0 := le_antisymm (not_lt.mp fun c => lt_irrefl _ (h2.mp c)) (not_lt.mp fun c => lt_irrefl _ (h1.mp c))
  have b : u.y = 0 := le_antisymm (not_lt.mp fun c => lt_irrefl _ (h4.mp c)) (not_lt.mp fun c => lt_irrefl _ (h3.mp c))
  unfold vec; rw [a, b]; rfl

theorem vec_ne {u : V} (h : vec u ≠ 0) : ¬ (u.x = 0 ∧ u.y = 0) := by
  rintro ⟨h1, h2⟩
  apply h
  unfold vec; rw [h1, h2]; rfl

theorem contrary_differ {u v : V} (h : Contrary u v) (h0 : vec u ≠ 0) : sameDirections (dirs u) (dirs v) = false := by
  cases e : sameDirections (dirs u) (dirs v)
  · rfl
  · have := same_mono (within_mask (vec_ne h0)) (within_mask (vec_ne (contrary_ne h h0))) e
    rw [mask_contrary h h0] at this
    cases this

theorem mask_alike {u v : V} (h : Alike u v) : mask u.x u.y = mask v.x v.y := by
  obtain ⟨h1, h2, h3, h4⟩ := h
  unfold mask
  simp only [gt_iff_lt, h1, h2, h3, h4]

theorem short_alike_same {u v : V} (h : Alike u v) (hs : ¬ (Long u ∧ Long v)) (h0 : vec u ≠ 0) (h1 : vec v ≠ 0) :
    sameDirections (dirs u) (dirs v) = true := by
  have short : ∀ w : V, ¬ Long w → |w.x| < 2 ∧ |w.y| < 2 := by
    intro w hw
    unfold Long at hw
    push Not at hw
    exact hw
  apply same_of_common
  show xyDirection u.x u.y &&& xyDirection v.x v.y ≠ 0
  by_cases hu : Long u
  · have hv : ¬ Long v := fun c => hs ⟨hu, c⟩
    rw [small_mask (short v hv), ← mask_alike h, within_mask (vec_ne h0)]
    exact direction_ne_zero u
  · rw [small_mask (short u hu), mask_alike h, Nat.and_comm, within_mask (vec_ne h1)]
    exact direction_ne_zero v

/-! ## Gestures -/

theorem far_of_le {c : Config} {t : Finger} {k m : Nat} (h : c.far t m = true) (l : k ≤ m) : c.far t k = true := by
  unfold Config.far at h ⊢
  simp only [decide_eq_true_eq] at h ⊢
  refine le_trans ?_ h
  have : (k : Int) * c.rx * c.ry ≤ m * c.rx * c.ry := by
    apply Int.mul_le_mul_of_nonneg_right
    apply Int.mul_le_mul_of_nonneg_right
    · exact_mod_cast l
    · exact Int.natCast_nonneg _
    · exact Int.natCast_nonneg _
  have nn : (0 : Int) ≤ k * c.rx * c.ry := by positivity
  nlinarith

/-- When it is decided, the directions decide. -/
theorem detect {s : Pad} {now : Nat} (h : Decided s now) (g : Frame) (d1 d2 : Nat) : s.gestDetect g d1 d2 now =
    if sameDirections d1 d2 = true then (if s.gest.count = 2 then s.toScroll g else s.toSwipe) else s.toPinch := by
  have nl : ¬ s.cfg.numSlots < s.gest.count := by have := h.slots; omega
  have fa := far_of_le h.first (k := 2) (by have := h.two; omega)
  have ap := h.apart
  unfold Pad.gestDetect
  simp only [h.enabled, h.first, h.second, fa, nl, Bool.not_true, Bool.false_and, Bool.and_false, Bool.false_eq_true, if_false,
    decide_false, Bool.false_or, Bool.true_and, Bool.or_self, decide_eq_true_eq, Bool.and_eq_true, ite_self]
  rw [if_neg (by rintro ⟨⟨h1, h2⟩, h3⟩; exact ap ⟨h1, h2, h3⟩)]
  have ef : ∀ b : Bool, s.cfg.far (if b = true then s.touch s.gest.first else s.touch s.gest.second) (s.gest.count + 1) = true := by
    intro b; cases b
    · exact h.second
    · exact h.first
  have eg : ∀ b : Bool, s.cfg.far (if b = true then s.touch s.gest.second else s.touch s.gest.first) (s.gest.count + 1) = true := by
    intro b; cases b
    · exact h.first
    · exact h.second
  have ef' := ef (decide ((s.touch s.gest.second).pos.y < (s.touch s.gest.first).pos.y))
  have eg' := eg (decide ((s.touch s.gest.second).pos.y < (s.touch s.gest.first).pos.y))
  simp only [decide_eq_true_eq] at ef' eg'
  simp only [ef', eg', Bool.not_true, Bool.and_false, Bool.false_and, Bool.false_eq_true, false_and, and_false, if_false]
  cases sameDirections d1 d2
  · simp
  · by_cases c : s.gest.count = 2 <;> simp [c]

theorem post_scroll {s : Pad} {now : Nat} (h : Decided s now) (g : Frame) (hd : sameDirections
    (fingerDirs s.cfg (s.touch s.gest.first)) (fingerDirs s.cfg (s.touch s.gest.second)) = true) : ScrollOrSwipe s.gest.count (gesture s g now) := by
  unfold gesture Pad.postGesture
  rw [h.waiting]
  simp only [reduceCtorEq, if_false]
  rw [if_pos h.waiting, detect h, if_pos hd]
  constructor
  · intro c
    rw [if_pos c]
    simp only [Pad.toScroll, Pad.gestScroll, Pad.gestStart, h.fresh]
    split
    · exact ⟨rfl, by simp⟩
    · split
      · exact ⟨rfl, by simp⟩
      · refine ⟨rfl, ?_⟩
        simp only [beginOut, Bool.false_eq_true, if_false, List.nil_append, List.mem_map]
        rintro o ⟨e, _, rfl⟩
        trivial
  · intro c
    rw [if_neg c]
    simp only [Pad.toSwipe, Pad.gestSwipe, Pad.gestStart, h.fresh]
    split
    · exact ⟨rfl, by simp⟩
    · refine ⟨rfl, ?_⟩
      simp only [beginOut, Bool.false_eq_true, if_false, List.cons_append, List.nil_append, List.mem_cons, List.not_mem_nil, or_false]
      rintro o (rfl | rfl) <;> trivial

theorem post_pinch {s : Pad} {now : Nat} (h : Decided s now) (g : Frame) (hd : sameDirections
    (fingerDirs s.cfg (s.touch s.gest.first)) (fingerDirs s.cfg (s.touch s.gest.second)) = false) : Pinch (gesture s g now) := by
  unfold gesture Pad.postGesture
  rw [h.waiting]
  simp only [reduceCtorEq, if_false]
  rw [if_pos h.waiting, detect h, if_neg (by simp [hd])]
  simp only [Pad.toPinch, Pad.gestPinch, Pad.gestStart, h.fresh]
  split
  · exact ⟨rfl, by simp⟩
  · refine ⟨rfl, ?_⟩
    simp only [beginOut, Bool.false_eq_true, if_false, List.cons_append, List.nil_append, List.mem_cons, List.not_mem_nil, or_false]
    rintro o (rfl | rfl) <;> trivial


/-- C66.  Fingers that move the same way scroll (or swipe, if they are more than two): both have moved 2 mm or more and the angle between their
ways is 81 degrees or less; or one has moved less and both have moved left or both right, and both up or both down. -/
theorem same_way_scrolls {s : Pad} {now : Nat} (h : Decided s now) (g : Frame)
    (hw : Long (way1 s) ∧ Long (way2 s) ∧ angle (way1 s) (way2 s) ≤ deg 81 ∨
      ¬ (Long (way1 s) ∧ Long (way2 s)) ∧ vec (way1 s) ≠ 0 ∧ vec (way2 s) ≠ 0 ∧ Alike (way1 s) (way2 s)) : ScrollOrSwipe s.gest.count (gesture s g now) := by
  apply post_scroll h
  rcases hw with ⟨h1, h2, h3⟩ | ⟨h1, h2, h3, h4⟩
  · exact close_same h1 h2 h3
  · exact short_alike_same h4 h1 h2 h3

/-- C66.  Fingers that move apart or together pinch: both have moved 2 mm or more and the angle between their ways is more than 126 degrees; or one
has moved left and the other right, and one up and the other down, however far. -/
theorem contrary_ways_pinch {s : Pad} {now : Nat} (h : Decided s now) (g : Frame)
    (hw : Long (way1 s) ∧ Long (way2 s) ∧ deg 126 < angle (way1 s) (way2 s) ∨
      vec (way1 s) ≠ 0 ∧ Contrary (way1 s) (way2 s)) : Pinch (gesture s g now) := by
  apply post_pinch h
  rcases hw with ⟨h1, h2, h3⟩ | ⟨h1, h2⟩
  · exact wide_differ h1 h2 h3
  · exact contrary_differ h2 h1

/-- Two fingers of the touchpad of the examples (10 units per mm), 50 mm apart, that have moved so many units. -/
def pair (x1 y1 x2 y2 : Int) : Pad :=
  { demo .twoFinger with
    touches := [{ index := 0, st := .update, dirty := true, start := ⟨200, 200⟩, pos := ⟨200 + x1, 200 + y1⟩ },
      { index := 1, st := .update, dirty := true, start := ⟨700, 200⟩, pos := ⟨700 + x2, 200 + y2⟩ }]
    gest := { st := .unknown, count := 2, first := 0, second := 1 } }

theorem pair_ways (x1 y1 x2 y2 : Int) : way1 (pair x1 y1 x2 y2) = ⟨x1 / 10, y1 / 10⟩ ∧ way2 (pair x1 y1 x2 y2) = ⟨x2 / 10, y2 / 10⟩ := by
  simp [way1, way2, wayMm, pair, Pad.touch, demo, demoConfig, init]

/-- Both go 3 mm to the left and 1 mm down: the angle is 0. -/
example : Decided (pair (-30) 10 (-30) 10) 1000 ∧ Long (way1 (pair (-30) 10 (-30) 10)) ∧ Long (way2 (pair (-30) 10 (-30) 10)) ∧
    angle (way1 (pair (-30) 10 (-30) 10)) (way2 (pair (-30) 10 (-30) 10)) ≤ deg 81 := by
  have hl : Long (way1 (pair (-30) 10 (-30) 10)) := by rw [(pair_ways ..).1]; left; norm_num [abs_of_neg]
  have hr : Long (way2 (pair (-30) 10 (-30) 10)) := by rw [(pair_ways ..).2]; left; norm_num [abs_of_neg]
  refine ⟨⟨rfl, rfl, rfl, by decide, by decide, by decide, by decide, by decide⟩, hl, hr, ?_⟩
  rw [(pair_ways ..).1] at hl ⊢
  rw [(pair_ways ..).2]
  unfold angle
  rw [InnerProductGeometry.angle_self (long_ne hl)]
  unfold deg
  have := Real.pi_pos
  linarith

/-- One goes to the left and up, the other to the right and down. -/
example : Decided (pair (-16) (-1) 16 1) 1000 ∧ vec (way1 (pair (-16) (-1) 16 1)) ≠ 0 ∧ Contrary (way1 (pair (-16) (-1) 16 1)) (way2 (pair (-16) (-1) 16 1)) := by
  refine ⟨⟨rfl, rfl, rfl, by decide, by decide, by decide, by decide, by decide⟩, ?_, ?_⟩
  · rw [(pair_ways ..).1]
    intro e
    have hx := congrArg Complex.re e
    simp [vec] at hx
  · rw [(pair_ways ..).1, (pair_ways ..).2]
    unfold Contrary
    norm_num

/-- C66.  Shown: two fingers that move apart, 1.9 mm to the left and 1.9 mm to the right, scroll if both go down 0.1 mm meanwhile. -/
theorem slow_pinch_scrolls : Decided (pair (-19) 1 19 1) 1000 ∧ way1 (pair (-19) 1 19 1) = ⟨-19 / 10, 1 / 10⟩ ∧
    way2 (pair (-19) 1 19 1) = ⟨19 / 10, 1 / 10⟩ ∧ ∀ g, ScrollOrSwipe 2 (gesture (pair (-19) 1 19 1) g 1000) := by
  have d : Decided (pair (-19) 1 19 1) 1000 := ⟨rfl, rfl, rfl, by decide, by decide, by decide, by decide, by decide⟩
  have w := pair_ways (-19) 1 19 1
  refine ⟨d, by rw [w.1]; norm_num, by rw [w.2]; norm_num, fun g => ?_⟩
  refine post_scroll d g ?_
  show sameDirections (dirs (way1 (pair (-19) 1 19 1))) (dirs (way2 (pair (-19) 1 19 1))) = true
  rw [w.1, w.2]
  unfold dirs
  rw [small_mask (by constructor <;> norm_num [abs_lt]), small_mask (by constructor <;> norm_num [abs_lt])]
  unfold mask
  norm_num
  decide

/-! ## Palms -/

theorem octant_up : octant up.x up.y = 0 := by
  have hp := Real.pi_pos
  have a : Complex.arg ⟨up.x, up.y⟩ = -(Real.pi / 2) := Complex.arg_eq_neg_pi_div_two_iff.mpr ⟨rfl, by simp [up]⟩
  rw [octant_hi (by rw [a]), a]
  field_simp; norm_num

theorem octant_down : octant down.x down.y = 4 := by
  have hp := Real.pi_pos
  have a : Complex.arg ⟨down.x, down.y⟩ = Real.pi / 2 := Complex.arg_eq_pi_div_two_iff.mpr ⟨rfl, by simp [down]⟩
  rw [octant_hi (by rw [a]; linarith), a]
  field_simp; norm_num

theorem up_ne : vec up ≠ 0 := by
  intro e
  have := congrArg Complex.im e
  simp [vec, up] at this

theorem down_ne : vec down ≠ 0 := by
  intro e
  have := congrArg Complex.im e
  simp [vec, down] at this

theorem bit_hit {r t : ℝ} {c : ℕ} {k : ℤ} (hc : c < 8) (hr : 0 ≤ r) (e : r - c = t + 8 * k) (ht : |t| < 0.9) :
    ⌊r + 0.9⌋₊ % 8 = c ∨ ⌊r + 0.1⌋₊ % 8 = c := by
  obtain ⟨a1, a2⟩ := bit_hi hr
  obtain ⟨b1, b2⟩ := bit_lo hr
  obtain ⟨t1, t2⟩ := abs_lt.mp ht
  rcases le_total 0 t with h | h
  · right
    generalize ⌊r + 0.1⌋₊ = B at *
    have l : (B : ℤ) - 8 * k - c < 1 := by
      have : (((B : ℤ) - 8 * k - c : ℤ) : ℝ) < ((1 : ℤ) : ℝ) := by push_cast at *; linarith
      exact_mod_cast this
    have g : -1 < (B : ℤ) - 8 * k - c := by
      have : ((-1 : ℤ) : ℝ) < (((B : ℤ) - 8 * k - c : ℤ) : ℝ) := by push_cast at *; linarith
      exact_mod_cast this
    omega
  · left
    generalize ⌊r + 0.9⌋₊ = B at *
    have l : (B : ℤ) - 8 * k - c < 1 := by
      have : (((B : ℤ) - 8 * k - c : ℤ) : ℝ) < ((1 : ℤ) : ℝ) := by push_cast at *; linarith
      exact_mod_cast this
    have g : -1 < (B : ℤ) - 8 * k - c := by
      have : ((-1 : ℤ) : ℝ) < (((B : ℤ) - 8 * k - c : ℤ) : ℝ) := by push_cast at *; linarith
      exact_mod_cast this
    omega

theorem bit_miss {r t : ℝ} {c : ℕ} {k : ℤ} (hc : c < 8) (hr : 0 ≤ r) (e : r - c = t + 8 * k) (ht : 0.9 < |t|) (ht4 : |t| ≤ 4) :
    ⌊r + 0.9⌋₊ % 8 ≠ c ∧ ⌊r + 0.1⌋₊ % 8 ≠ c := by
  have main : ∀ B : ℕ, ((B : ℤ) : ℝ) ≤ r + 0.9 → r - 0.9 < ((B : ℤ) : ℝ) → B % 8 ≠ c := by
    intro B b1 b2 hB
    obtain ⟨t1, t2⟩ := abs_le.mp ht4
    rcases lt_abs.mp ht with h | h
    · have l : (B : ℤ) - 8 * k - c < 5 := by
        have : (((B : ℤ) - 8 * k - c : ℤ) : ℝ) < ((5 : ℤ) : ℝ) := by push_cast at *; linarith
        exact_mod_cast this
      have g : 0 < (B : ℤ) - 8 * k - c := by
        have : ((0 : ℤ) : ℝ) < (((B : ℤ) - 8 * k - c : ℤ) : ℝ) := by push_cast at *; linarith
        exact_mod_cast this
      omega
    · have l : (B : ℤ) - 8 * k - c < 0 := by
        have : (((B : ℤ) - 8 * k - c : ℤ) : ℝ) < ((0 : ℤ) : ℝ) := by push_cast at *; linarith
        exact_mod_cast this
      have g : -5 < (B : ℤ) - 8 * k - c := by
        have : ((-5 : ℤ) : ℝ) < (((B : ℤ) - 8 * k - c : ℤ) : ℝ) := by push_cast at *; linarith
        exact_mod_cast this
      omega
  obtain ⟨a1, a2⟩ := bit_hi hr
  obtain ⟨b1, b2⟩ := bit_lo hr
  exact ⟨main _ a1 (by linarith), main _ (by linarith) b2⟩

theorem side_bits : ∀ a b : Fin 8, ((2 ^ a.1 ||| 2 ^ b.1) % 256 &&& 238 != 0 && (2 ^ a.1 ||| 2 ^ b.1) % 256 &&& (255 - 238) == 0) =
    decide (a.1 ≠ 0 ∧ b.1 ≠ 0 ∧ a.1 ≠ 4 ∧ b.1 ≠ 4) := by decide +kernel

theorem top_bits : ∀ a b : Fin 8, ((2 ^ a.1 ||| 2 ^ b.1) % 256 &&& 56 != 0 && (2 ^ a.1 ||| 2 ^ b.1) % 256 &&& (255 - 56) == 0) =
    decide (3 ≤ a.1 ∧ a.1 ≤ 5 ∧ 3 ≤ b.1 ∧ b.1 ≤ 5) := by decide +kernel

theorem side_near (r : ℝ) : (near r % 256 &&& 238 != 0 && near r % 256 &&& (255 - 238) == 0) =
    decide (⌊r + 0.9⌋₊ % 8 ≠ 0 ∧ ⌊r + 0.1⌋₊ % 8 ≠ 0 ∧ ⌊r + 0.9⌋₊ % 8 ≠ 4 ∧ ⌊r + 0.1⌋₊ % 8 ≠ 4) :=
  side_bits ⟨⌊r + 0.9⌋₊ % 8, Nat.mod_lt _ (by decide)⟩ ⟨⌊r + 0.1⌋₊ % 8, Nat.mod_lt _ (by decide)⟩

theorem top_near (r : ℝ) : (near r % 256 &&& 56 != 0 && near r % 256 &&& (255 - 56) == 0) =
    decide (3 ≤ ⌊r + 0.9⌋₊ % 8 ∧ ⌊r + 0.9⌋₊ % 8 ≤ 5 ∧ 3 ≤ ⌊r + 0.1⌋₊ % 8 ∧ ⌊r + 0.1⌋₊ % 8 ≤ 5) :=
  top_bits ⟨⌊r + 0.9⌋₊ % 8, Nat.mod_lt _ (by decide)⟩ ⟨⌊r + 0.1⌋₊ % 8, Nat.mod_lt _ (by decide)⟩

theorem deg_scaled_lt {a d : ℝ} (h : a < deg d) : a * 4 / Real.pi < d / 45 := by
  have hp := Real.pi_pos
  unfold deg at h
  rw [div_lt_iff₀ hp]
  linarith


/-- C66.  A finger taken for a palm at the left or the right is one no more if it leaves the strip within 200 ms more sideways than up or down: more than
40.5 degrees away from both.  If it goes less than that away from up or down, or comes late, it stays a palm. -/
theorem palm_leaves_side {s : Pad} {t : Finger} (hside : s.cfg.inSide t.palmFirst = true) (now : Nat) :
    (now < t.palmTime + 200000 → s.cfg.inPalmEdge t.pos = false → Long (palmWay s t) →
      deg 40.5 < angle (palmWay s t) up → deg 40.5 < angle (palmWay s t) down → leaves s t now = true) ∧
    (leaves s t now = true → now < t.palmTime + 200000 ∧ s.cfg.inPalmEdge t.pos = false ∧
      (Long (palmWay s t) → deg 40.5 ≤ angle (palmWay s t) up ∧ deg 40.5 ≤ angle (palmWay s t) down) ∧
      (¬ Long (palmWay s t) → (palmWay s t).y = 0)) := by
  have e : leaves s t now = if now < t.palmTime + 200000 && !s.cfg.inPalmEdge t.pos then
      dirs (palmWay s t) % 256 &&& 238 != 0 && dirs (palmWay s t) % 256 &&& (255 - 238) == 0 else false := by
    unfold leaves Pad.palmMovedOut
    simp only [hside, if_true]
    rfl
  rw [e]
  constructor
  · intro h1 h2 hl hu hd
    rw [if_pos (by simp [h1, h2]), long_dirs hl, side_near, decide_eq_true_eq]
    have r0 := (octant_range (palmWay s t).x (palmWay s t).y).1
    obtain ⟨t1, k1, e1, et1⟩ := octant_angle (long_ne hl) up_ne
    obtain ⟨t2, k2, e2, et2⟩ := octant_angle (long_ne hl) down_ne
    rw [octant_up] at e1
    rw [octant_down] at e2
    have m1 := bit_miss (c := 0) (by decide) r0 (by simpa using e1) (by rw [et1]; have := scaled_deg hu; norm_num at this ⊢; linarith)
      (by rw [et1]; exact angle_le_four _ _)
    have m2 := bit_miss (c := 4) (by decide) r0 (by simpa using e2) (by rw [et2]; have := scaled_deg hd; norm_num at this ⊢; linarith)
      (by rw [et2]; exact angle_le_four _ _)
    exact ⟨m1.1, m1.2, m2.1, m2.2⟩
  · intro h
    split at h
    · rename_i hc
      simp only [Bool.and_eq_true, decide_eq_true_eq, Bool.not_eq_true'] at hc
      refine ⟨hc.1, hc.2, ?_, ?_⟩
      · intro hl
        rw [long_dirs hl, side_near, decide_eq_true_eq] at h
        have r0 := (octant_range (palmWay s t).x (palmWay s t).y).1
        obtain ⟨t1, k1, e1, et1⟩ := octant_angle (long_ne hl) up_ne
        obtain ⟨t2, k2, e2, et2⟩ := octant_angle (long_ne hl) down_ne
        rw [octant_up] at e1
        rw [octant_down] at e2
        constructor
        · by_contra hn
          have := bit_hit (c := 0) (by decide) r0 (by simpa using e1)
            (by rw [et1]; have := deg_scaled_lt (not_le.mp hn); norm_num at this ⊢; linarith)
          rcases this with c | c
          · exact h.1 c
          · exact h.2.1 c
        · by_contra hn
          have := bit_hit (c := 4) (by decide) r0 (by simpa using e2)
            (by rw [et2]; have := deg_scaled_lt (not_le.mp hn); norm_num at this ⊢; linarith)
          rcases this with c | c
          · exact h.2.2.1 c
          · exact h.2.2.2 c
      · intro hs
        have hs' : |(palmWay s t).x| < 2 ∧ |(palmWay s t).y| < 2 := by
          unfold Long at hs
          push Not at hs
          exact hs
        have em : dirs (palmWay s t) = mask (palmWay s t).x (palmWay s t).y := small_mask hs'
        rw [em] at h
        unfold mask at h
        rcases lt_trichotomy (palmWay s t).x 0 with hx | hx | hx <;> rcases lt_trichotomy (palmWay s t).y 0 with hy | hy | hy
        all_goals first
          | exact hy
          | (exfalso; revert h; simp [hx, hy, not_lt.mpr hx.le, not_lt.mpr hy.le])
          | (exfalso; revert h; simp [hx, hy, not_lt.mpr hy.le])
    · cases h

theorem demo_way (t : Finger) : palmWay (demo .twoFinger) t = ⟨((t.pos.x : ℝ) - t.palmFirst.x) / 10, ((t.pos.y : ℝ) - t.palmFirst.y) / 10⟩ := by
  simp [palmWay, wayMm, demo, demoConfig, init]

/-- A finger that goes 10 mm to the right. -/
example : let t : Finger := { index := 0, pos := ⟨110, 300⟩, palmFirst := ⟨10, 300⟩ }
    (demo .twoFinger).cfg.inSide t.palmFirst = true ∧ (demo .twoFinger).cfg.inPalmEdge t.pos = false ∧ Long (palmWay (demo .twoFinger) t) ∧
      deg 40.5 < angle (palmWay (demo .twoFinger) t) up ∧ deg 40.5 < angle (palmWay (demo .twoFinger) t) down := by
  intro t
  have w : palmWay (demo .twoFinger) t = ⟨10, 0⟩ := by rw [demo_way]; norm_num [t]
  have hp := Real.pi_pos
  have hd : deg 40.5 < Real.pi / 2 := by unfold deg; linarith
  refine ⟨by decide, by decide, ?_, ?_, ?_⟩ <;> rw [w]
  · left; norm_num
  · have : angle ⟨10, 0⟩ up = Real.pi / 2 := by
      apply (InnerProductGeometry.inner_eq_zero_iff_angle_eq_pi_div_two _ _).mp
      simp [vec, up, Complex.inner]
    rw [this]; exact hd
  · have : angle ⟨10, 0⟩ down = Real.pi / 2 := by
      apply (InnerProductGeometry.inner_eq_zero_iff_angle_eq_pi_div_two _ _).mp
      simp [vec, down, Complex.inner]
    rw [this]; exact hd

/-- C66.  A finger taken for a palm at the top is one no more if it leaves the strip within 200 ms downwards, less than 49.5 degrees away from
straight down.  If it goes more than that away, or comes late, it stays a palm. -/
theorem palm_leaves_top {s : Pad} {t : Finger} (hside : s.cfg.inSide t.palmFirst = false) (htop : s.cfg.inTop t.palmFirst = true) (now : Nat) :
    (now < t.palmTime + 200000 → s.cfg.inPalmEdge t.pos = false → Long (palmWay s t) → angle (palmWay s t) down < deg 49.5 → leaves s t now = true) ∧
    (leaves s t now = true → now < t.palmTime + 200000 ∧ s.cfg.inPalmEdge t.pos = false ∧
      (Long (palmWay s t) → angle (palmWay s t) down ≤ deg 49.5) ∧ (¬ Long (palmWay s t) → (palmWay s t).x = 0 ∧ 0 < (palmWay s t).y)) := by
  have e : leaves s t now = if now < t.palmTime + 200000 && !s.cfg.inPalmEdge t.pos then
      dirs (palmWay s t) % 256 &&& 56 != 0 && dirs (palmWay s t) % 256 &&& (255 - 56) == 0 else false := by
    unfold leaves Pad.palmMovedOut
    simp only [hside, htop, if_true, Bool.false_eq_true, if_false]
    rfl
  rw [e]
  constructor
  · intro h1 h2 hl hd
    rw [if_pos (by simp [h1, h2]), long_dirs hl, top_near, decide_eq_true_eq]
    have r0 := (octant_range (palmWay s t).x (palmWay s t).y).1
    obtain ⟨t2, k, e2, et2⟩ := octant_angle (long_ne hl) down_ne
    rw [octant_down] at e2
    have ht : |t2| < 1.1 := by rw [et2]; have := deg_scaled_lt hd; norm_num at this ⊢; linarith
    obtain ⟨t3, t4⟩ := abs_lt.mp ht
    obtain ⟨a1, a2⟩ := bit_hi r0
    obtain ⟨b1, b2⟩ := bit_lo r0
    generalize octant (palmWay s t).x (palmWay s t).y = r at *
    generalize ⌊r + 0.9⌋₊ = A at *
    generalize ⌊r + 0.1⌋₊ = B at *
    have l1 : (A : ℤ) - 8 * k - 4 < 2 := by
      have : (((A : ℤ) - 8 * k - 4 : ℤ) : ℝ) < ((2 : ℤ) : ℝ) := by push_cast at *; linarith
      exact_mod_cast this
    have g1 : -2 < (A : ℤ) - 8 * k - 4 := by
      have : ((-2 : ℤ) : ℝ) < (((A : ℤ) - 8 * k - 4 : ℤ) : ℝ) := by push_cast at *; linarith
      exact_mod_cast this
    have l2 : (B : ℤ) - 8 * k - 4 < 2 := by
      have : (((B : ℤ) - 8 * k - 4 : ℤ) : ℝ) < ((2 : ℤ) : ℝ) := by push_cast at *; linarith
      exact_mod_cast this
    have g2 : -2 < (B : ℤ) - 8 * k - 4 := by
      have : ((-2 : ℤ) : ℝ) < (((B : ℤ) - 8 * k - 4 : ℤ) : ℝ) := by push_cast at *; linarith
      exact_mod_cast this
    omega
  · intro h
    split at h
    · rename_i hc
      simp only [Bool.and_eq_true, decide_eq_true_eq, Bool.not_eq_true'] at hc
      refine ⟨hc.1, hc.2, ?_, ?_⟩
      · intro hl
        rw [long_dirs hl, top_near, decide_eq_true_eq] at h
        have r0 := (octant_range (palmWay s t).x (palmWay s t).y).1
        obtain ⟨t2, k, e2, et2⟩ := octant_angle (long_ne hl) down_ne
        rw [octant_down] at e2
        by_contra hn
        have ht : 1.1 < |t2| := by rw [et2]; have := scaled_deg (not_le.mp hn); norm_num at this ⊢; linarith
        have ht4 : |t2| ≤ 4 := by rw [et2]; exact angle_le_four _ _
        obtain ⟨t3, t4⟩ := abs_le.mp ht4
        obtain ⟨a1, a2⟩ := bit_hi r0
        obtain ⟨b1, b2⟩ := bit_lo r0
        generalize octant (palmWay s t).x (palmWay s t).y = r at *
        generalize ⌊r + 0.9⌋₊ = A at *
        generalize ⌊r + 0.1⌋₊ = B at *
        rcases lt_abs.mp ht with c | c
        · have l1 : (A : ℤ) - 8 * k - 4 < 5 := by
            have : (((A : ℤ) - 8 * k - 4 : ℤ) : ℝ) < ((5 : ℤ) : ℝ) := by push_cast at *; linarith
            exact_mod_cast this
          have g1 : 1 < (A : ℤ) - 8 * k - 4 := by
            have : ((1 : ℤ) : ℝ) < (((A : ℤ) - 8 * k - 4 : ℤ) : ℝ) := by push_cast at *; linarith
            exact_mod_cast this
          omega
        · have l2 : (B : ℤ) - 8 * k - 4 < -1 := by
            have : (((B : ℤ) - 8 * k - 4 : ℤ) : ℝ) < ((-1 : ℤ) : ℝ) := by push_cast at *; linarith
            exact_mod_cast this
          have g2 : -5 < (B : ℤ) - 8 * k - 4 := by
            have : ((-5 : ℤ) : ℝ) < (((B : ℤ) - 8 * k - 4 : ℤ) : ℝ) := by push_cast at *; linarith
            exact_mod_cast this
          omega
      · intro hs
        have hs' : |(palmWay s t).x| < 2 ∧ |(palmWay s t).y| < 2 := by
          unfold Long at hs
          push Not at hs
          exact hs
        have em : dirs (palmWay s t) = mask (palmWay s t).x (palmWay s t).y := small_mask hs'
        rw [em] at h
        unfold mask at h
        rcases lt_trichotomy (palmWay s t).x 0 with hx | hx | hx <;> rcases lt_trichotomy (palmWay s t).y 0 with hy | hy | hy
        all_goals first
          | exact ⟨hx, hy⟩
          | (exfalso; revert h; simp [hx, hy, not_lt.mpr hx.le, not_lt.mpr hy.le])
          | (exfalso; revert h; simp [hx, hy, not_lt.mpr hy.le])
          | (exfalso; revert h; simp [hx, hy, not_lt.mpr hx.le])
    · cases h

/-- A finger that goes 10 mm down from the top. -/
example : let t : Finger := { index := 0, pos := ⟨300, 95⟩, palmFirst := ⟨300, -5⟩ }
    (demo .twoFinger).cfg.inSide t.palmFirst = false ∧ (demo .twoFinger).cfg.inTop t.palmFirst = true ∧
      (demo .twoFinger).cfg.inPalmEdge t.pos = false ∧ Long (palmWay (demo .twoFinger) t) ∧ angle (palmWay (demo .twoFinger) t) down < deg 49.5 := by
  intro t
  have w : palmWay (demo .twoFinger) t = ⟨0, 10⟩ := by rw [demo_way]; norm_num [t]
  have hp := Real.pi_pos
  refine ⟨by decide, by decide, by decide, ?_, ?_⟩ <;> rw [w]
  · right; norm_num
  · have e : vec ⟨0, 10⟩ = (10 : ℝ) • vec down := by
      apply Complex.ext <;> simp [vec, down]
    unfold angle
    rw [e, InnerProductGeometry.angle_smul_left_of_pos _ _ (by norm_num), InnerProductGeometry.angle_self down_ne]
    unfold deg
    linarith

end Libinput.Ways
