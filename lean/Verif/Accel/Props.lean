import Verif.Accel.Direction
/-
C49: acceleration scales movements within the limits of the speed setting.
-/
namespace Libinput.Accel

/-- C49.  For every device there is a function of the speed setting, the velocity of a movement and the velocity of the movement
before, that never falls when any of them rises, that is at its lowest at rest and between its limits always, and such
that after any history of movements, restarts and settings a movement is turned into the movement in natural units times this factor,
the same for both axes. -/
theorem movement_is_scaled (hw : Hw) (hv : hw.Valid) :
    ∃ (g : ℝ → ℝ) (F : ℝ → ℝ → ℝ → ℝ), IsCurve g ∧ Rising F ∧
      (∀ s v l, IsSpeed s → 0 ≤ v → 0 ≤ l → hw.lowest g s ≤ F s v l ∧ F s v l ≤ hw.highest g s) ∧
      (∀ s, IsSpeed s → F s 0 0 = hw.lowest g s) ∧
      (hw.kind ≠ .trackpoint → ∀ s, IsSpeed s → ∃ V, 0 ≤ V ∧ ∀ v l, V ≤ v → V ≤ l → F s v l = hw.highest g s) ∧
      (∀ s v l, hw.medium s v → hw.medium s l → F s v l = hw.plain g s) ∧
      ∀ s f ops e, hw.filter s = some f → f.run ops = some e → ∀ c d t, ∃ v last,
        IsVelocity (hw.hist (ops ++ [.move c d t])) hw.clock hw.memory t v ∧ hw.IsLast ops last ∧
        (e.dispatch c d t).1 = (hw.natural c d).mul (F (speedAfter s ops) v last) := by
  refine ⟨speedFactor, hw.factor, speedFactor_curve, factor_rising hw,
    fun s v l hs h0 hl => ⟨factor_ge hw hv hs h0 hl, factor_le hw hs h0 hl⟩, fun s hs => factor_zero hw hv hs,
    fun hk s hs => factor_high hw hv hs hk, fun s v l h1 h2 => factor_medium hw hv h1 h2, fun s f ops e hf he c d t => ?_⟩
  obtain ⟨last, h1, h2, -⟩ := run_at ops hf he
  obtain ⟨v, hvv, ho, -⟩ := dispatch_at h2 c d t
  exact ⟨v, last, by rw [hist_snoc]; exact hvv, h1, ho⟩

/-- A usual mouse. -/
def usual (dpi : Nat) : Hw := ⟨.mouse, dpi, false, 1, 1, 1⟩

/-- A device, a velocity at which it is neither slowed down nor sped up, and histories (the next theorem: filters of all devices run). -/
example : (usual 1000).Valid ∧ (usual 1000).medium 0 0.0003 ∧ (usual 1000).plain speedFactor 0 = 1 ∧
    (usual 1000).lowest speedFactor 0 = 0.3 ∧ (usual 1000).highest speedFactor 1 = 3.5 := by
  refine ⟨⟨by decide, by decide, by norm_num [usual], by norm_num [usual], by norm_num [usual]⟩, ?_, ?_, ?_, ?_⟩ <;>
    norm_num [usual, Hw.medium, Hw.plain, Hw.lowest, Hw.highest]

/-- C49.  The filter can be made and any history of accepted settings runs through: no assertion fails. -/
theorem filters_run (hw : Hw) (s : ℝ) (hs : IsSpeed s) (ops : List Op) (h : ∀ s, Op.setSpeed s ∈ ops → IsSpeed s) :
    ∃ f e, hw.filter s = some f ∧ f.run ops = some e := by
  obtain ⟨f, hf⟩ := setSpeed_some hw.create s hs
  obtain ⟨e, he⟩ := run_some f ops h
  exact ⟨f, e, hf, he⟩

example : IsSpeed 0 ∧ ∀ s, Op.setSpeed s ∈ [Op.move false ⟨3, 4⟩ 1000, .setSpeed 0.5, .restart 2000, .move true ⟨1, 0⟩ 3000] → IsSpeed s := by
  constructor
  · constructor <;> norm_num
  · intro s h
    simp at h
    subst h
    constructor <;> norm_num

/-- C49.  The velocity is one of the specification, which leaves no choice. -/
theorem velocity_is_determined (hw : Hw) (h : Hist) (now : Nat) : ∃! v, IsVelocity h hw.clock hw.memory now v := by
  obtain ⟨v, hv⟩ := isVelocity_exists h hw.clock hw.memory now (memory_two hw) (clock_ok hw)
  exact ⟨v, hv, fun w hw' => isVelocity_unique hw' hv⟩

/-- C49.  A time to divide by is never 0. -/
theorem time_is_positive (hw : Hw) (a b : Nat) : 0 < hw.clock.between a b := by
  unfold Clock.between
  split
  · rename_i h
    revert h
    unfold Hw.clock
    split <;> simp
  · omega

theorem hist_plain (hw : Hw) (ops : List Op) : hw.hist (withoutSettings ops) = hw.hist ops := by
  induction ops using List.reverseRecOn with
  | nil => rfl
  | append_singleton ops op ih =>
    unfold withoutSettings at *
    rw [List.filter_append, hist_snoc]
    cases op with
    | setSpeed s => simp only [List.filter_cons, List.filter_nil, Bool.false_eq_true, if_false, List.append_nil]; exact ih
    | move c d t => simp only [List.filter_cons, List.filter_nil, if_true]; rw [hist_snoc, ih]
    | restart t => simp only [List.filter_cons, List.filter_nil, if_true]; rw [hist_snoc, ih]

theorem plain_append (a b : List Op) : withoutSettings (a ++ b) = withoutSettings a ++ withoutSettings b := List.filter_append ..

theorem isLast_plain {hw : Hw} {ops : List Op} {v : ℝ} (h : hw.IsLast ops v) : hw.IsLast (withoutSettings ops) v := by
  rcases h with ⟨h1, h2⟩ | ⟨pre, c, d, t, post, h1, h2, h3⟩
  · exact Or.inl ⟨h1, fun o ho => h2 o (List.mem_filter.mp ho).1⟩
  · refine Or.inr ⟨withoutSettings pre, c, d, t, withoutSettings post, ?_, fun o ho => h2 o (List.mem_filter.mp ho).1, ?_⟩
    · rw [h1, plain_append]; rfl
    · have : withoutSettings pre ++ [Op.move c d t] = withoutSettings (pre ++ [Op.move c d t]) := by rw [plain_append]; rfl
      rw [this, hist_plain]; exact h3

theorem split_unique {a b c d : List Op} {x y : Op} (h : a ++ x :: b = c ++ y :: d) (hx : x.isMove = true) (hy : y.isMove = true)
    (hb : ∀ o ∈ b, o.isMove = false) (hd : ∀ o ∈ d, o.isMove = false) : a = c ∧ x = y := by
  rcases List.append_eq_append_iff.mp h with ⟨e, h1, h2⟩ | ⟨e, h1, h2⟩
  · cases e with
    | nil => simp at h1 h2; exact ⟨h1.symm, h2.1⟩
    | cons z e =>
      simp at h2
      have := hb y (by rw [h2.2]; simp)
      rw [this] at hy; cases hy
  · cases e with
    | nil => simp at h1 h2; exact ⟨h1, h2.1.symm⟩
    | cons z e =>
      simp at h2
      have := hd x (by rw [h2.2]; simp)
      rw [this] at hx; cases hx

theorem isLast_unique {hw : Hw} {ops : List Op} {v w : ℝ} (h1 : hw.IsLast ops v) (h2 : hw.IsLast ops w) : v = w := by
  rcases h1 with ⟨a1, a2⟩ | ⟨pre, c, d, t, post, a1, a2, a3⟩ <;> rcases h2 with ⟨b1, b2⟩ | ⟨pre', c', d', t', post', b1, b2, b3⟩
  · rw [a1, b1]
  · have := a2 (.move c' d' t') (by rw [b1]; simp)
    cases this
  · have := b2 (.move c d t) (by rw [a1]; simp)
    cases this
  · obtain ⟨e1, e2⟩ := split_unique (a1.symm.trans b1) rfl rfl a2 b2
    subst e1
    cases e2
    exact isVelocity_unique a3 b3

/-- What a filter does, from the history alone. -/
theorem output_eq {hw : Hw} {s : ℝ} {f e : Filter} {ops : List Op} (hf : hw.filter s = some f) (he : f.run ops = some e) (c : Bool) (d : V) (t : Nat)
    {v last : ℝ} (hv : IsVelocity (hw.hist (ops ++ [.move c d t])) hw.clock hw.memory t v) (hl : hw.IsLast ops last) :
    (e.dispatch c d t).1 = (hw.natural c d).mul (hw.factor (speedAfter s ops) v last) := by
  obtain ⟨last', h1, h2, -⟩ := run_at ops hf he
  obtain ⟨v', hvv, ho, -⟩ := dispatch_at h2 c d t
  rw [ho]
  rw [hist_snoc] at hv
  rw [isVelocity_unique hvv hv, isLast_unique h1 hl]

/-- C49.  Of two filters of a device that were given the same movements and restarts, the one with the higher speed setting
moves the pointer at least as far, whatever the settings were before. -/
theorem higher_speed_is_not_slower (hw : Hw) (hv : hw.Valid) {s s' : ℝ} {f f' e e' : Filter} {ops ops' : List Op}
    (hf : hw.filter s = some f) (he : f.run ops = some e) (hf' : hw.filter s' = some f') (he' : f'.run ops' = some e')
    (hsame : withoutSettings ops = withoutSettings ops') (hle : speedAfter s ops ≤ speedAfter s' ops') (c : Bool) (d : V) (t : Nat) :
    |(e.dispatch c d t).1.x| ≤ |(e'.dispatch c d t).1.x| ∧ |(e.dispatch c d t).1.y| ≤ |(e'.dispatch c d t).1.y| := by
  obtain ⟨last, h1, h2, h3⟩ := run_at ops hf he
  obtain ⟨last', h1', h2', h3'⟩ := run_at ops' hf' he'
  have hl : last = last' := isLast_unique (isLast_plain h1) (hsame ▸ isLast_plain h1')
  obtain ⟨v, hvv, ho, -⟩ := dispatch_at h2 c d t
  obtain ⟨v', hvv', ho', -⟩ := dispatch_at h2' c d t
  have hh : hw.hist ops = hw.hist ops' := by rw [← hist_plain, hsame, hist_plain]
  rw [hh] at hvv
  have hveq := isVelocity_unique hvv hvv'
  have h0 := isVelocity_nonneg hvv
  have hl0 := isLast_nonneg h1
  have hF := (factor_rising hw).rising _ _ v v last last h3 h3' hle h0 (le_refl _) hl0 (le_refl _)
  have hlow : 0 ≤ hw.lowest speedFactor (speedAfter s ops) := by
    have := speedFactor_pos h3.1
    have h5 := h3.1
    unfold Hw.lowest
    split <;> try positivity
    linarith
  have hge := factor_ge hw hv h3 h0 hl0
  rw [ho, ho', ← hveq, ← hl]
  unfold V.mul
  simp only [abs_mul]
  have ha : |hw.factor (speedAfter s ops) v last| ≤ |hw.factor (speedAfter s' ops') v last| := by
    rw [abs_of_nonneg (by linarith), abs_of_nonneg (by linarith)]; exact hF
  exact ⟨mul_le_mul_of_nonneg_right ha (abs_nonneg _), mul_le_mul_of_nonneg_right ha (abs_nonneg _)⟩

/-- A touchpad whose speed was lowered in between, and one whose speed was raised. -/
example : withoutSettings [.move false ⟨3, 4⟩ 1000, .setSpeed (-0.5), .move false ⟨3, 4⟩ 2000] =
      withoutSettings [.move false ⟨3, 4⟩ 1000, .move false ⟨3, 4⟩ 2000, .setSpeed 1] ∧
    speedAfter 0 [.move false ⟨3, 4⟩ 1000, .setSpeed (-0.5), .move false ⟨3, 4⟩ 2000] ≤
      speedAfter 0 [.move false ⟨3, 4⟩ 1000, .move false ⟨3, 4⟩ 2000, .setSpeed 1] := by
  refine ⟨rfl, ?_⟩
  norm_num [speedAfter]

/-- C49.  The pointer goes where the device goes: no axis is reversed or made up, no movement comes out of nothing. -/
theorem movement_keeps_direction (hw : Hw) (hv : hw.Valid) {s : ℝ} {f e : Filter} {ops : List Op} (hf : hw.filter s = some f)
    (he : f.run ops = some e) (c : Bool) (d : V) (t : Nat) :
    0 ≤ (e.dispatch c d t).1.x * d.x ∧ 0 ≤ (e.dispatch c d t).1.y * d.y ∧
    (d.x = 0 → (e.dispatch c d t).1.x = 0) ∧ (d.y = 0 → (e.dispatch c d t).1.y = 0) ∧
    (hw.kind ≠ .tablet → (e.dispatch c d t).1.x * d.y = (e.dispatch c d t).1.y * d.x) ∧
    (hw.kind ≠ .x230 → ¬ (hw.kind = .tablet ∧ speedAfter s ops = -1) →
      (d.x ≠ 0 → (e.dispatch c d t).1.x ≠ 0) ∧ (d.y ≠ 0 → (e.dispatch c d t).1.y ≠ 0)) := by
  obtain ⟨last, h1, h2, h3⟩ := run_at ops hf he
  obtain ⟨v, hvv, ho, -⟩ := dispatch_at h2 c d t
  have hge := factor_ge hw hv h3 (isVelocity_nonneg hvv) (isLast_nonneg h1)
  have hsp := speedFactor_pos h3.1
  have h5 := h3.1
  have hlow : 0 ≤ hw.lowest speedFactor (speedAfter s ops) := by
    unfold Hw.lowest
    split <;> try positivity
    linarith
  have hpos : hw.kind ≠ .x230 → ¬ (hw.kind = .tablet ∧ speedAfter s ops = -1) → 0 < hw.lowest speedFactor (speedAfter s ops) := by
    intro hx ht
    unfold Hw.lowest
    cases hk : hw.kind with
    | x230 => exact absurd hk hx
    | tablet =>
      dsimp only
      have : speedAfter s ops ≠ -1 := fun h => ht ⟨hk, h⟩
      have := lt_of_le_of_ne h5 (Ne.symm this)
      linarith
    | _ => dsimp only; positivity
  have hdpi : (0 : ℝ) < hw.dpi := by exact_mod_cast hv.dpi
  have hm := hv.multiplier
  have hxr : (0 : ℝ) < hw.xres := by exact_mod_cast hv.xres
  have hyr : (0 : ℝ) < hw.yres := by exact_mod_cast hv.yres
  obtain ⟨a, b, ha, hb, hab, hn⟩ : ∃ a b : ℝ, 0 < a ∧ 0 < b ∧ (hw.kind ≠ .tablet → a = b) ∧ hw.natural c d = ⟨a * d.x, b * d.y⟩ := by
    unfold Hw.natural
    cases hk : hw.kind with
    | tablet =>
      cases c with
      | true => exact ⟨_, _, by positivity, by positivity, fun h => absurd rfl h, rfl⟩
      | false => exact ⟨96 / 25.4 * 2.5 / hw.xres, 96 / 25.4 * 2.5 / hw.yres, by positivity, by positivity, fun h => absurd rfl h, rfl⟩
    | lowDpi => exact ⟨1, 1, one_pos, one_pos, fun _ => rfl, by rw [one_mul, one_mul]⟩
    | flat => exact ⟨1, 1, one_pos, one_pos, fun _ => rfl, by rw [one_mul, one_mul]⟩
    | touchpadFlat => exact ⟨1, 1, one_pos, one_pos, fun _ => rfl, by rw [one_mul, one_mul]⟩
    | trackpoint => exact ⟨_, _, hm, hm, fun _ => rfl, rfl⟩
    | mouse => exact ⟨1000 / hw.dpi, 1000 / hw.dpi, by positivity, by positivity, fun _ => rfl, rfl⟩
    | x230 => exact ⟨1000 / hw.dpi, 1000 / hw.dpi, by positivity, by positivity, fun _ => rfl, rfl⟩
    | touchpad b => exact ⟨1000 / hw.dpi, 1000 / hw.dpi, by positivity, by positivity, fun _ => rfl, rfl⟩
  rw [ho, hn]
  generalize hw.factor (speedAfter s ops) v last = k at *
  have hk0 : 0 ≤ k := by linarith
  unfold V.mul
  dsimp only
  refine ⟨?_, ?_, fun h => by rw [h]; ring, fun h => by rw [h]; ring, fun h => ?_, fun hx ht => ?_⟩
  · have : k * (a * d.x) * d.x = k * a * (d.x * d.x) := by ring
    rw [this]; exact mul_nonneg (mul_nonneg hk0 ha.le) (mul_self_nonneg _)
  · have : k * (b * d.y) * d.y = k * b * (d.y * d.y) := by ring
    rw [this]; exact mul_nonneg (mul_nonneg hk0 hb.le) (mul_self_nonneg _)
  · rw [hab h]; ring
  · have hk1 : 0 < k := lt_of_lt_of_le (hpos hx ht) hge
    exact ⟨fun h => mul_ne_zero hk1.ne' (mul_ne_zero ha.ne' h), fun h => mul_ne_zero hk1.ne' (mul_ne_zero hb.ne' h)⟩

/-! ### Straight on and back -/

/-- C49.  Going on straight has a direction in common. -/
theorem straight_on_is_alike (d : V) (k : ℝ) (hk : 0 < k) : direction d &&& direction (d.mul k) ≠ 0 := by
  by_cases h0 : d.x = 0 ∧ d.y = 0
  · have : d.mul k = d := by
      unfold V.mul; rw [h0.1, h0.2, mul_zero]
      ext
      · exact h0.1.symm
      · exact h0.2.symm
    rw [this, Nat.and_self]; exact direction_ne_zero d
  · have h0' : ¬ (k * d.x = 0 ∧ k * d.y = 0) := fun h => h0
      ⟨(mul_eq_zero.mp h.1).resolve_left hk.ne', (mul_eq_zero.mp h.2).resolve_left hk.ne'⟩
    have hmm := mask_scaled (x := d.x) (y := d.y) hk
    show xyDirection d.x d.y &&& xyDirection (k * d.x) (k * d.y) ≠ 0
    by_cases hs : |d.x| < 2 ∧ |d.y| < 2
    · rw [small_mask hs, ← hmm, Nat.and_comm, within_mask h0']
      exact direction_ne_zero (d.mul k)
    · by_cases hs' : |k * d.x| < 2 ∧ |k * d.y| < 2
      · rw [small_mask hs', hmm, within_mask h0]
        exact direction_ne_zero d
      · rw [large_near hs, large_near hs']
        have : octant (k * d.x) (k * d.y) = octant d.x d.y := by
          unfold octant
          have : (⟨k * d.x, k * d.y⟩ : ℂ) = (k : ℂ) * ⟨d.x, d.y⟩ := by
            apply Complex.ext <;> simp
          rw [this, Complex.arg_real_mul _ hk]
        rw [this, Nat.and_self]; exact near_ne_zero _

/-- C49.  Going back has no direction in common. -/
theorem going_back_is_a_turn (d : V) (k : ℝ) (hk : 0 < k) (h0 : ¬ (d.x = 0 ∧ d.y = 0)) : direction d &&& direction (d.mul (-k)) = 0 := by
  have h0' : ¬ (-(k * d.x) = 0 ∧ -(k * d.y) = 0) := fun h => h0
    ⟨(mul_eq_zero.mp (neg_eq_zero.mp h.1)).resolve_left hk.ne', (mul_eq_zero.mp (neg_eq_zero.mp h.2)).resolve_left hk.ne'⟩
  have e : direction (d.mul (-k)) = xyDirection (-(k * d.x)) (-(k * d.y)) := by
    unfold direction V.mul; simp only [neg_mul]
  rw [e]
  unfold direction
  rw [← within_mask h0, ← within_mask h0']
  have := mask_back hk h0
  rw [Nat.and_assoc, ← Nat.and_assoc (mask d.x d.y), Nat.and_comm (mask d.x d.y), Nat.and_assoc, this]
  simp

/-! ### What is forgotten -/

/-- C49.  What was before a restart is forgotten with the first movement after it (on trackpoints with the restart): two filters at the same speed
setting do the same from then on, whatever was before. -/
theorem restart_forgets (hw : Hw) {s s' : ℝ} {f f' e e' : Filter} (a b : List Op) (t : Nat) (l : List Op)
    (hf : hw.filter s = some f) (he : f.run (a ++ .restart t :: l) = some e) (hf' : hw.filter s' = some f') (he' : f'.run (b ++ .restart t :: l) = some e')
    (hs : speedAfter s (a ++ .restart t :: l) = speedAfter s' (b ++ .restart t :: l))
    (hk : (∃ op ∈ l, op.isMove = true) ∨ hw.kind = .trackpoint) (c : Bool) (d : V) (u : Nat) :
    (e.dispatch c d u).1 = (e'.dispatch c d u).1 := by
  have hist_eq : ∀ (x m : List Op), hw.hist (x ++ .restart t :: m) = hw.hist (.restart t :: m) := by
    intro x m
    unfold Hw.hist
    rw [List.foldl_append]
    rfl
  obtain ⟨last, h1, h2, h3⟩ := run_at _ hf he
  obtain ⟨last', h1', h2', h3'⟩ := run_at _ hf' he'
  obtain ⟨v, hvv, ho, -⟩ := dispatch_at h2 c d u
  obtain ⟨v', hvv', ho', -⟩ := dispatch_at h2' c d u
  rw [hist_eq] at hvv hvv'
  rw [ho, ho', hs, isVelocity_unique hvv hvv']
  rcases hk with hk | hk
  · have key : ∀ (x : List Op) (w : ℝ), hw.IsLast (x ++ .restart t :: l) w → hw.IsLast (.restart t :: l) w := by
      intro x w hl
      rcases hl with ⟨-, g2⟩ | ⟨pre, c', d', u', post, g1, g2, g3⟩
      · obtain ⟨op, ho1, ho2⟩ := hk
        have := g2 op (by simp [ho1])
        rw [this] at ho2; cases ho2
      · rcases List.append_eq_append_iff.mp g1 with ⟨z, g4, g5⟩ | ⟨z, g4, g5⟩
        · cases z with
          | nil => simp at g5
          | cons y z =>
            simp only [List.cons_append, List.cons.injEq] at g5
            refine Or.inr ⟨.restart t :: z, c', d', u', post, by rw [g5.2]; rfl, g2, ?_⟩
            rw [g4, List.append_assoc, ← g5.1] at g3
            have := hist_eq x (z ++ [Op.move c' d' u'])
            simp only [List.cons_append] at g3 this ⊢
            rw [← this]; exact g3
        · cases z with
          | nil => simp at g5
          | cons y z =>
            simp only [List.cons_append, List.cons.injEq] at g5
            obtain ⟨op, ho1, ho2⟩ := hk
            have := g2 op (by rw [g5.2]; simp [ho1])
            rw [this] at ho2; cases ho2
    rw [isLast_unique (key a last h1) (key b last' h1')]
  · unfold Hw.factor; rw [hk]

/-- C49.  Without acceleration (used for scrolling and gestures), a movement is scaled by a constant, whatever the history and the setting. -/
theorem constant_is_constant (hw : Hw) {s : ℝ} {f e : Filter} {ops : List Op} (hf : hw.filter s = some f) (he : f.run ops = some e) (d : V) :
    e.constant d =
      match hw.kind with
      | .mouse | .lowDpi | .flat => some (d.mul (1000 / hw.dpi))
      | .x230 => some (d.mul (0.1 * (1000 / hw.dpi)))
      | .touchpad _ => some (d.mul (0.9 * 0.2968 * (1000 / hw.dpi)))
      | .touchpadFlat => some (d.mul (0.2968 * (1000 / hw.dpi)))
      | .trackpoint => some (d.mul hw.multiplier)
      | .tablet => none := by
  obtain ⟨last, -, h2, -⟩ := run_at ops hf he
  obtain ⟨tk, h1, -⟩ := h2.ex
  unfold Filter.constant
  rw [h1]
  unfold Hw.implAt
  cases hw.kind <;> simp only [normalizeForDpi, V.mul, defaultMouseDpi, Option.some.injEq, V.mk.injEq] <;> push_cast <;>
    (constructor <;> ring)

/-! ### What it is not -/

/-- On devices that do not average, the velocity is that of the last movement. -/
theorem velocity_one {h : Hist} {c : Clock} {now : Nat} (hr : h.recent now 1) : IsVelocity h c 2 now (h.velocity c now 1) := by
  by_cases hc : h.common 1 = 0
  · exact .turned hr hc rfl
  · refine .since 1 (le_refl _) (by omega) ?_ (fun h => by omega) rfl
    intro j h1 h2
    obtain rfl : j = 1 := by omega
    refine ⟨hr, hc, ?_⟩
    rintro ⟨i, ⟨h3, h4, -⟩, -⟩
    omega

theorem length_x (x : ℝ) (h : 0 ≤ x) : (⟨x, 0⟩ : V).length = x := by
  unfold V.length
  dsimp only
  rw [zero_pow (by norm_num), add_zero, Real.sqrt_sq h]

/-- C49.  The first movement after a restart still depends on what was before: a fast movement before the restart makes it faster.
That is why `restart_forgets` is about what follows the first movement. -/
theorem first_movement_after_restart_remembers :
    ∃ (f e e' : Filter) (c : Bool) (d : V) (t : Nat), (usual 1000).filter 0 = some f ∧
      f.run [.restart 20] = some e ∧ f.run [.move false ⟨1000, 0⟩ 10, .restart 20] = some e' ∧
      (e.dispatch c d t).1.x < (e'.dispatch c d t).1.x := by
  obtain ⟨f, hf⟩ := setSpeed_some (usual 1000).create 0 ⟨by norm_num, by norm_num⟩
  obtain ⟨e, he⟩ := run_some f [.restart 20] (by simp)
  obtain ⟨e', he'⟩ := run_some f [.move false ⟨1000, 0⟩ 10, .restart 20] (by simp)
  refine ⟨f, e, e', false, ⟨0.0001, 0⟩, 21, hf, he, he', ?_⟩
  have hm : (usual 1000).memory = 2 := rfl
  have hseen : ∀ x : ℝ, (usual 1000).seen ⟨x, 0⟩ = ⟨x, 0⟩ := fun x => by norm_num [usual, Hw.seen]
  have hnat : ∀ x : ℝ, (usual 1000).natural false ⟨x, 0⟩ = ⟨x, 0⟩ := fun x => by norm_num [usual, Hw.natural]
  have v1 : IsVelocity ((usual 1000).hist ([Op.restart 20] ++ [.move false ⟨0.0001, 0⟩ 21])) (usual 1000).clock (usual 1000).memory 21 0.00005 := by
    have := velocity_one (h := (usual 1000).hist ([Op.restart 20] ++ [.move false ⟨0.0001, 0⟩ 21])) (c := (usual 1000).clock) (now := 21)
      (by simp [Hw.hist, Hw.after, Hist.recent, Hist.nth])
    have hx : ((usual 1000).hist ([Op.restart 20] ++ [.move false ⟨0.0001, 0⟩ 21])).velocity (usual 1000).clock 21 1 = 0.00005 := by
      simp only [Hw.hist, Hw.after, Hist.velocity, Hist.since, Hist.nth, List.foldl, List.cons_append, List.nil_append, hseen, zero_add]
      rw [length_x _ (by norm_num)]
      norm_num [Clock.between, Hw.clock, usual]
    rw [hx] at this; rw [hm]; exact this
  have v2 : IsVelocity ((usual 1000).hist ([Op.move false ⟨1000, 0⟩ 10, .restart 20] ++ [.move false ⟨0.0001, 0⟩ 21])) (usual 1000).clock (usual 1000).memory 21 0.00005 := v1
  have v3 : IsVelocity ((usual 1000).hist ([] ++ [.move false ⟨1000, 0⟩ 10])) (usual 1000).clock (usual 1000).memory 10 (1000 / 11) := by
    have := velocity_one (h := (usual 1000).hist ([] ++ [.move false ⟨1000, 0⟩ 10])) (c := (usual 1000).clock) (now := 10)
      (by simp [Hw.hist, Hw.after, Hist.recent, Hist.nth])
    have hx : ((usual 1000).hist ([] ++ [.move false ⟨1000, 0⟩ 10])).velocity (usual 1000).clock 10 1 = 1000 / 11 := by
      simp only [Hw.hist, Hw.after, Hist.velocity, Hist.since, Hist.nth, List.foldl, List.nil_append, hseen, zero_add]
      rw [length_x _ (by norm_num)]
      norm_num [Clock.between, Hw.clock, usual]
    rw [hx] at this; rw [hm]; exact this
  have o1 := output_eq hf he false ⟨0.0001, 0⟩ 21 v1 (last := 0) (Or.inl ⟨rfl, by simp [Op.isMove]⟩)
  have o2 := output_eq hf he' false ⟨0.0001, 0⟩ 21 v2 (last := 1000 / 11)
    (Or.inr ⟨[], false, ⟨1000, 0⟩, 10, [.restart 20], rfl, by simp [Op.isMove], v3⟩)
  rw [o1, o2, hnat]
  simp only [speedAfter, V.mul, Hw.factor, usual, Hw.profile, simpsons, profileMouse_eq, incl, thr, us2ms, ms2us]
  norm_num

/-- C49.  Two mice that differ in their resolution only, moved in the same way (which the one with twice the resolution reports as twice as far), do not move
the pointer in the same way: the velocity is normalized twice. -/
theorem resolution_matters :
    ∃ (f f' : Filter) (d : V) (t : Nat), (usual 1000).filter 0 = some f ∧ (usual 2000).filter 0 = some f' ∧
      (f.dispatch false d t).1 ≠ (f'.dispatch false (d.mul 2) t).1 := by
  obtain ⟨f, hf⟩ := setSpeed_some (usual 1000).create 0 ⟨by norm_num, by norm_num⟩
  obtain ⟨f', hf'⟩ := setSpeed_some (usual 2000).create 0 ⟨by norm_num, by norm_num⟩
  refine ⟨f, f', ⟨0.5005, 0⟩, 1000, hf, hf', ?_⟩
  have v1 : IsVelocity ((usual 1000).hist ([] ++ [.move false ⟨0.5005, 0⟩ 1000])) (usual 1000).clock (usual 1000).memory 1000 0.0005 := by
    have := velocity_one (h := (usual 1000).hist ([] ++ [.move false ⟨0.5005, 0⟩ 1000])) (c := (usual 1000).clock) (now := 1000)
      (by simp [Hw.hist, Hw.after, Hist.recent, Hist.nth])
    have hx : ((usual 1000).hist ([] ++ [.move false ⟨0.5005, 0⟩ 1000])).velocity (usual 1000).clock 1000 1 = 0.0005 := by
      simp only [Hw.hist, Hw.after, Hist.velocity, Hist.since, Hist.nth, List.foldl, List.nil_append, Hw.seen, usual, zero_add, mul_zero]
      rw [length_x _ (by norm_num)]
      norm_num [Clock.between, Hw.clock]
    rw [hx] at this; exact this
  have v2 : IsVelocity ((usual 2000).hist ([] ++ [.move false ((⟨0.5005, 0⟩ : V).mul 2) 1000])) (usual 2000).clock (usual 2000).memory 1000 0.0005 := by
    have := velocity_one (h := (usual 2000).hist ([] ++ [.move false ((⟨0.5005, 0⟩ : V).mul 2) 1000])) (c := (usual 2000).clock) (now := 1000)
      (by simp [Hw.hist, Hw.after, Hist.recent, Hist.nth])
    have hx : ((usual 2000).hist ([] ++ [.move false ((⟨0.5005, 0⟩ : V).mul 2) 1000])).velocity (usual 2000).clock 1000 1 = 0.0005 := by
      simp only [Hw.hist, Hw.after, Hist.velocity, Hist.since, Hist.nth, List.foldl, List.nil_append, Hw.seen, usual, zero_add, mul_zero, V.mul]
      rw [length_x _ (by norm_num)]
      norm_num [Clock.between, Hw.clock]
    rw [hx] at this; exact this
  have o1 := output_eq (ops := []) hf rfl false ⟨0.5005, 0⟩ 1000 v1 (last := 0) (Or.inl ⟨rfl, by simp⟩)
  have o2 := output_eq (ops := []) hf' rfl false ((⟨0.5005, 0⟩ : V).mul 2) 1000 v2 (last := 0) (Or.inl ⟨rfl, by simp⟩)
  rw [o1, o2]
  simp only [speedAfter, V.mul, Hw.factor, usual, Hw.profile, simpsons, profileMouse_eq, incl, thr, us2ms, ms2us, Hw.natural]
  norm_num

/-- C49.  At the lowest speed setting, a pen in relative mode does not move the pointer at all. -/
theorem slowest_pen_stands_still (hw : Hw) (hk : hw.kind = .tablet) {f e : Filter} {ops : List Op} (hf : hw.filter (-1) = some f)
    (he : f.run ops = some e) (hs : speedAfter (-1) ops = -1) (c : Bool) (d : V) (t : Nat) : (e.dispatch c d t).1 = ⟨0, 0⟩ := by
  obtain ⟨last, h1, h2, h3⟩ := run_at ops hf he
  obtain ⟨v, hvv, ho, -⟩ := dispatch_at h2 c d t
  rw [ho, hs]
  have : hw.factor (-1) v last = 0 := by
    unfold Hw.factor
    rw [hk]
    simp only [simpsons, Hw.profile, hk]
    norm_num
  rw [this]
  unfold V.mul
  simp

/-- C49.  On a Lenovo X230, a first movement is lost when the clock goes backwards; on all others, none ever is (`movement_keeps_direction`). -/
theorem x230_loses_movement (hw : Hw) (hv : hw.Valid) (hk : hw.kind = .x230) {s : ℝ} {f e : Filter} {t u : Nat} (h : t < u)
    (hf : hw.filter s = some f) (he : f.run [.restart u] = some e) (c : Bool) (d : V) : (e.dispatch c d t).1 = ⟨0, 0⟩ := by
  have v1 : IsVelocity (hw.hist ([.restart u] ++ [.move c d t])) hw.clock hw.memory t 0 :=
    .backwards (by simp [Hw.hist, Hw.after, Hist.nth]; exact h) rfl
  have o1 := output_eq hf he c d t v1 (last := 0) (Or.inl ⟨rfl, by simp [Op.isMove]⟩)
  obtain ⟨-, -, -, h3⟩ := run_at _ hf he
  rw [o1, factor_zero hw hv h3]
  unfold Hw.lowest V.mul
  rw [hk]
  simp

end Libinput.Accel
