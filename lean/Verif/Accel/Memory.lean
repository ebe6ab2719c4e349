import Verif.Accel.Props
import Mathlib.Tactic.IntervalCases
/-
C50: what the velocity remembers.
-/
namespace Libinput.Accel

/-! ### Two histories with the same recent movements -/

theorem nth_append {l a : Hist} {k : Nat} (h : k < l.length) : Hist.nth (l ++ a) k = Hist.nth l k := by
  unfold Hist.nth
  simp only [List.getD_eq_getElem?_getD]
  rw [List.getElem?_append_left h]

theorem since_append {l a : Hist} {k : Nat} (h : k ≤ l.length) : Hist.since (l ++ a) k = Hist.since l k := by
  induction l generalizing k with
  | nil =>
    obtain rfl : k = 0 := by simpa using h
    cases a <;> rfl
  | cons e l ih =>
    cases k with
    | zero => rfl
    | succ k =>
      simp only [List.cons_append, Hist.since]
      rw [ih (by simpa using h)]

theorem common_append {l a : Hist} {k : Nat} (h : k < l.length) : Hist.common (l ++ a) k = Hist.common l k := by
  induction k with
  | zero => exact congrArg Ev.dir (nth_append h)
  | succ k ih => unfold Hist.common; rw [ih (by omega), nth_append h]

theorem velocity_append {l a : Hist} {k : Nat} (h : k < l.length) (c : Clock) (now : Nat) :
    Hist.velocity (l ++ a) c now k = Hist.velocity l c now k := by
  unfold Hist.velocity; rw [nth_append h, since_append (by omega)]

theorem alike_append {l a : Hist} {k : Nat} (h : k < l.length) (c : Clock) (now : Nat) :
    Hist.alike (l ++ a) c now k ↔ Hist.alike l c now k := by
  unfold Hist.alike
  refine forall_congr' fun j => forall_congr' fun h1 => forall_congr' fun h2 => ?_
  have hj : j < l.length := by omega
  have e1 : Hist.recent (l ++ a) now j ↔ Hist.recent l now j := by unfold Hist.recent; rw [nth_append hj]
  have e2 : Hist.differs (l ++ a) c now j ↔ Hist.differs l c now j := by
    unfold Hist.differs Hist.reference
    refine exists_congr fun i => ?_
    constructor
    · rintro ⟨⟨h3, h4, h5, h6⟩, h7⟩
      rw [velocity_append (by omega)] at h5
      rw [velocity_append (by omega), velocity_append (by omega)] at h7
      exact ⟨⟨h3, h4, h5, fun z hz1 hz2 => by rw [← h6 z hz1 hz2, velocity_append (by omega)]⟩, h7⟩
    · rintro ⟨⟨h3, h4, h5, h6⟩, h7⟩
      refine ⟨⟨h3, h4, ?_, fun z hz1 hz2 => ?_⟩, ?_⟩
      · rw [velocity_append (by omega)]; exact h5
      · rw [velocity_append (by omega)]; exact h6 z hz1 hz2
      · rw [velocity_append (by omega), velocity_append (by omega)]; exact h7
  rw [e1, e2, common_append hj]

theorem isVelocity_append {l a b : Hist} {c : Clock} {n now : Nat} {v : ℝ} (hm : 2 ≤ l.length)
    (ha : ¬ Hist.alike (l ++ a) c now l.length) (hb : ¬ Hist.alike (l ++ b) c now l.length)
    (h : IsVelocity (l ++ a) c n now v) : IsVelocity (l ++ b) c n now v := by
  have e1 : Hist.nth (l ++ a) 1 = Hist.nth (l ++ b) 1 := by rw [nth_append hm, nth_append hm]
  have e2 : Hist.since (l ++ a) 1 = Hist.since (l ++ b) 1 := by rw [since_append (by omega), since_append (by omega)]
  cases h with
  | backwards h1 h2 => exact .backwards (by rw [← e1]; exact h1) h2
  | paused h1 h2 => exact .paused (by rw [← e1]; exact h1) (by rw [← e2]; exact h2)
  | turned h1 h2 h3 =>
    refine .turned (by unfold Hist.recent at *; rw [← e1]; exact h1) ?_ ?_
    · rw [common_append hm] at h2 ⊢; exact h2
    · rw [velocity_append hm] at h3 ⊢; exact h3
  | since k h1 h2 h3 h4 h5 =>
    have hk : k < l.length := by
      by_contra hc
      exact ha fun j hj1 hj2 => h3 j hj1 (by omega)
    refine .since k h1 h2 ?_ ?_ ?_
    · rw [alike_append hk] at h3 ⊢; exact h3
    · intro h
      by_cases hk2 : k + 1 < l.length
      · have := h4 h
        rw [alike_append hk2] at this ⊢; exact this
      · rw [show k + 1 = l.length by omega]; exact hb
    · rw [velocity_append hk] at h5 ⊢; exact h5

/-! ### Turns and pauses -/

/-- A list of movements. -/
abbrev Moves := List (Bool × V × Nat)

def Moves.ops (l : Moves) : List Op := l.map fun m => .move m.1 m.2.1 m.2.2

/-- The movement after the operations `a` turns (has no direction in common with the movement before), or comes more
than a second later. -/
def Hw.breaks (hw : Hw) (a : List Op) (d : V) (t : Nat) : Prop :=
  ((hw.hist a).nth 0).dir &&& direction (hw.seen d) = 0 ∨ ((hw.hist a).nth 0).time + 1000000 < t

theorem hist_moves (hw : Hw) (a : List Op) (l : Moves) :
    hw.hist (a ++ l.ops) = (l.map fun m => (⟨hw.seen m.2.1, m.2.2, direction (hw.seen m.2.1)⟩ : Ev)).reverse ++ hw.hist a := by
  induction l using List.reverseRecOn with
  | nil => simp [Moves.ops]
  | append_singleton l m ih =>
    have : Moves.ops (l ++ [m]) = Moves.ops l ++ [.move m.1 m.2.1 m.2.2] := by simp [Moves.ops]
    rw [this, ← List.append_assoc, hist_snoc, ih]
    simp [Hw.after]

theorem not_alike {hw : Hw} {a : List Op} {c : Bool} {d : V} {t : Nat} {l : Moves} {now : Nat}
    (hb : hw.breaks a d t) (hn : t ≤ now) :
    ¬ Hist.alike (hw.hist (a ++ Moves.ops ((c, d, t) :: l))) hw.clock now (l.length + 1) := by
  intro h
  obtain ⟨h1, h2, -⟩ := h (l.length + 1) (by omega) (le_refl _)
  rw [hist_moves] at h1 h2
  have e0 : ∀ (x : Hist) (p q : Hist), x.length = l.length + 1 → Hist.nth (x ++ p) (l.length + 1) = Hist.nth p 0 := by
    intro x p _ hx
    unfold Hist.nth
    simp only [List.getD_eq_getElem?_getD]
    rw [List.getElem?_append_right (by omega), hx, Nat.sub_self]
  have e1 : Hist.nth ((((c, d, t) :: l).map fun m => (⟨hw.seen m.2.1, m.2.2, direction (hw.seen m.2.1)⟩ : Ev)).reverse ++ hw.hist a) (l.length + 1) =
      Hist.nth (hw.hist a) 0 := e0 _ _ [] (by simp)
  rcases hb with hb | hb
  · apply h2
    rw [Hist.common, e1]
    have e2 : (Hist.nth ((((c, d, t) :: l).map fun m => (⟨hw.seen m.2.1, m.2.2, direction (hw.seen m.2.1)⟩ : Ev)).reverse ++ hw.hist a) l.length).dir =
        direction (hw.seen d) := by
      unfold Hist.nth
      simp only [List.getD_eq_getElem?_getD, List.map_cons, List.reverse_cons, List.append_assoc]
      rw [List.getElem?_append_right (by simp)]
      simp
    have e3 : ∀ (h : Hist) k, Hist.common h k &&& (Hist.nth h k).dir = Hist.common h k := by
      intro h k
      cases k with
      | zero => exact Nat.and_self _
      | succ k => unfold Hist.common; rw [Nat.and_assoc, Nat.and_self]
    rw [← e3, e2, Nat.and_assoc, Nat.and_comm (direction _), hb, Nat.and_zero]
  · have := h1.2
    rw [e1] at this
    omega

/-- C50.  What was before a turn or a pause of more than a second is forgotten with the third movement after it: two filters at the same speed setting
do the same, whatever was before. -/
theorem turns_and_pauses_forget (hw : Hw) {s s' : ℝ} {f f' e e' : Filter} (a b : List Op) (c : Bool) (d : V) (t : Nat) (l : Moves)
    (ha : hw.breaks a d t) (hb : hw.breaks b d t) (hl : 2 ≤ l.length) (ht : ∀ m ∈ l, t ≤ m.2.2)
    (hf : hw.filter s = some f) (he : f.run (a ++ Moves.ops ((c, d, t) :: l)) = some e)
    (hf' : hw.filter s' = some f') (he' : f'.run (b ++ Moves.ops ((c, d, t) :: l)) = some e')
    (hs : speedAfter s a = speedAfter s' b) (c' : Bool) (d' : V) (u : Nat) (hu : t ≤ u) :
    (e.dispatch c' d' u).1 = (e'.dispatch c' d' u).1 := by
  have hsm : ∀ (l : Moves) (x : List Op) (z : ℝ), speedAfter z (x ++ l.ops) = speedAfter z x := by
    intro l x z
    induction l using List.reverseRecOn with
    | nil => simp [Moves.ops]
    | append_singleton l m ih =>
      have : Moves.ops (l ++ [m]) = Moves.ops l ++ [.move m.1 m.2.1 m.2.2] := by simp [Moves.ops]
      rw [this, ← List.append_assoc, speedAfter_snoc]
      exact ih
  have key : ∀ (m : Moves) (now : Nat) (v : ℝ), 1 ≤ m.length → t ≤ now →
      IsVelocity (hw.hist (a ++ Moves.ops ((c, d, t) :: m))) hw.clock hw.memory now v →
      IsVelocity (hw.hist (b ++ Moves.ops ((c, d, t) :: m))) hw.clock hw.memory now v := by
    intro m now v hm hn h
    have g1 := not_alike (c := c) (l := m) ha hn
    have g2 := not_alike (c := c) (l := m) hb hn
    rw [hist_moves] at h g1 g2 ⊢
    have hlen : ((((c, d, t) :: m).map fun m => (⟨hw.seen m.2.1, m.2.2, direction (hw.seen m.2.1)⟩ : Ev)).reverse).length = m.length + 1 := by simp
    exact isVelocity_append (by rw [hlen]; omega) (by rw [hlen]; exact g1) (by rw [hlen]; exact g2) h
  have hop : ∀ (m : Moves) x, Moves.ops ((c, d, t) :: m) ++ [.move x.1 x.2.1 x.2.2] = Moves.ops ((c, d, t) :: (m ++ [x])) := by
    intro m x; simp [Moves.ops]
  obtain ⟨m, x, rfl⟩ : ∃ m x, l = m ++ [x] := by
    cases h : l.reverse with
    | nil => simp at h; subst h; simp at hl
    | cons x r => exact ⟨r.reverse, x, by rw [← List.reverse_reverse l, h]; simp⟩
  have hm : 1 ≤ m.length := by simp at hl; omega
  obtain ⟨v, hv⟩ := isVelocity_exists (hw.hist ((a ++ Moves.ops ((c, d, t) :: (m ++ [x]))) ++ [.move c' d' u])) hw.clock hw.memory u (memory_two hw) (clock_ok hw)
  obtain ⟨w, hw1⟩ := isVelocity_exists (hw.hist (a ++ Moves.ops ((c, d, t) :: (m ++ [x])))) hw.clock hw.memory x.2.2 (memory_two hw) (clock_ok hw)
  have hv' : IsVelocity (hw.hist ((b ++ Moves.ops ((c, d, t) :: (m ++ [x]))) ++ [.move c' d' u])) hw.clock hw.memory u v := by
    rw [List.append_assoc, hop _ (c', d', u)] at hv ⊢
    exact key _ _ _ (by simp) hu hv
  have hw2 := key (m ++ [x]) x.2.2 w (by simp) (ht x (by simp)) hw1
  have last : ∀ (z : List Op), IsVelocity (hw.hist (z ++ Moves.ops ((c, d, t) :: (m ++ [x])))) hw.clock hw.memory x.2.2 w →
      hw.IsLast (z ++ Moves.ops ((c, d, t) :: (m ++ [x]))) w := by
    intro z hz
    refine Or.inr ⟨z ++ Moves.ops ((c, d, t) :: m), x.1, x.2.1, x.2.2, [], ?_, by simp, ?_⟩
    · rw [← hop m x, List.append_assoc]
    · rw [List.append_assoc, hop m x]; exact hz
  rw [output_eq hf he c' d' u hv (last a hw1), output_eq hf' he' c' d' u hv' (last b hw2), hsm, hsm, hs]

/-- A mouse that turns back, and one that rests. -/
example : (usual 1000).breaks [.move false ⟨3, 4⟩ 1000] ⟨-3, -4⟩ 9000 ∧ (usual 1000).breaks [.restart 1000] ⟨3, 4⟩ 1001001 := by
  refine ⟨Or.inl ?_, Or.inr (by simp [Hw.hist, Hw.after, Hist.nth])⟩
  have hseen : ∀ x y : ℝ, (usual 1000).seen ⟨x, y⟩ = ⟨x, y⟩ := fun x y => by norm_num [usual, Hw.seen]
  simp only [Hw.hist, List.foldl, Hw.after, hseen, Hist.nth, List.getD_cons_zero]
  have := going_back_is_a_turn ⟨3, 4⟩ 1 one_pos (by norm_num)
  unfold V.mul at this
  norm_num at this
  exact this

/-! ### Steady movements -/

theorem since_steady {h : Hist} {d : V} (k : Nat) (hs : ∀ i, i < k → (h.nth i).d = d) : h.since k = d.mul k := by
  induction k generalizing h with
  | zero => cases h <;> simp [Hist.since, V.mul]
  | succ k ih =>
    cases h with
    | nil =>
      have := hs 0 (by omega)
      simp only [Hist.nth, List.getD_nil] at this
      subst this
      simp [Hist.since, V.mul]
    | cons e h =>
      have h0 : e.d = d := hs 0 (by omega)
      have := ih (h := h) fun i hi => hs (i + 1) (by omega)
      simp only [Hist.since]
      rw [this, h0]
      simp only [V.mul, Nat.cast_add, Nat.cast_one, V.mk.injEq]
      constructor <;> ring

theorem length_mul (d : V) (k : ℝ) (hk : 0 ≤ k) : (d.mul k).length = k * d.length := by
  unfold V.length V.mul
  dsimp only
  rw [show (k * d.x) ^ 2 + (k * d.y) ^ 2 = k ^ 2 * (d.x ^ 2 + d.y ^ 2) by ring, Real.sqrt_mul (sq_nonneg k), Real.sqrt_sq hk]

/-- `m` movements by `d`, one every `dt` µs, the last one at `now`. -/
def Hist.steady (h : Hist) (m : Nat) (d : V) (dt now : Nat) : Prop :=
  ∀ i, i < m → (h.nth i).d = d ∧ (h.nth i).dir = direction d ∧ (h.nth i).time + i * dt = now

theorem common_steady {h : Hist} {m : Nat} {d : V} {dt now : Nat} (hs : h.steady m d dt now) {k : Nat} (hk : k < m) : h.common k = direction d := by
  induction k with
  | zero => exact (hs 0 hk).2.1
  | succ k ih => unfold Hist.common; rw [ih (by omega), (hs _ hk).2.1, Nat.and_self]

theorem velocity_steady {h : Hist} {m : Nat} {d : V} {dt now : Nat} (hs : h.steady m d dt now) {k : Nat} (hk : k < m) :
    h.velocity ⟨0, 0⟩ now k = k * d.length / (k * dt + 1) := by
  unfold Hist.velocity Clock.between
  rw [since_steady k fun i hi => (hs i (by omega)).1, length_mul _ _ (Nat.cast_nonneg k)]
  have := (hs k hk).2.2
  rw [if_neg (by simp), show now - (h.nth k).time + 1 = k * dt + 1 by omega]
  push_cast
  rfl

/-- C50.  The velocity of a steady movement is the way of all movements that are remembered (15 on devices that average) over their time, if that is at
most a second and the movement not too fast to be measured in µs. -/
theorem steady_movement (h : Hist) (n : Nat) (d : V) (dt now : Nat) (hn : 2 ≤ n) (hs : h.steady n d dt now)
    (h1 : (n - 1) * dt ≤ 1000000) (h2 : d.length * 500 ≤ dt ^ 2) :
    IsVelocity h ⟨0, 0⟩ n now ((n - 1 : ℕ) * d.length / ((n - 1 : ℕ) * dt + 1)) := by
  refine .since (n - 1) (by omega) (by omega) ?_ (fun h => by omega) (velocity_steady hs (by omega)).symm
  intro j hj1 hj2
  have hj := (hs j (by omega)).2.2
  have hjd : j * dt ≤ (n - 1) * dt := Nat.mul_le_mul_right _ hj2
  refine ⟨⟨by omega, by omega⟩, ?_, ?_⟩
  · rw [common_steady hs (by omega)]; exact direction_ne_zero d
  · rintro ⟨i, ⟨h3, h4, -⟩, h5⟩
    rw [velocity_steady hs (by omega), velocity_steady hs (by omega)] at h5
    have hl : 0 ≤ d.length := Real.sqrt_nonneg _
    have hi : (2 : ℝ) ≤ i := by exact_mod_cast h3
    have hij : (i : ℝ) ≤ j := by exact_mod_cast h4.le
    have ht : (0 : ℝ) ≤ dt := Nat.cast_nonneg _
    have e : (i : ℝ) * d.length / (i * dt + 1) - j * d.length / (j * dt + 1) = -(d.length * (j - i) / ((i * dt + 1) * (j * dt + 1))) := by
      have a1 : (i : ℝ) * dt + 1 ≠ 0 := by positivity
      have a2 : (j : ℝ) * dt + 1 ≠ 0 := by positivity
      field_simp
      ring
    rw [e, abs_neg, abs_of_nonneg (div_nonneg (mul_nonneg hl (by linarith)) (by positivity))] at h5
    rw [gt_iff_lt, lt_div_iff₀ (by positivity)] at h5
    have a3 : d.length * (j - i) * 500 ≤ (dt : ℝ) ^ 2 * j := by
      have : d.length * 500 * (j - i) ≤ (dt : ℝ) ^ 2 * j := mul_le_mul h2 (by linarith) (by linarith) (by positivity)
      linarith
    have a4 : 2 * ((dt : ℝ) ^ 2 * j) ≤ (i * dt + 1) * (j * dt + 1) := by
      have : (2 : ℝ) * ((dt : ℝ) ^ 2 * j) ≤ i * (dt ^ 2 * j) := mul_le_mul_of_nonneg_right hi (by positivity)
      have : (0 : ℝ) ≤ i * dt + j * dt + 1 := by positivity
      linarith
    linarith

/-- 16 movements by 3/4 units every 8 ms; the history is one of a mouse. -/
example : ((usual 1000).hist ((List.range 16).map fun i => Op.move false ⟨3, 4⟩ (1000 + (i + 1) * 8000))).steady 16 ⟨3, 4⟩ 8000 129000 ∧
    (⟨3, 4⟩ : V).length = 5 ∧ (15 * 8000 ≤ 1000000) := by
  have hseen : (usual 1000).seen ⟨3, 4⟩ = ⟨3, 4⟩ := by norm_num [usual, Hw.seen]
  refine ⟨?_, ?_, by norm_num⟩
  · intro i hi
    simp only [List.range, List.range.loop, List.map, Hw.hist, List.foldl, Hw.after, hseen]
    interval_cases i <;> simp [Hist.nth]
  · unfold V.length
    rw [show (3 : ℝ) ^ 2 + 4 ^ 2 = 5 ^ 2 by norm_num, Real.sqrt_sq (by norm_num)]

end Libinput.Accel
