import Verif.Together.Spec
import Verif.Follow.Props
/-!
C68: several fingers move together.
-/
namespace Libinput.Together
open Follow Spec Follow.Spec

/-! ## Sums -/

theorem sum_zero {α : Type} {f : α → Rat} : ∀ {as : List α}, (∀ a ∈ as, f a = 0) → sum f as = 0
  | [], _ => rfl
  | a :: as, h => by
    have e : sum f as = 0 := sum_zero fun b hb => h b (List.mem_cons_of_mem _ hb)
    simp only [sum, e, h a List.mem_cons_self]; grind

theorem sum_congr {α : Type} {f g : α → Rat} : ∀ {as : List α}, (∀ a ∈ as, f a = g a) → sum f as = sum g as
  | [], _ => rfl
  | a :: as, h => by
    have e : sum f as = sum g as := sum_congr fun b hb => h b (List.mem_cons_of_mem _ hb)
    simp only [sum, e, h a List.mem_cons_self]

theorem sum_add {α : Type} {f g : α → Rat} : ∀ (as : List α), sum (fun a => f a + g a) as = sum f as + sum g as
  | [] => by simp only [sum]; grind
  | a :: as => by simp only [sum, sum_add as]; grind

theorem sum_mul {α : Type} {f : α → Rat} (k : Rat) : ∀ (as : List α), sum (fun a => f a * k) as = sum f as * k
  | [] => by simp only [sum]; grind
  | a :: as => by simp only [sum, sum_mul k as]; grind

theorem sum_map {α β : Type} {f : β → Rat} (g : α → β) : ∀ (as : List α), sum f (as.map g) = sum (fun a => f (g a)) as
  | [] => rfl
  | a :: as => by simp only [sum, List.map_cons, sum_map g as]

theorem sum_swap {α β : Type} (f : α → β → Rat) (bs : List β) : ∀ (as : List α), sum (fun a => sum (fun b => f a b) bs) as = sum (fun b => sum (fun a => f a b) as) bs
  | [] => by simp only [sum]; exact (sum_zero fun _ _ => rfl).symm
  | a :: as => by
    simp only [sum]
    rw [sum_swap f bs as, sum_add]

theorem sum_append {α : Type} {f : α → Rat} : ∀ (as bs : List α), sum f (as ++ bs) = sum f as + sum f bs
  | [], bs => by simp only [sum, List.nil_append]; grind
  | a :: as, bs => by simp only [sum, List.cons_append, sum_append as bs]; grind

/-! ## One frame -/

theorem loop_eq (on : Nat → Bool) : ∀ (ds : List Pt) (i : Nat),
    (loop on i ds).1 = ((List.range' i ds.length).filter on).length ∧
    (loop on i ds).2.x = sum (fun j => (((ds.getD (j - i) {}).x : Int) : Rat)) ((List.range' i ds.length).filter on) ∧
    (loop on i ds).2.y = sum (fun j => (((ds.getD (j - i) {}).y : Int) : Rat)) ((List.range' i ds.length).filter on)
  | [], i => ⟨rfl, rfl, rfl⟩
  | d :: ds, i => by
    obtain ⟨h1, h2, h3⟩ := loop_eq on ds (i + 1)
    have e : ∀ j ∈ (List.range' (i + 1) ds.length).filter on, (d :: ds).getD (j - i) {} = ds.getD (j - (i + 1)) {} := by
      intro j hj
      have : i + 1 ≤ j := by
        have := (List.mem_range'_1.mp (List.mem_filter.mp hj).1).1
        exact this
      obtain ⟨k, rfl⟩ := Nat.exists_eq_add_of_le this
      have a : i + 1 + k - i = k + 1 := by omega
      have b : i + 1 + k - (i + 1) = k := by omega
      rw [a, b, List.getD_cons_succ]
    simp only [loop, List.length_cons, List.range'_succ]
    cases ho : on i
    · simp only [if_true, List.filter_cons, ho, Bool.false_eq_true, if_false]
      refine ⟨h1, ?_, ?_⟩
      · rw [h2]; exact sum_congr fun j hj => by rw [e j hj]
      · rw [h3]; exact sum_congr fun j hj => by rw [e j hj]
    · simp only [Bool.true_eq_false, if_false, List.filter_cons, ho, if_true, List.length_cons, sum, Nat.sub_self, List.getD_cons_zero]
      refine ⟨by rw [h1], ?_, ?_⟩
      · rw [h2]; congr 1; exact sum_congr fun j hj => by rw [e j hj]
      · rw [h3]; congr 1; exact sum_congr fun j hj => by rw [e j hj]

theorem loop_fingers (on : Nat → Bool) (ds : List Pt) :
    (loop on 0 ds).1 = (fingers ds.length on).length ∧
    (loop on 0 ds).2.x = sum (fun j => ((moved j ds).x : Rat)) (fingers ds.length on) ∧
    (loop on 0 ds).2.y = sum (fun j => ((moved j ds).y : Rat)) (fingers ds.length on) := by
  have h := loop_eq on ds 0
  rw [← List.range_eq_range'] at h
  exact h

/-- C68.  What fingers do in one report: nothing is told if what counts is zero; otherwise the mean of what they moved, in mm (told in units of the horizontal
axis), and the sum of it while the button of a clickpad is pressed. -/
theorem one_report {c : Config} (hx : 0 < c.rx) (hy : 0 < c.ry) (on : Nat → Bool) (ds : List Pt) (h0 : fingers ds.length on ≠ []) (pressed : Bool) :
    let is := fingers ds.length on
    let n : Rat := if c.clickpad = true ∧ pressed = true then (is.length : Rat) else 1
    (told (pointer c pressed on ds)).x / c.rx = n * meanX c is (fun i => moved i ds) ∧
    (told (pointer c pressed on ds)).y / c.rx = n * meanY c is (fun i => moved i ds) ∧
    (pointer c pressed on ds = none ↔ meanX c is (fun i => moved i ds) = 0 ∧ meanY c is (fun i => moved i ds) = 0) := by
  obtain ⟨h1, h2, h3⟩ := loop_fingers on ds
  have hl : (fingers ds.length on).length ≠ 0 := fun e => h0 (List.eq_nil_of_length_eq_zero e)
  have hn : ((fingers ds.length on).length : Rat) ≠ 0 := by
    intro e; apply hl; exact_mod_cast e
  have rx : (c.rx : Rat) ≠ 0 := by
    intro e; have : c.rx = 0 := by exact_mod_cast e
    omega
  have ry : (c.ry : Rat) ≠ 0 := by
    intro e; have : c.ry = 0 := by exact_mod_cast e
    omega
  have sx : sum (fun i => ((moved i ds).x : Rat) / c.rx) (fingers ds.length on) = (loop on 0 ds).2.x * (1 / c.rx) := by
    rw [h2, ← sum_mul]; exact sum_congr fun j _ => by grind
  have sy : sum (fun i => ((moved i ds).y : Rat) / c.ry) (fingers ds.length on) = (loop on 0 ds).2.y * (1 / c.ry) := by
    rw [h3, ← sum_mul]; exact sum_congr fun j _ => by grind
  dsimp only
  unfold meanX meanY pointer rawMotion touchesDelta
  rw [sx, sy]
  generalize hL : loop on 0 ds = L at *
  obtain ⟨k, v⟩ := L
  dsimp only at h1 h2 h3 sx sy ⊢
  subst h1
  simp only [hl, or_false, Bool.and_eq_true, if_neg, Bool.false_eq_true, if_true, Bool.true_eq_false]
  generalize (fingers ds.length on).length = k at *
  obtain ⟨x, y⟩ := v
  by_cases hc : c.clickpad = true ∧ pressed = true
  · simp only [if_pos hc]
    by_cases hz : (⟨x, y⟩ : Vec) = ⟨0, 0⟩
    · simp only [Vec.mk.injEq] at hz
      obtain ⟨rfl, rfl⟩ := hz
      simp only [if_true, told]
      grind
    · rw [if_neg hz]
      simp only [Vec.mk.injEq] at hz
      simp only [told, toXAxis]
      grind
  · simp only [if_neg hc, if_false]
    by_cases hz : (⟨x / k, y / k⟩ : Vec) = ⟨0, 0⟩
    · rw [if_pos hz]
      simp only [Vec.mk.injEq] at hz
      simp only [told]
      grind
    · rw [if_neg hz]
      simp only [Vec.mk.injEq] at hz
      simp only [told, toXAxis]
      grind

/-- C68.  While the button of a clickpad is pressed, fingers that rest do not slow down the one that moves; otherwise they do. -/
theorem resting_fingers {c : Config} (on : Nat → Bool) (ds : List Pt) {i : Nat} (hi : i ∈ fingers ds.length on)
    (rest : ∀ j ∈ fingers ds.length on, j ≠ i → moved j ds = {}) (pressed : Bool) :
    let n : Rat := if c.clickpad = true ∧ pressed = true then 1 else ((fingers ds.length on).length : Rat)
    rawMotion c pressed on ds = ⟨((moved i ds).x : Rat) / n, ((moved i ds).y : Rat) / n⟩ := by
  obtain ⟨h1, h2, h3⟩ := loop_fingers on ds
  have hl : (fingers ds.length on).length ≠ 0 := fun e => by
    rw [List.eq_nil_of_length_eq_zero e] at hi; cases hi
  have one : ∀ (f : Pt → Rat), f {} = 0 → ∀ (is : List Nat), is.Nodup → i ∈ is → (∀ j ∈ is, j ≠ i → moved j ds = {}) →
      sum (fun j => f (moved j ds)) is = f (moved i ds) := by
    intro f f0 is
    induction is with
    | nil => intro _ h; cases h
    | cons j is ih =>
      intro nd hm hr
      rw [List.nodup_cons] at nd
      by_cases e : j = i
      · subst e
        simp only [sum]
        rw [sum_zero fun b hb => by
          rw [hr b (List.mem_cons_of_mem _ hb) fun e => nd.1 (e ▸ hb), f0]]
        grind
      · simp only [sum]
        rw [hr j List.mem_cons_self e, f0, ih nd.2 ((List.mem_cons.mp hm).resolve_left fun h => e h.symm) fun b hb => hr b (List.mem_cons_of_mem _ hb)]
        grind
  have nd : (fingers ds.length on).Nodup := List.Pairwise.filter _ List.nodup_range
  rw [one (fun p => (p.x : Rat)) (by rfl) _ nd hi rest] at h2
  rw [one (fun p => (p.y : Rat)) (by rfl) _ nd hi rest] at h3
  dsimp only
  unfold rawMotion touchesDelta
  generalize loop on 0 ds = L at *
  obtain ⟨k, x, y⟩ := L
  dsimp only at h1 h2 h3 ⊢
  subst h1 h2 h3
  by_cases hc : c.clickpad = true ∧ pressed = true
  · simp only [hc.1, hc.2, Bool.and_self, if_true, true_or, and_self]
    simp only [Vec.mk.injEq]
    grind
  · rw [if_neg (by simpa using hc), if_neg hc]
    simp only [Bool.true_eq_false, hl, or_self, if_false]

/-! ## Histories -/

theorem total_x : ∀ (ps : List Pt), ((total ps).x : Rat) = sum (fun p => (p.x : Rat)) ps ∧ ((total ps).y : Rat) = sum (fun p => (p.y : Rat)) ps
  | [] => ⟨rfl, rfl⟩
  | p :: ps => by
    obtain ⟨h1, h2⟩ := total_x ps
    simp only [total, sum, ← h1, ← h2, Rat.intCast_add, and_self]

theorem outs_length (c : Config) : ∀ (ops : List Op) (s : State), Full s.touches.length ops → ∀ o ∈ (run c s ops).2, o.length = s.touches.length ∨ o = []
  | [], _, _, o, h => by cases h
  | .left on :: ops, s, hf, o, h => by
    rcases List.mem_cons.mp h with e | e
    · exact Or.inr e
    · exact outs_length c ops (step c s (.left on)).1 (fun f hm => hf f (List.mem_cons_of_mem _ hm)) o e
  | .frame f :: ops, s, hf, o, h => by
    have l := frame_length c s f
    have lv := hf f List.mem_cons_self
    rw [lv, Nat.min_self] at l
    rcases List.mem_cons.mp h with e | e
    · left; rw [e]; exact l.2
    · have := outs_length c ops (frame c s f).1 (by rw [l.1]; exact fun f hm => hf f (List.mem_cons_of_mem _ hm)) o e
      rw [l.1] at this
      exact this

theorem mean_sum (c : Config) (is : List Nat) (outs : List (List Pt)) :
    meanX c is (fun i => total (outs.map (moved i))) = sum (fun o => meanX c is (fun i => moved i o)) outs ∧
    meanY c is (fun i => total (outs.map (moved i))) = sum (fun o => meanY c is (fun i => moved i o)) outs := by
  unfold meanX meanY
  constructor
  · have e : ∀ i ∈ is, ((total (outs.map (moved i))).x : Rat) / c.rx = sum (fun o => ((moved i o).x : Rat) / c.rx) outs := by
      intro i _
      rw [(total_x _).1, sum_map, Rat.div_def, ← sum_mul]
      exact sum_congr fun o _ => (Rat.div_def _ _).symm
    rw [sum_congr e, sum_swap, Rat.div_def, ← sum_mul]
    exact sum_congr fun o _ => (Rat.div_def _ _).symm
  · have e : ∀ i ∈ is, ((total (outs.map (moved i))).y : Rat) / c.ry = sum (fun o => ((moved i o).y : Rat) / c.ry) outs := by
      intro i _
      rw [(total_x _).2, sum_map, Rat.div_def, ← sum_mul]
      exact sum_congr fun o _ => (Rat.div_def _ _).symm
    rw [sum_congr e, sum_swap, Rat.div_def, ← sum_mul]
    exact sum_congr fun o _ => (Rat.div_def _ _).symm

theorem mean_nil (c : Config) (is : List Nat) : meanX c is (fun i => moved i []) = 0 ∧ meanY c is (fun i => moved i []) = 0 := by
  have z : ∀ r : Rat, (((({} : Pt).x : Int) : Rat)) / r = 0 ∧ (((({} : Pt).y : Int) : Rat)) / r = 0 := by
    intro r; constructor <;> · show (0 : Rat) / r = 0; grind
  unfold meanX meanY
  have ex : sum (fun i => ((moved i []).x : Rat) / c.rx) is = 0 := sum_zero fun i _ => (z _).1
  have ey : sum (fun i => ((moved i []).y : Rat) / c.ry) is = 0 := sum_zero fun i _ => (z _).2
  dsimp only
  rw [ex, ey]
  constructor <;> grind

/-- What follows a rule in every report does over a history. -/
theorem over_history {c : Config} {n : Nat} {on : Nat → Bool} (E : List Pt → Option Vec) (k : Rat) (outs : List (List Pt)) (hE : E [] = none)
    (hl : ∀ o ∈ outs, o.length = n ∨ o = [])
    (h : ∀ ds : List Pt, ds.length = n → (told (E ds)).x / c.rx = k * meanX c (fingers n on) (fun i => moved i ds) ∧
      (told (E ds)).y / c.rx = k * meanY c (fingers n on) (fun i => moved i ds)) :
    toldX (outs.map E) / c.rx = k * meanX c (fingers n on) (fun i => total (outs.map (moved i))) ∧
    toldY (outs.map E) / c.rx = k * meanY c (fingers n on) (fun i => total (outs.map (moved i))) := by
  have each : ∀ o ∈ outs, (told (E o)).x / c.rx = meanX c (fingers n on) (fun i => moved i o) * k ∧
      (told (E o)).y / c.rx = meanY c (fingers n on) (fun i => moved i o) * k := by
    intro o ho
    rcases hl o ho with e | e
    · rw [(h o e).1, (h o e).2]; constructor <;> grind
    · subst e
      rw [hE, (mean_nil c _).1, (mean_nil c _).2]
      constructor
      · show (0 : Rat) / _ = _; grind
      · show (0 : Rat) / _ = _; grind
  obtain ⟨m1, m2⟩ := mean_sum c (fingers n on) outs
  unfold toldX toldY
  rw [m1, m2, sum_map, sum_map, Rat.div_def, Rat.div_def, ← sum_mul, ← sum_mul, Rat.mul_comm k, Rat.mul_comm k, ← sum_mul, ← sum_mul]
  exact ⟨sum_congr fun o ho => by rw [← Rat.div_def]; exact (each o ho).1, sum_congr fun o ho => by rw [← Rat.div_def]; exact (each o ho).2⟩

theorem raw_zero {c : Config} {v : Vec} {k : Rat} : (unaccelerated c k v).x = v.x * k ∧ (unaccelerated c k v).y = v.y * ((c.rx : Rat) / c.ry) * k := by
  unfold unaccelerated
  split
  · rename_i e; subst e; constructor
    · show (0 : Rat) = 0 * k; grind
    · show (0 : Rat) = 0 * _ * k; grind
  · exact ⟨rfl, rfl⟩

theorem swipe_told {c : Config} {k : Rat} {on : Nat → Bool} {ds : List Pt} :
    told (swipe c k on ds) = ⟨(touchesDelta on true ds).x * k, (touchesDelta on true ds).y * ((c.rx : Rat) / c.ry) * k⟩ := by
  have r := raw_zero (c := c) (v := touchesDelta on true ds) (k := k)
  unfold swipe
  dsimp only
  split
  · rename_i e; rw [e]; simp only [told, Vec.mk.injEq]; constructor <;> grind
  · show unaccelerated c k _ = _
    rw [← r.1, ← r.2]

theorem scroll_told {c : Config} {k : Rat} {on : Nat → Bool} {ds : List Pt} :
    told (scroll c k on ds) = ⟨(touchesDelta on true ds).x * k, (touchesDelta on true ds).y * ((c.rx : Rat) / c.ry) * k⟩ := by
  have r := raw_zero (c := c) (v := touchesDelta on true ds) (k := k)
  unfold scroll
  dsimp only
  rw [← r.1, ← r.2]
  split
  · rename_i e; rw [e]; rfl
  · rfl

theorem pointer_told {c : Config} {on : Nat → Bool} {ds : List Pt} :
    told (pointer c false on ds) = ⟨(touchesDelta on true ds).x, (touchesDelta on true ds).y * ((c.rx : Rat) / c.ry)⟩ := by
  unfold pointer rawMotion
  rw [Bool.and_false]
  simp only [Bool.false_eq_true, if_false]
  split
  · rename_i e; rw [e]; simp only [told, Vec.mk.injEq]; constructor <;> grind
  · rfl

/-- After a history `before`, the fingers that count have landed, nothing was pressed since, and the number of fingers is the same in the frames `f1` and `f0`;
finger `i` is at `P i` in `f0`.  In the history `fs` that comes then the fingers stay down, nothing is pressed and the touchpad follows each of them (C61). -/
structure Followed (c : Config) (n : Nat) (on : Nat → Bool) (before fs : List Op) (f1 f0 : Frame) (P : Nat → Pt) : Prop where
  full : Full n (before ++ .frame f1 :: .frame f0 :: fs)
  landed : ∀ i ∈ fingers n on, ∃ pre land mid, before = pre ++ .frame land :: mid ∧ (see i land).fresh = true ∧
    NoPress (.frame land :: mid ++ .frame f1 :: .frame f0 :: fs)
  some_ : f0.fingers ≠ 0
  same : f0.fingers = f1.fingers
  sames : ∀ f, .frame f ∈ fs → f.fingers = f0.fingers
  here : ∀ i ∈ fingers n on, ((see i f0).st = .begin ∨ (see i f0).st = .update) ∧ (see i f0).x = some (P i).x ∧ (see i f0).y = some (P i).y
  stays : ∀ i ∈ fingers n on, ∀ f, .frame f ∈ fs → Stays i f
  calm : (run c (init n) (before ++ .frame f1 :: .frame f0 :: fs)).1.pad.jitter = false
  t450 : c.t450 = false
  alps : c.alps = false
  slow : ∀ i ∈ fingers n on, c.jumpsOff = true ∨ c.wacom = true ∨ (c.test = false ∧ (∀ a b, 0 ≤ c.len a b) ∧ Slow c i (P i) f0.time fs)

/-- C68.  The pointer follows the middle of the fingers: what is told altogether, in mm, is the mean of the ways of the fingers that count, whatever the
resolutions of the axes (turned around on a touchpad that is upside down).  Swipes and scrolling tell the same movement, times the constant `k` of the
acceleration filter. -/
theorem middle_followed {c : Config} (hx : 0 < c.rx) (hy : 0 < c.ry) {n : Nat} {on : Nat → Bool} {before fs : List Op} {f1 f0 : Frame} {P : Nat → Pt}
    (h : Followed c n on before fs f1 f0 P) (h0 : fingers n on ≠ []) (k : Rat) :
    let outs := (run c (run c (init n) (before ++ [.frame f1, .frame f0])).1 fs).2
    let way : Nat → Pt := fun i => turn (upside false false 0 (before ++ [.frame f1])) (diff (places i (P i) fs) (P i))
    (toldX (outs.map (pointer c false on)) / c.rx = meanX c (fingers n on) way ∧ toldY (outs.map (pointer c false on)) / c.rx = meanY c (fingers n on) way) ∧
    (toldX (outs.map (swipe c k on)) / c.rx = k * meanX c (fingers n on) way ∧ toldY (outs.map (swipe c k on)) / c.rx = k * meanY c (fingers n on) way) ∧
    (toldX (outs.map (scroll c k on)) / c.rx = k * meanX c (fingers n on) way ∧ toldY (outs.map (scroll c k on)) / c.rx = k * meanY c (fingers n on) way) := by
  have tot : ∀ i ∈ fingers n on, total ((run c (run c (init n) (before ++ [.frame f1, .frame f0])).1 fs).2.map (moved i)) =
      turn (upside false false 0 (before ++ [.frame f1])) (diff (places i (P i) fs) (P i)) := by
    intro i hi
    obtain ⟨pre, land, mid, rfl, fr, np⟩ := h.landed i hi
    obtain ⟨st, px, py⟩ := h.here i hi
    exact follows c n i pre mid fs land f1 f0 (P i).x (P i).y (List.mem_range.mp (List.mem_filter.mp hi).1) h.full fr np h.some_ h.same h.sames st px py
      (h.stays i hi) h.calm h.t450 h.alps (h.slow i hi)
  have len : ∀ o ∈ (run c (run c (init n) (before ++ [.frame f1, .frame f0])).1 fs).2, o.length = n ∨ o = [] := by
    have l0 : (init n).touches.length = n := by simp [init]
    have l1 : (run c (init n) (before ++ [.frame f1, .frame f0])).1.touches.length = n := by
      rw [run_length c _ (init n) (by
        rw [l0]; intro f hf; apply h.full f
        simp only [List.mem_append, List.mem_cons] at hf ⊢
        rcases hf with a | a | a | a
        · exact Or.inl a
        · exact Or.inr (Or.inl a)
        · exact Or.inr (Or.inr (Or.inl a))
        · cases a), l0]
    have := outs_length c fs (run c (init n) (before ++ [.frame f1, .frame f0])).1 (by
      rw [l1]; intro f hf; apply h.full f
      simp only [List.mem_append, List.mem_cons]
      exact Or.inr (Or.inr (Or.inr hf)))
    rw [l1] at this
    exact this
  dsimp only
  generalize (run c (run c (init n) (before ++ [.frame f1, .frame f0])).1 fs).2 = outs at *
  have ex : meanX c (fingers n on) (fun i => total (outs.map (moved i))) =
      meanX c (fingers n on) (fun i => turn (upside false false 0 (before ++ [.frame f1])) (diff (places i (P i) fs) (P i))) := by
    unfold meanX; congr 1; exact sum_congr fun i hi => by dsimp only; rw [tot i hi]
  have ey : meanY c (fingers n on) (fun i => total (outs.map (moved i))) =
      meanY c (fingers n on) (fun i => turn (upside false false 0 (before ++ [.frame f1])) (diff (places i (P i) fs) (P i))) := by
    unfold meanY; congr 1; exact sum_congr fun i hi => by dsimp only; rw [tot i hi]
  rw [← ex, ← ey]
  have one : ∀ ds : List Pt, ds.length = n → (told (pointer c false on ds)).x / c.rx = 1 * meanX c (fingers n on) (fun i => moved i ds) ∧
      (told (pointer c false on ds)).y / c.rx = 1 * meanY c (fingers n on) (fun i => moved i ds) := by
    intro ds hd
    subst hd
    have r := one_report hx hy on ds h0 false
    simp only [Bool.false_eq_true, and_false, if_false] at r
    exact ⟨r.1, r.2.1⟩
  have mul : ∀ ds : List Pt, ds.length = n → (touchesDelta on true ds).x * k / c.rx = k * meanX c (fingers n on) (fun i => moved i ds) ∧
      (touchesDelta on true ds).y * ((c.rx : Rat) / c.ry) * k / c.rx = k * meanY c (fingers n on) (fun i => moved i ds) := by
    intro ds hd
    obtain ⟨a, b⟩ := one ds hd
    rw [pointer_told] at a b
    dsimp only at a b
    rw [Rat.one_mul] at a b
    rw [← a, ← b]
    constructor <;> grind
  refine ⟨?_, ?_, ?_⟩
  · have := over_history (c := c) (on := on) (pointer c false on) 1 outs (by simp [pointer, rawMotion, touchesDelta, loop]) len one
    rw [Rat.one_mul, Rat.one_mul] at this
    exact this
  · exact over_history (c := c) (on := on) (swipe c k on) k outs (by simp [swipe, touchesDelta, loop]) len (fun ds hd => by rw [swipe_told]; exact mul ds hd)
  · exact over_history (c := c) (on := on) (scroll c k on) k outs (by simp [scroll, unaccelerated, touchesDelta, loop]) len (fun ds hd => by rw [scroll_told]; exact mul ds hd)

/-! ## Examples -/

/-- A touchpad with unequal resolutions, and reports of two fingers (and a third slot, of a palm). -/
def demo : Config := { rx := 10, ry := 20, xmax := 1000, ymax := 2000, clickpad := true, jumpsOff := true, hyst := fun p _ => p, len := fun a _ => a }
def two (time : Nat) (a b : Option Int × Option Int) (fresh : Bool) : Frame :=
  { time := time, fingers := 2
    views := [{ x := a.1, y := a.2, other := true, fresh := fresh, st := if fresh then .begin else .update },
      { x := b.1, y := b.2, other := true, fresh := fresh, st := if fresh then .begin else .update }, { x := some 7, st := .update }] }
def start_ : List Op := [.frame (two 0 (some 100, some 100) (some 300, some 100) true)]
def first_ : Frame := two 12000 (some 101, some 100) (some 301, some 100) false
def second_ : Frame := two 24000 (some 102, some 100) (some 302, some 100) false
def rest_ : List Op := [.frame (two 36000 (some 110, none) (none, some 140) false), .frame (two 48000 (some 122, none) (some 306, some 180) false)]
def not_palm : Nat → Bool := fun i => i != 2
def places_ : Nat → Pt := fun i => if i = 0 then ⟨102, 100⟩ else ⟨302, 100⟩

theorem demo_followed : Followed demo 3 not_palm start_ rest_ first_ second_ places_ where
  full := by simp [Full, start_, rest_, first_, second_, two]
  landed := by
    intro i hi
    have : i = 0 ∨ i = 1 := by
      have e : fingers 3 not_palm = [0, 1] := by decide
      rw [e] at hi; simpa using hi
    refine ⟨[], _, [], rfl, ?_, ?_⟩
    · rcases this with rfl | rfl <;> rfl
    · simp [NoPress, rest_, first_, second_, two]
  some_ := by decide
  same := rfl
  sames := by simp [rest_, second_, two]
  here := by decide +kernel
  stays := by
    intro i hi f hf
    have : i = 0 ∨ i = 1 := by
      have e : fingers 3 not_palm = [0, 1] := by decide
      rw [e] at hi; simpa using hi
    simp only [rest_, List.mem_cons, Op.frame.injEq, List.not_mem_nil, or_false] at hf
    rcases hf with rfl | rfl <;> rcases this with rfl | rfl <;> exact ⟨rfl, rfl, rfl⟩
  calm := by decide +kernel
  t450 := rfl
  alps := rfl
  slow := fun _ _ => Or.inl rfl

/-- Non-vacuity: one finger goes 2 mm to the right, the other 0.4 mm to the right and 4 mm down; the pointer goes 1.2 mm to the right and 2 mm down. -/
example : let outs := (run demo (run demo (init 3) (start_ ++ [.frame first_, .frame second_])).1 rest_).2
    toldX (outs.map (pointer demo false not_palm)) / 10 = 12 / 10 ∧ toldY (outs.map (pointer demo false not_palm)) / 10 = 2 := by
  have h := (middle_followed (by decide) (by decide) demo_followed (by decide) 1).1
  exact ⟨h.1.trans (by decide +kernel), h.2.trans (by decide +kernel)⟩

/-- Non-vacuity: a finger rests while the other moves. -/
example : rawMotion demo false not_palm [⟨6, 0⟩, ⟨0, 0⟩, ⟨9, 9⟩] = ⟨3, 0⟩ ∧ rawMotion demo true not_palm [⟨6, 0⟩, ⟨0, 0⟩, ⟨9, 9⟩] = ⟨6, 0⟩ := by decide +kernel
example : (0 : Nat) ∈ fingers 3 not_palm ∧ ∀ j ∈ fingers 3 not_palm, j ≠ 0 → moved j [⟨6, 0⟩, ⟨0, 0⟩, ⟨9, 9⟩] = {} := by decide +kernel
example : fingers ([⟨6, 0⟩, ⟨0, 0⟩, ⟨9, 9⟩] : List Pt).length not_palm ≠ [] := by decide

end Libinput.Together
