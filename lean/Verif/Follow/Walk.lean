/-
A touch that stays down moves by what its finger moves.
-/
import Verif.Follow.Inv
namespace Libinput.Follow
open Spec

/-! ### The pad after a frame -/

theorem applyRotation_fields (p : Pad) :
    (applyRotation p).jitter = p.jitter ∧ (applyRotation p).fingers = p.fingers ∧ (applyRotation p).wantRotate = p.wantRotate ∧
    (applyRotation p).rotate = (if p.fingers = 0 then p.wantRotate else p.rotate) ∧ (applyRotation p).idle = p.idle ∧
    (applyRotation p).msc = p.msc ∧ (applyRotation p).interval = p.interval := by
  simp only [applyRotation]
  split
  · next h => simp [h]
  · split
    · next h => simp [h]
    · next h =>
      have h : p.fingers = 0 := by simpa using h
      simp [h]

theorem frame_pad_fields (c : Config) (s : State) (f : Frame) :
    (s.pad.jitter = true → (frame c s f).1.pad.jitter = true) ∧ (frame c s f).1.pad.fingers = f.fingers ∧
    (frame c s f).1.pad.wantRotate = s.pad.wantRotate ∧
    (frame c s f).1.pad.rotate = (if f.fingers = 0 then s.pad.wantRotate else s.pad.rotate) ∧
    (frame c s f).1.pad.msc = (mscFrame s.pad f).1.msc ∧ (frame c s f).1.pad.interval = (mscFrame s.pad f).1.interval := by
  obtain ⟨q, h1, h2, _⟩ := frame_pad c s f
  obtain ⟨a1, a2, a3, a4, a5, a6, a7⟩ := applyRotation_fields { q with fingers := f.fingers }
  obtain ⟨m1, m2, m3, m4, m5, m6⟩ := mscFrame_pad s.pad f
  rw [h2]
  refine ⟨fun h => ?_, a2, ?_, ?_, ?_, ?_⟩
  · rw [a1]; exact h1.jitter (by show (mscFrame s.pad f).1.jitter = true; rw [m1]; exact h)
  · rw [a3]; exact h1.want.trans m5
  · rw [a4]
    show (if f.fingers = 0 then q.wantRotate else q.rotate) = _
    rw [h1.want, h1.rotate]
    show (if f.fingers = 0 then (mscFrame s.pad f).1.wantRotate else (mscFrame s.pad f).1.rotate) = _
    rw [m4, m5]
  · rw [a6]; exact h1.msc
  · rw [a7]; exact h1.interval

theorem step_jitter (c : Config) (s : State) (op : Op) (h : s.pad.jitter = true) : (step c s op).1.pad.jitter = true := by
  cases op with
  | frame f => exact (frame_pad_fields c s f).1 h
  | left on => exact ((applyRotation_fields _).1).trans h

theorem run_jitter (c : Config) (ops : List Op) : ∀ s : State, s.pad.jitter = true → (run c s ops).1.pad.jitter = true := by
  induction ops with
  | nil => exact fun _ h => h
  | cons op ops ih => exact fun s h => ih _ (step_jitter c s op h)

theorem run_fingers (c : Config) (ops : List Op) : ∀ s : State, (run c s ops).1.pad.fingers = down s.pad.fingers ops := by
  induction ops with
  | nil => exact fun _ => rfl
  | cons op ops ih =>
    intro s
    cases op with
    | frame f => exact (ih _).trans (congrArg (down · ops) (frame_pad_fields c s f).2.1)
    | left on => exact (ih _).trans (congrArg (down · ops) (applyRotation_fields _).2.1)

theorem run_rotate (c : Config) (ops : List Op) : ∀ s : State,
    (run c s ops).1.pad.rotate = upside s.pad.rotate s.pad.wantRotate s.pad.fingers ops := by
  induction ops with
  | nil => exact fun _ => rfl
  | cons op ops ih =>
    intro s
    refine (ih _).trans ?_
    cases op with
    | frame f =>
      obtain ⟨_, h2, h3, h4, _⟩ := frame_pad_fields c s f
      show upside (frame c s f).1.pad.rotate (frame c s f).1.pad.wantRotate (frame c s f).1.pad.fingers ops = _
      rw [h2, h3, h4]; rfl
    | left on =>
      obtain ⟨_, h2, h3, h4, _⟩ := applyRotation_fields { s.pad with wantRotate := on }
      show upside (applyRotation { s.pad with wantRotate := on }).rotate (applyRotation { s.pad with wantRotate := on }).wantRotate
        (applyRotation { s.pad with wantRotate := on }).fingers ops = _
      rw [h2, h3, h4]; rfl

theorem wants_fingers (c : Config) (s : State) (f : Frame) (h : f.fingers ≠ s.pad.fingers) : wants c s f = true := by
  have hm := (mscFrame_pad s.pad f).2.1
  simp only [wants, needReset]
  rw [hm, if_pos h]

theorem wants_not (c : Config) (s : State) (f : Frame) (h : f.fingers = s.pad.fingers) (ht : c.t450 = false) : wants c s f = false := by
  have hm := (mscFrame_pad s.pad f).2.1
  simp only [wants, needReset]
  rw [hm, if_neg (by simp [h]), ht]
  rfl

/-! ### Upside down -/

/-- Where a place is taken to be. -/
def spin (c : Config) (r : Bool) (p : Pt) : Pt :=
  if r then { x := c.xmax - (p.x - c.xmin), y := c.ymax - (p.y - c.ymin) } else p

theorem seen_spin (c : Config) (p : Pad) (q : Pt) (v : View) : seen c p (spin c p.rotate q) v = spin c p.rotate (place q v) := by
  simp only [seen, spin, rotated, place]
  cases p.rotate <;> cases v.x <;> cases v.y <;> rfl

theorem seen_both {c : Config} {p : Pad} {q : Pt} {v : View} {x y : Int} (hx : v.x = some x) (hy : v.y = some y) :
    seen c p q v = spin c p.rotate { x := x, y := y } := by
  simp only [seen, spin, rotated, hx, hy]
  cases p.rotate <;> rfl

theorem diff_spin (c : Config) (r : Bool) (a b : Pt) : diff (spin c r a) (spin c r b) = turn r (diff a b) := by
  cases r
  · rfl
  · simp only [diff, spin, turn, if_true, Pt.mk.injEq]
    omega

theorem mm_size (c : Config) (a b : Pt) : c.mm a b = size c (diff a b) := rfl

theorem size_turn (c : Config) (r : Bool) (d : Pt) : size c (turn r d) = size c d := by
  cases r
  · rfl
  · simp only [size, turn, if_true, Int.natAbs_neg]

theorem mm_spin (c : Config) (r : Bool) (a b : Pt) : c.mm (spin c r a) (spin c r b) = size c (diff a b) := by
  rw [mm_size, diff_spin, size_turn]

/-! ### How far touches went -/

theorem cast_pos {n : Nat} (h : n ≠ 0) : (0 : Rat) < (n : Rat) := by
  exact Rat.natCast_pos.2 (by omega)

theorem jumps_lastMm_nonneg (c : Config) (hlen : ∀ a b, 0 ≤ c.len a b) (t : Touch) (time : Nat) (h : 0 ≤ t.lastMm) :
    0 ≤ (jumps c t time).1.lastMm := by
  simp only [jumps]
  repeat' split
  all_goals first | exact h | exact Rat.le_refl | skip
  all_goals
    show 0 ≤ c.mm t.point (t.past 0).point * _ / _
    rw [Rat.div_def]
    refine Rat.mul_nonneg (Rat.mul_nonneg (hlen _ _) ?_) ?_
    · exact Rat.natCast_nonneg
    · next h =>
      have hz : time - (t.past 0).time ≠ 0 := by omega
      exact Rat.le_of_lt (Rat.inv_pos.2 (cast_pos hz))

/-- No touch remembers a negative distance. -/
def Far (s : State) : Prop := ∀ t ∈ s.touches, 0 ≤ t.lastMm

theorem frame_far (c : Config) (hlen : ∀ a b, 0 ≤ c.len a b) {s : State} (f : Frame) (h : Far s) : Far (frame c s f).1 := by
  intro t ht
  obtain ⟨i, hi, hit⟩ := List.mem_iff_getElem.1 ht
  have hl := (frame_length c s f).1
  have h1 : i < s.touches.length := by omega
  have h2 : i < f.views.length := by omega
  obtain ⟨t', k1, k2⟩ := frame_lastMm c s f i s.touches[i] f.views[i] (List.getElem?_eq_getElem h1) (List.getElem?_eq_getElem h2)
  have : some t' = some t := by rw [← k1, List.getElem?_eq_getElem hi, hit]
  cases this
  have h0 := h _ (List.getElem_mem h1)
  rw [k2]
  split
  · exact h0
  · apply jumps_lastMm_nonneg c hlen
    rw [(forget_fields _ _).2.2.2.2.2.1]
    have hb : (bef c s f s.touches[i] f.views[i]).lastMm = s.touches[i].lastMm := (before_spec c _ f _ _ _).2.2.2.2.2.2.2.2.2.1
    rw [hb]; exact h0

theorem run_far (c : Config) (hlen : ∀ a b, 0 ≤ c.len a b) (ops : List Op) : ∀ {s : State}, Far s → Far (run c s ops).1 := by
  induction ops with
  | nil => exact fun h => h
  | cons op ops ih =>
    intro s h
    cases op with
    | frame f => exact ih (frame_far c hlen f h)
    | left on => exact ih (s := (step c s (.left on)).1) h

theorem init_far (n : Nat) : Far (init n) := by
  intro t ht
  have := List.eq_of_mem_replicate ht
  subst this
  exact Rat.le_refl

/-! ### A touch that stays -/

theorem see_some {i : Nat} {f : Frame} (h : i < f.views.length) : f.views[i]? = some (see i f) := by
  simp [see, h]

theorem see_of_st {i : Nat} {f : Frame} (h : (see i f).st ≠ .none) : f.views[i]? = some (see i f) := by
  apply see_some
  apply Decidable.byContradiction
  intro hh
  apply h
  simp [see, List.getD, List.getElem?_eq_none (Nat.le_of_not_lt hh)]

/-- What is known of a touch that is followed. -/
structure Followed (c : Config) (s : State) (i : Nat) (p : Pt) (k : Nat) (r : Bool) (t : Touch) : Prop where
  get : s.touches[i]? = some t
  st : t.st ≠ .none
  again : t.again = false
  point : t.point = spin c r p
  fingers : s.pad.fingers = k
  rotate : s.pad.rotate = r

/-- Why a touch that stays does not jump: it is not looked at, or it is slow. -/
def Calm (c : Config) (f : Frame) (p : Pt) (v : View) (t : Touch) : Prop :=
  c.jumpsOff = true ∨ c.wacom = true ∨ (c.test = false ∧ 0 ≤ t.lastMm ∧ f.stamp = none ∧
    size c (diff (place p v) p) * 12000 ≤ 7 * ((f.time - (t.past 0).time : Nat) : Rat))

theorem bef_eq (c : Config) (s : State) (f : Frame) (t : Touch) (v : View) (h : f.stamp = none) :
    (bef c s f t v).past 0 = t.past 0 := by
  have hb := before_spec c (mscFrame s.pad f).1 f
    ((mscFrame s.pad f).2.map (fun j => (j, (mscFrame s.pad f).1.interval))) t v
  have hm : mscFrame s.pad f = (s.pad, none) := by simp only [mscFrame, h]
  exact past_congr (hb.2.2.2.2.2.1 (by rw [hm]; rfl)) hb.2.2.1 0

theorem step_follows {c : Config} {s : State} {i : Nat} {p : Pt} {k : Nat} {r : Bool} {t : Touch} {f : Frame}
    (inv : Inv s) (fo : Followed c s i p k r t) (hk : k ≠ 0) (hf : f.fingers = k) (hs : Stays i f) (hp : f.press = false)
    (ht450 : c.t450 = false) (ha : c.alps = false) (hj : (frame c s f).1.pad.jitter = false) :
    ∃ t', Followed c (frame c s f).1 i (place p (see i f)) k r t' ∧ t'.past 0 = { time := f.time, point := t'.point } ∧
      t'.pinCenter = t.pinCenter ∧
      t'.pinned = (t.pinned && !((see i f).dirty && decide (c.mm t'.point t.pinCenter ≥ 3 / 2))) ∧
      (t'.pinned = true → moved i (frame c s f).2.1 = {}) ∧
      (t'.pinned = false → Calm c f p (see i f) t → moved i (frame c s f).2.1 = turn r (diff (place p (see i f)) p)) := by
  obtain ⟨hst, hfresh, hland⟩ := hs
  have hv := see_of_st (i := i) (f := f) (by rw [hst]; simp)
  obtain ⟨v, hvv⟩ : ∃ v, see i f = v := ⟨_, rfl⟩
  rw [hvv] at hst hfresh hland hv ⊢
  have ok : Ok t := inv t (List.mem_of_getElem? fo.get)
  obtain ⟨t', k1, k2, k3, k4, k5, k6⟩ := frame_touch c s f i t v fo.get hv ok
  obtain ⟨m1, m2, m3, m4, d, m5, m6, m7, m8⟩ := k6 (by rw [hst]; simp)
  have hw : wants c s f = false := wants_not c s f (hf.trans fo.fingers.symm) ht450
  have hpt : t'.point = spin c r (place p v) := by
    rw [m8 hj (by rw [hst]; simp) (Or.inl ha), fo.point, ← fo.rotate, seen_spin]
  obtain ⟨hc1, hc2⟩ := ok.some_ fo.st
  obtain ⟨_, g2, g3, g4, _⟩ := frame_pad_fields c s f
  refine ⟨t', ⟨k1, ?_, m2.trans hw, hpt, g2.trans hf, ?_⟩, m1, ?_, ?_, ?_, ?_⟩
  · rw [k3, hst]; simp
  · rw [g4, if_neg (by omega)]; exact fo.rotate
  · rw [m4]; simp [hp]
  · rw [m3, hp, hfresh, hst]; cases t.pinned <;> rfl
  · intro hpin; simp [moved, m5, hpin]
  intro hpin calm
  have hjump : (jumps c (bef c s f t v) f.time).2 = false := by
    rcases calm with h | h | ⟨h1, h2, h3, h4⟩
    · simp [jumps, h]
    · simp only [jumps, h]; split <;> rfl
    · have hbp := bef_eq c s f t v h3
      have hb := before_spec c (mscFrame s.pad f).1 f
        ((mscFrame s.pad f).2.map (fun j => (j, (mscFrame s.pad f).1.interval))) t v
      have hbm : (bef c s f t v).lastMm = t.lastMm := hb.2.2.2.2.2.2.2.2.2.1
      have hbpt : (bef c s f t v).point = spin c r (place p v) := by
        have := hb.2.2.2.2.2.2.2.2.2.2.2.2.1 (by rw [hst]; simp)
        refine this.trans ?_
        have hm := (mscFrame_pad s.pad f).2.2.2.1
        rw [fo.point, ← fo.rotate, ← hm, seen_spin]
      by_cases hz : f.time - (t.past 0).time = 0
      · simp only [jumps, hbp]
        repeat' split
        all_goals first | rfl | (exfalso; omega)
      · apply jumps_slow (by rw [hbm]; exact h2) ha h1
        rw [hbp, hbpt, hc2, fo.point, mm_spin]
        apply Rat.not_lt.1
        intro hh
        rw [Rat.lt_div_iff (cast_pos hz)] at hh
        exact absurd h4 (Rat.not_le.2 hh)
  have hd := m7 hw fo.again hfresh hland hc1 (fun _ => hjump)
  rw [hpt, hc2, fo.point, diff_spin] at hd
  have : moved i (frame c s f).2.1 = (if v.dirty = true then d else {}) := by
    simp [moved, m5, hst, hpin]
  rw [this]
  split
  · exact hd
  · next hdd =>
    -- a touch without events is where it was
    have hx : v.x = none := by
      cases hx : v.x
      · rfl
      · simp [View.dirty, hx] at hdd
    have hy : v.y = none := by
      cases hy : v.y
      · rfl
      · simp [View.dirty, hy] at hdd
    have : diff (place p v) p = {} := by simp [diff, place, hx, hy]
    rw [this]; cases r <;> rfl

/-- A touch that is followed is followed through a history. -/
theorem run_follows {c : Config} {i k : Nat} {r : Bool} (hk : k ≠ 0) (ht450 : c.t450 = false) (ha : c.alps = false) (fs : List Op) :
    ∀ {s : State} {p : Pt} {t : Touch}, Inv s → Followed c s i p k r t → t.pinned = false →
      (∀ f, .frame f ∈ fs → f.fingers = k) →
      (∀ f, .frame f ∈ fs → Stays i f) → NoPress fs → (run c s fs).1.pad.jitter = false →
      (c.jumpsOff = true ∨ c.wacom = true ∨ (c.test = false ∧ (∀ a b, 0 ≤ c.len a b) ∧ Far s ∧ Slow c i p (t.past 0).time fs)) →
      total ((run c s fs).2.map (moved i)) = turn r (diff (places i p fs) p) := by
  induction fs with
  | nil =>
    intro s p t _ _ _ _ _ _ _ _
    simp only [run, places, List.map_nil, total, diff, Int.sub_self]
    cases r <;> rfl
  | cons op fs ih =>
    intro s p t inv fo hpin hf hs hp hj hcalm
    cases op with
    | left on =>
      have hfo : Followed c (step c s (.left on)).1 i p k r t := by
        refine ⟨fo.get, fo.st, fo.again, fo.point, ?_, ?_⟩
        · exact (applyRotation_fields _).2.1.trans fo.fingers
        · refine (applyRotation_fields _).2.2.2.1.trans ?_
          show (if s.pad.fingers = 0 then _ else s.pad.rotate) = r
          rw [if_neg (by rw [fo.fingers]; exact hk)]; exact fo.rotate
      have h := ih (s := (step c s (.left on)).1) inv hfo hpin (fun f h => hf f (List.mem_cons_of_mem _ h))
        (fun f h => hs f (List.mem_cons_of_mem _ h)) (fun f h => hp f (List.mem_cons_of_mem _ h)) hj
        (by
          rcases hcalm with h | h | ⟨h1, h2, h3, h4⟩
          · exact Or.inl h
          · exact Or.inr (Or.inl h)
          · exact Or.inr (Or.inr ⟨h1, h2, h3, h4⟩))
      show total (moved i [] :: (run c (step c s (.left on)).1 fs).2.map (moved i)) = _
      simp only [total, h, moved, List.getD_nil, Int.zero_add, places]
    | frame f =>
      have hj1 : (frame c s f).1.pad.jitter = false := by
        cases hh : (frame c s f).1.pad.jitter
        · rfl
        · have hj : (run c (frame c s f).1 fs).1.pad.jitter = false := hj
          rw [run_jitter c fs (frame c s f).1 hh] at hj; exact absurd hj (by simp)
      have hcalm1 : Calm c f p (see i f) t := by
        rcases hcalm with h | h | ⟨h1, h2, h3, h4⟩
        · exact Or.inl h
        · exact Or.inr (Or.inl h)
        · exact Or.inr (Or.inr ⟨h1, h3 t (List.mem_of_getElem? fo.get), h4.1, h4.2.1⟩)
      obtain ⟨t', fo', hpast, hcen, hpinned, _, hmove⟩ := step_follows inv fo hk (hf f (List.mem_cons_self ..)) (hs f (List.mem_cons_self ..))
        (hp f (List.mem_cons_self ..)) ht450 ha hj1
      have hpin' : t'.pinned = false := by rw [hpinned, hpin]; rfl
      have hmove := hmove hpin' hcalm1
      have h := ih (s := (frame c s f).1) (frame_inv c f inv) fo' hpin' (fun f h => hf f (List.mem_cons_of_mem _ h))
        (fun f h => hs f (List.mem_cons_of_mem _ h)) (fun f h => hp f (List.mem_cons_of_mem _ h)) hj
        (by
          rcases hcalm with h | h | ⟨h1, h2, h3, h4⟩
          · exact Or.inl h
          · exact Or.inr (Or.inl h)
          · refine Or.inr (Or.inr ⟨h1, h2, frame_far c h2 f h3, ?_⟩)
            rw [hpast]; exact h4.2.2)
      show total (moved i (frame c s f).2.1 :: (run c (frame c s f).1 fs).2.map (moved i)) = _
      simp only [total, h, hmove, places, diff]
      cases r
      · simp only [turn, Bool.false_eq_true, if_false, Pt.mk.injEq]; omega
      · simp only [turn, if_true, Pt.mk.injEq]; omega

/-! ### Being there -/

theorem run_length (c : Config) (ops : List Op) : ∀ (s : State), Full s.touches.length ops →
    (run c s ops).1.touches.length = s.touches.length := by
  induction ops with
  | nil => exact fun _ _ => rfl
  | cons op ops ih =>
    intro s h
    cases op with
    | left on => exact ih (step c s (.left on)).1 (fun f hf => h f (List.mem_cons_of_mem _ hf))
    | frame f =>
      have hl : (frame c s f).1.touches.length = s.touches.length := by
        rw [(frame_length c s f).1, h f (List.mem_cons_self ..)]; exact Nat.min_self _
      have := ih (frame c s f).1 (fun g hg => by rw [hl]; exact h g (List.mem_cons_of_mem _ hg))
      exact this.trans hl

/-- A touch that is not pinned is not as long as nothing is pressed. -/
theorem run_unpinned (c : Config) (i : Nat) (ops : List Op) : ∀ {s : State} {t : Touch}, Inv s → Full s.touches.length ops →
    NoPress ops → s.touches[i]? = some t → t.pinned = false →
    ∃ t', (run c s ops).1.touches[i]? = some t' ∧ t'.pinned = false := by
  induction ops with
  | nil => exact fun _ _ _ h1 h2 => ⟨_, h1, h2⟩
  | cons op ops ih =>
    intro s t inv full np h1 h2
    cases op with
    | left on =>
      exact ih (s := (step c s (.left on)).1) inv (fun f hf => full f (List.mem_cons_of_mem _ hf))
        (fun f hf => np f (List.mem_cons_of_mem _ hf)) h1 h2
    | frame f =>
      have hl : (frame c s f).1.touches.length = s.touches.length := by
        rw [(frame_length c s f).1, full f (List.mem_cons_self ..)]; exact Nat.min_self _
      have hi : i < s.touches.length := (List.getElem?_eq_some_iff.1 h1).1
      have hv := see_some (i := i) (f := f) (by rw [full f (List.mem_cons_self ..)]; exact hi)
      obtain ⟨t', k1, k2, k3, k4, _⟩ := frame_touch c s f i t _ h1 hv (inv t (List.mem_of_getElem? h1))
      exact ih (s := (frame c s f).1) (frame_inv c f inv) (fun g hg => by rw [hl]; exact full g (List.mem_cons_of_mem _ hg))
        (fun f hf => np f (List.mem_cons_of_mem _ hf)) k1
        (k4 (Or.inl h2) (by simp [np f (List.mem_cons_self ..)]))

end Libinput.Follow
