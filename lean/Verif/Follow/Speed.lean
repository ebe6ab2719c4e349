/-
The count of fast frames, and the time that is measured against when events are missing.
-/
import Verif.Follow.Walk
import Verif.Follow.More
namespace Libinput.Follow
open Spec

/-! ### The speed of a touch -/

theorem fixLast_speed (t : Touch) (j n time : Nat) (k : Nat) : (fixLast t j n time k).speed = t.speed := by
  induction k with
  | zero => rfl
  | succ k ih => exact ih

theorem before_speed (c : Config) (p : Pad) (f : Frame) (fix : Option (Nat × Nat)) (t : Touch) (v : View) (hv : v.st = .update)
    (hf : v.fresh = false) : (before c p f fix t v).speed = t.speed ∧ (before c p f fix t v).fast = t.fast := by
  have hfix : ∀ u : Touch, (fixTouch f fix u v).speed = u.speed ∧ (fixTouch f fix u v).fast = u.fast := by
    intro u
    cases fix with
    | none => exact ⟨rfl, rfl⟩
    | some jn =>
      simp only [fixTouch]
      split
      · exact ⟨fixLast_speed _ _ _ _ _, (fixLast_fields u jn.1 jn.2 f.time u.count).2.2.2.2.2.2.2.2.2.2.1⟩
      · exact ⟨rfl, rfl⟩
  have ha : (arrive c p t v).speed = t.speed ∧ (arrive c p t v).fast = t.fast := by simp [arrive, hf]
  obtain ⟨h1, h2⟩ := hfix (arrive c p t v)
  rw [ha.1] at h1
  rw [ha.2] at h2
  simp only [before, hv, reduceCtorEq, if_false, false_and]
  split <;> exact ⟨h1, h2⟩

theorem before_fresh (c : Config) (p : Pad) (f : Frame) (fix : Option (Nat × Nat)) (t : Touch) (v : View) (hf : v.fresh = true) :
    (before c p f fix t v).speed = 0 ∧ (before c p f fix t v).fast = 0 := by
  have hfix : ∀ u : Touch, (fixTouch f fix u v).speed = u.speed ∧ (fixTouch f fix u v).fast = u.fast := by
    intro u
    cases fix with
    | none => exact ⟨rfl, rfl⟩
    | some jn =>
      simp only [fixTouch]
      split
      · exact ⟨fixLast_speed _ _ _ _ _, (fixLast_fields u jn.1 jn.2 f.time u.count).2.2.2.2.2.2.2.2.2.2.1⟩
      · exact ⟨rfl, rfl⟩
  have ha : (arrive c p t v).speed = 0 ∧ (arrive c p t v).fast = 0 := by simp [arrive, hf]
  obtain ⟨h1, h2⟩ := hfix (arrive c p t v)
  rw [ha.1] at h1
  rw [ha.2] at h2
  simp only [before]
  repeat' split
  all_goals first | exact ⟨h1, h2⟩ | exact ⟨h1, rfl⟩

theorem forget_speed (want : Bool) (t : Touch) : (forget want t).speed = t.speed := by
  simp only [forget]
  repeat' split
  all_goals rfl

theorem ready_speed (c : Config) (p : Pad) (f : Frame) (motion : Bool) (t : Touch) : (ready c p f motion t).2.speed = t.speed := by
  simp only [ready]
  rw [(steady_fields c _ _).2.2.2.2.2.1, (wobbling_fields p _ _ _ _).2.2.2.2.2.1]
  split
  · exact (jumps_fields c t f.time).2.2.2.2.2.2.1
  · exact (jumps_fields c t f.time).2.2.2.2.2.2.1

theorem unpin_speed (c : Config) (t : Touch) : (unpin c t).speed = t.speed := by
  simp only [unpin]
  repeat' split
  all_goals rfl

/-- The next count of fast frames. -/
def more (t : Touch) : Nat := if t.speed > 20 then (if t.fast < 15 then t.fast + 1 else t.fast) else t.fast - 1

theorem process_speed (c : Config) (f : Frame) (want motion : Bool) (p : Pad) (t : Touch) (h : t.st = .update) (hi : t.index < 4) :
    let r := (process c f want motion p t).2
    (t.dirty = false → r.fast = t.fast - 1 ∧ r.speed = t.speed) ∧
    (t.dirty = true → r.fast = more t ∧
      r.speed = (if c.multi = true ∧ 4 ≤ r.count then
        c.mm r.point (t.past 0).point / ((f.time - (t.past 0).time : Nat) : Rat) * 1000000 else t.speed)) ∧
    (want = false → t.again = false → (t.dirty = true → (jumps c t f.time).2 = false) → t.count ≤ 4 →
      r.count = (if t.count < 4 then t.count + 1 else 4)) := by
  intro r
  have hr : r = (process c f want motion p t).2 := rfl
  rw [process_eq c f want motion p t (by rw [h]; simp)] at hr
  have ff := forget_fields want t
  refine ⟨fun hd => ?_, fun hd => ?_, fun h1 h2 h3 h4 => ?_⟩
  · rw [if_pos hd] at hr
    rw [hr]
    exact ⟨by show (forget want t).fast - 1 = _; rw [ff.2.2.2.2.1], forget_speed want t⟩
  · rw [if_neg (by rw [hd]; simp)] at hr
    have hr : r = unpin c (calcSpeed c (countFast (push (ready c p f motion (forget want t)).2 f.time)) f.time) := hr
    obtain ⟨g, hg⟩ : ∃ g, (ready c p f motion (forget want t)).2 = g := ⟨_, rfl⟩
    have gf : g.fast = t.fast := by rw [← hg, (ready_fields c p f motion _).2.2.2.1, ff.2.2.2.2.1]
    have gs : g.speed = t.speed := by rw [← hg, ready_speed, forget_speed]
    have gsame : Same g t := by rw [← hg]; exact (ready_same c p f motion _).trans (forget_same want t)
    rw [hg] at hr
    refine ⟨?_, ?_⟩
    · rw [hr, (unpin_fields c _).2.2.2.1, (calcSpeed_fields c _ _).2.2.2.2.1]
      show (if (push g f.time).speed > 20 then _ else _) = _
      show (if g.speed > 20 then (if g.fast < 15 then g.fast + 1 else g.fast) else g.fast - 1) = _
      rw [gs, gf]; rfl
    · have hcount : r.count = (push g f.time).count := by
        rw [hr, (unpin_fields c _).1, (calcSpeed_fields c _ _).1]; rfl
      have hpt : r.point = g.point := by
        rw [hr, (unpin_fields c _).2.2.2.2.2.2.1, (calcSpeed_fields c _ _).2.2.2.2.2.2.2]; rfl
      rw [hcount, hpt, hr, unpin_speed]
      have hp1 : (countFast (push g f.time)).past 1 = t.past 0 := by
        rw [(countFast_same _).past 1, push_past_one f.time (by rw [gsame.index]; exact hi), gsame.past 0]
      have hst : (countFast (push g f.time)).st = .update := (countFast_same _).st.trans (gsame.st.trans h)
      show (calcSpeed c (countFast (push g f.time)) f.time).speed = _
      simp only [calcSpeed]
      rw [hp1]
      have hc2 : (countFast (push g f.time)).count = (push g f.time).count := rfl
      rw [hc2]
      by_cases hm : c.multi = true
      · rw [if_neg (by rw [hm]; simp), if_neg (by rw [hst]; simp)]
        by_cases h4 : (push g f.time).count < 4
        · rw [if_pos h4, if_neg (by omega)]; exact gs
        · rw [if_neg h4, if_pos ⟨hm, by omega⟩]
          rfl
      · rw [if_pos (by simpa using hm), if_neg (by simp [hm])]; exact gs
  · have hfor : forget want t = t := ff.2.2.2.2.2.2.2.2.2 h1 h2
    rw [hfor] at hr
    have key : ∀ u : Touch, u.count = t.count → (push u f.time).count = (if t.count < 4 then t.count + 1 else 4) := by
      intro u hu
      show (if u.count < 4 then u.count + 1 else u.count) = _
      rw [hu]
      split <;> omega
    by_cases hd : t.dirty = false
    · rw [if_pos hd] at hr
      rw [hr]; exact key { t with fast := t.fast - 1 } rfl
    · rw [if_neg hd] at hr
      rw [hr, (unpin_fields c _).1, (calcSpeed_fields c _ _).1]
      show (push _ f.time).count = _
      apply key
      rw [(ready_fields c p f motion t).2.2.2.2.2.1, h3 (by simpa using hd)]
      rfl

theorem pinIf_speed (c : Config) (f : Frame) (t : Touch) : (after (pinIf c f t)).speed = t.speed ∧ (after (pinIf c f t)).fast = t.fast ∧
    (after (pinIf c f t)).count = t.count ∧ (after (pinIf c f t)).point = t.point := by
  simp only [pinIf, after]
  split <;> exact ⟨rfl, rfl, rfl, rfl⟩

/-- What a frame does with the speed of a touch that stays. -/
theorem frame_speed (c : Config) (s : State) (f : Frame) (i : Nat) (t : Touch) (v : View) (ht : s.touches[i]? = some t)
    (hv : f.views[i]? = some v) (ok : Ok t) (hst : v.st = .update) (hf : v.fresh = false) (hland : v.landed = false)
    (hstamp : f.stamp = none) :
    ∃ t', (frame c s f).1.touches[i]? = some t' ∧
      (v.dirty = false → t'.fast = t.fast - 1 ∧ t'.speed = t.speed) ∧
      (v.dirty = true → t'.fast = more t ∧
        t'.speed = (if c.multi = true ∧ 4 ≤ t'.count then
          c.mm t'.point (t.past 0).point / ((f.time - (t.past 0).time : Nat) : Rat) * 1000000 else t.speed)) ∧
      (wants c s f = false → t.again = false → (v.dirty = true → (jumps c (bef c s f t v) f.time).2 = false) →
        t'.count = (if t.count < 4 then t.count + 1 else 4)) := by
  obtain ⟨q, h1, h2, h3, h4⟩ := frame_get c s f i t v ht hv
  have hb := before_spec c (mscFrame s.pad f).1 f
    ((mscFrame s.pad f).2.map (fun j => (j, (mscFrame s.pad f).1.interval))) t v
  have hs : (bef c s f t v).speed = t.speed ∧ (bef c s f t v).fast = t.fast := before_speed c _ f _ t v hst hf
  have b1 : (bef c s f t v).st = .update := hb.1.trans hst
  have b2 : (bef c s f t v).dirty = v.dirty := hb.2.1
  have b3 : (bef c s f t v).index < 4 := by
    have : (bef c s f t v).index = t.index := hb.2.2.1
    rw [this]; exact ok.index
  have b4 : (bef c s f t v).count = t.count := by
    have : (bef c s f t v).count = _ := hb.2.2.2.1
    rw [this, hf, hland]; rfl
  have b5 : (bef c s f t v).again = t.again := hb.2.2.2.2.2.2.2.2.1
  have b6 := bef_eq c s f t v hstamp
  have hm : more (bef c s f t v) = more t := by simp only [more, hs.1, hs.2]
  obtain ⟨b, hbb⟩ : ∃ b, bef c s f t v = b := ⟨_, rfl⟩
  rw [hbb] at h2 h3 h4 hs b1 b2 b3 b4 b5 b6 hm ⊢
  obtain ⟨p1, p2, p3⟩ := process_speed c f (wants c s f) (motionOf c s f) q b b1 b3
  obtain ⟨a1, a2, a3, a4⟩ := pinIf_speed c f (process c f (wants c s f) (motionOf c s f) q b).2
  rw [b2] at p1 p2 p3
  rw [hs.1, hs.2] at p1
  rw [hm, hs.1, b6] at p2
  rw [b4, b5] at p3
  refine ⟨_, h3, ?_, ?_, ?_⟩
  · rw [a1, a2]; exact p1
  · rw [a1, a2, a3, a4]; exact p2
  · rw [a3]; exact fun x y z => p3 x y z ok.count

/-- A touch that is new is not fast. -/
theorem frame_fresh (c : Config) (s : State) (f : Frame) (i : Nat) (t : Touch) (v : View) (ht : s.touches[i]? = some t)
    (hv : f.views[i]? = some v) (hf : v.fresh = true) :
    ∃ t', (frame c s f).1.touches[i]? = some t' ∧ t'.fast = 0 ∧ t'.speed = 0 := by
  obtain ⟨q, h1, h2, h3, h4⟩ := frame_get c s f i t v ht hv
  have hs : (bef c s f t v).speed = 0 ∧ (bef c s f t v).fast = 0 := before_fresh c _ f _ t v hf
  have hb := before_spec c (mscFrame s.pad f).1 f
    ((mscFrame s.pad f).2.map (fun j => (j, (mscFrame s.pad f).1.interval))) t v
  have hcount : (bef c s f t v).count = 0 := by
    have : (bef c s f t v).count = _ := hb.2.2.2.1
    rw [this, hf]; rfl
  obtain ⟨b, hbb⟩ : ∃ b, bef c s f t v = b := ⟨_, rfl⟩
  rw [hbb] at h2 h3 h4 hs hcount
  obtain ⟨a1, a2, a3, a4⟩ := pinIf_speed c f (process c f (wants c s f) (motionOf c s f) q b).2
  refine ⟨_, h3, ?_⟩
  rw [a1, a2]
  by_cases hn : b.st = .none
  · rw [process_none _ _ _ _ _ _ hn]; exact ⟨hs.2, hs.1⟩
  · rw [process_eq _ _ _ _ _ _ hn]
    have ff := forget_fields (wants c s f) b
    split
    · exact ⟨by show (forget _ b).fast - 1 = 0; rw [ff.2.2.2.2.1, hs.2], (forget_speed _ b).trans hs.1⟩
    · obtain ⟨g, hg⟩ : ∃ g, (ready c q f (motionOf c s f) (forget (wants c s f) b)).2 = g := ⟨_, rfl⟩
      have gf : g.fast = 0 := by rw [← hg, (ready_fields c q f _ _).2.2.2.1, ff.2.2.2.2.1, hs.2]
      have gs : g.speed = 0 := by rw [← hg, ready_speed, forget_speed, hs.1]
      have gc : g.count = 0 := by
        rw [← hg, (ready_fields c q f _ _).2.2.2.2.2.1]
        split
        · rfl
        · have := ff.2.2.2.2.2.2.2.1; omega
      show (unpin c (calcSpeed c (countFast (push (ready c q f (motionOf c s f) (forget (wants c s f) b)).2 f.time)) f.time)).fast = 0 ∧ (unpin c (calcSpeed c (countFast (push (ready c q f (motionOf c s f) (forget (wants c s f) b)).2 f.time)) f.time)).speed = 0
      rw [hg, (unpin_fields c _).2.2.2.1, (calcSpeed_fields c _ _).2.2.2.2.1, unpin_speed]
      refine ⟨?_, ?_⟩
      · show (if g.speed > 20 then (if g.fast < 15 then g.fast + 1 else g.fast) else g.fast - 1) = 0
        rw [gs, if_neg (by decide), gf]
      · simp only [calcSpeed]
        have hc1 : (countFast (push g f.time)).count = 1 := push_count_one f.time gc
        rw [hc1]
        repeat' split
        all_goals first | exact gs | (exfalso; omega)

/-! ### Histories -/

theorem calm_no_jump {c : Config} {s : State} {i : Nat} {p : Pt} {k : Nat} {r : Bool} {t : Touch} {f : Frame}
    (inv : Inv s) (fo : Followed c s i p k r t) (hs : Stays i f) (ha : c.alps = false) (calm : Calm c f p (see i f) t) :
    (jumps c (bef c s f t (see i f)) f.time).2 = false := by
  obtain ⟨hst, hfresh, hland⟩ := hs
  obtain ⟨v, hvv⟩ : ∃ v, see i f = v := ⟨_, rfl⟩
  rw [hvv] at hst hfresh hland calm ⊢
  have ok : Ok t := inv t (List.mem_of_getElem? fo.get)
  obtain ⟨hc1, hc2⟩ := ok.some_ fo.st
  rcases calm with h | h | ⟨h1, h2, h3, h4⟩
  · simp [jumps, h]
  · simp only [jumps, h]; split <;> rfl
  · have hbp := bef_eq c s f t v h3
    have hb := before_spec c (mscFrame s.pad f).1 f
      ((mscFrame s.pad f).2.map (fun j => (j, (mscFrame s.pad f).1.interval))) t v
    have hbm : (bef c s f t v).lastMm = t.lastMm := hb.2.2.2.2.2.2.2.2.2.1
    have hbpt : (bef c s f t v).point = spin c r (place p v) := by
      have := hb.2.2.2.2.2.2.2.2.2.2.2.2.1 (by rw [hst]; simp)
      refine this.trans ?_
      have hm := (mscFrame_pad s.pad f).2.2.2.1
      rw [fo.point, ← fo.rotate, ← hm, seen_spin]
    by_cases hz : f.time - (t.past 0).time = 0
    · simp only [jumps, hbp]
      repeat' split
      all_goals first | rfl | (exfalso; omega)
    · apply jumps_slow (by rw [hbm]; exact h2) ha h1
      rw [hbp, hbpt, hc2, fo.point, mm_spin]
      apply Rat.not_lt.1
      intro hh
      rw [Rat.lt_div_iff (cast_pos hz)] at hh
      exact absurd h4 (Rat.not_le.2 hh)

theorem speed_le {a : Rat} {k : Nat} (hk : k ≠ 0) (h : a * 1000000 ≤ 20 * (k : Rat)) : ¬ a / (k : Rat) * 1000000 > 20 := by
  intro hh
  have hp := cast_pos hk
  have e : a / (k : Rat) * 1000000 = a * 1000000 / (k : Rat) := by
    rw [Rat.div_def, Rat.div_def, Rat.mul_assoc, Rat.mul_assoc, Rat.mul_comm (k : Rat)⁻¹]
  rw [e] at hh
  have : (20 : Rat) < a * 1000000 / (k : Rat) := hh
  rw [Rat.lt_div_iff hp] at this
  exact absurd h (Rat.not_le.2 this)

theorem speed_gt {a : Rat} {k : Nat} (hk : k ≠ 0) (h : 20 * (k : Rat) < a * 1000000) : a / (k : Rat) * 1000000 > 20 := by
  have hp := cast_pos hk
  have e : a / (k : Rat) * 1000000 = a * 1000000 / (k : Rat) := by
    rw [Rat.div_def, Rat.div_def, Rat.mul_assoc, Rat.mul_assoc, Rat.mul_comm (k : Rat)⁻¹]
  rw [e]
  show (20 : Rat) < a * 1000000 / (k : Rat)
  rw [Rat.lt_div_iff hp]
  exact h

/-- A slow touch stays slow. -/
theorem run_slow {c : Config} {i : Nat} {r : Bool} (ha : c.alps = false) (gs : List Op) :
    ∀ {s : State} {p : Pt} {t : Touch}, Inv s → s.touches[i]? = some t → t.st ≠ .none → t.point = spin c r p → s.pad.rotate = r →
      s.pad.fingers ≠ 0 → (∀ f, .frame f ∈ gs → f.fingers ≠ 0) → (∀ f, .frame f ∈ gs → Stays i f) →
      (run c s gs).1.pad.jitter = false → ¬ t.speed > 20 → t.fast = 0 → Leisurely c i p (t.past 0).time gs →
      ∃ t', (run c s gs).1.touches[i]? = some t' ∧ t'.fast = 0 := by
  induction gs with
  | nil => intro s p t _ h _ _ _ _ _ _ _ _ h0 _; exact ⟨t, h, h0⟩
  | cons op gs ih =>
    intro s p t inv h1 h2 h3 h4 h5 hf hs hj hsp h0 hl
    cases op with
    | left on =>
      refine ih (s := (step c s (.left on)).1) inv h1 h2 h3 ?_ ?_ (fun f h => hf f (List.mem_cons_of_mem _ h))
        (fun f h => hs f (List.mem_cons_of_mem _ h)) hj hsp h0 hl
      · refine (applyRotation_fields _).2.2.2.1.trans ?_
        show (if s.pad.fingers = 0 then _ else s.pad.rotate) = r
        rw [if_neg h5]; exact h4
      · intro hh; exact h5 ((applyRotation_fields { s.pad with wantRotate := on }).2.1.symm.trans hh)
    | frame f =>
      obtain ⟨l1, l2, l3, l4⟩ := hl
      obtain ⟨hst, hfresh, hland⟩ := hs f (List.mem_cons_self ..)
      have hv := see_of_st (i := i) (f := f) (by rw [hst]; simp)
      have ok : Ok t := inv t (List.mem_of_getElem? h1)
      have hj1 : (frame c s f).1.pad.jitter = false := by
        cases hh : (frame c s f).1.pad.jitter
        · rfl
        · have hj : (run c (frame c s f).1 gs).1.pad.jitter = false := hj
          rw [run_jitter c gs (frame c s f).1 hh] at hj; exact absurd hj (by simp)
      obtain ⟨t', k1, k2, k3, k4, k5, k6⟩ := frame_touch c s f i t _ h1 hv ok
      obtain ⟨m1, m2, m3, m4, d, m5, m6, m7, m8⟩ := k6 (by rw [hst]; simp)
      obtain ⟨t'', j1, j2, j3, _⟩ := frame_speed c s f i t _ h1 hv ok hst hfresh hland l1
      have : t'' = t' := by rw [k1] at j1; exact (Option.some.inj j1).symm
      subst this
      have hpt : t''.point = spin c r (place p (see i f)) := by
        rw [m8 hj1 (by rw [hst]; simp) (Or.inl ha), h3, ← h4, seen_spin]
      obtain ⟨_, g2, g3, g4, _⟩ := frame_pad_fields c s f
      have hff := hf f (List.mem_cons_self ..)
      have hz : f.time - (t.past 0).time ≠ 0 := by omega
      refine ih (s := (frame c s f).1) (frame_inv c f inv) k1 ?_ hpt ?_ ?_ (fun f h => hf f (List.mem_cons_of_mem _ h))
        (fun f h => hs f (List.mem_cons_of_mem _ h)) hj ?_ ?_ ?_
      · rw [k3, hst]; simp
      · rw [g4, if_neg hff]; exact h4
      · rw [g2]; exact hff
      · cases hd : (see i f).dirty
        · rw [(j2 hd).2]; exact hsp
        · rw [(j3 hd).2]
          split
          · rw [hpt, (ok.some_ h2).2, h3, mm_spin]
            exact speed_le hz l3
          · exact hsp
      · cases hd : (see i f).dirty
        · rw [(j2 hd).1, h0]
        · rw [(j3 hd).1, more, if_neg hsp, h0]
      · rw [m1]; exact l4

/-- A fast touch is counted. -/
theorem run_fast {c : Config} {i k : Nat} {r : Bool} (hk : k ≠ 0) (ht450 : c.t450 = false) (ha : c.alps = false)
    (hm : c.multi = true) (fs : List Frame) :
    ∀ {s : State} {p : Pt} {t : Touch} (m : Nat), Inv s → Followed c s i p k r t →
      (∀ f ∈ fs, f.fingers = k ∧ Stays i f ∧ f.press = false) → (run c s (fs.map .frame)).1.pad.jitter = false →
      (c.jumpsOff = true ∨ c.wacom = true ∨
        (c.test = false ∧ (∀ a b, 0 ≤ c.len a b) ∧ Far s ∧ Slow c i p (t.past 0).time (fs.map .frame))) →
      Brisk c i p (t.past 0).time fs → min 4 (1 + m) ≤ t.count → (3 ≤ m → t.speed > 20) → min 15 (m - 3) ≤ t.fast →
      ∃ t', (run c s (fs.map .frame)).1.touches[i]? = some t' ∧ min 15 (m + fs.length - 3) ≤ t'.fast := by
  induction fs with
  | nil => intro s p t m _ fo _ _ _ _ _ _ h; exact ⟨t, fo.get, h⟩
  | cons f fs ih =>
    intro s p t m inv fo hfs hj hcalm hb hcount hspeed hfast
    obtain ⟨hf, hs, hp⟩ := hfs f (List.mem_cons_self ..)
    obtain ⟨b1, b2, b3, b4, b5⟩ := hb
    have hj : (run c (frame c s f).1 (fs.map .frame)).1.pad.jitter = false := hj
    have hj1 : (frame c s f).1.pad.jitter = false := by
      cases hh : (frame c s f).1.pad.jitter
      · rfl
      · rw [run_jitter c _ (frame c s f).1 hh] at hj; exact absurd hj (by simp)
    have ok : Ok t := inv t (List.mem_of_getElem? fo.get)
    have hcalm1 : Calm c f p (see i f) t := by
      rcases hcalm with h | h | ⟨h1, h2, h3, h4⟩
      · exact Or.inl h
      · exact Or.inr (Or.inl h)
      · exact Or.inr (Or.inr ⟨h1, h3 t (List.mem_of_getElem? fo.get), h4.1, h4.2.1⟩)
    have hv := see_of_st (i := i) (f := f) (by rw [hs.1]; simp)
    have hd : (see i f).dirty = true := by
      rcases b4 with h | h
      · cases hx : (see i f).x
        · exact absurd hx h
        · simp [View.dirty, hx]
      · cases hy : (see i f).y
        · exact absurd hy h
        · simp [View.dirty, hy]
    obtain ⟨t', fo', hpast, _⟩ := step_follows inv fo hk hf hs hp ht450 ha hj1
    obtain ⟨t'', j1, _, j3, j4⟩ := frame_speed c s f i t _ fo.get hv ok hs.1 hs.2.1 hs.2.2 b1
    have : t'' = t' := by rw [fo'.get] at j1; exact (Option.some.inj j1).symm
    subst this
    have hw : wants c s f = false := wants_not c s f (hf.trans fo.fingers.symm) ht450
    have j4 := j4 hw fo.again (fun _ => calm_no_jump inv fo hs ha hcalm1)
    obtain ⟨j5, j6⟩ := j3 hd
    have hz : f.time - (t.past 0).time ≠ 0 := by omega
    have hok := ok.count
    obtain ⟨tt, e1, e2⟩ := ih (s := (frame c s f).1) (m + 1) (frame_inv c f inv) fo' (fun g hg => hfs g (List.mem_cons_of_mem _ hg)) hj
      (by
        rcases hcalm with h | h | ⟨h1, h2, h3, h4⟩
        · exact Or.inl h
        · exact Or.inr (Or.inl h)
        · refine Or.inr (Or.inr ⟨h1, h2, frame_far c h2 f h3, ?_⟩)
          rw [hpast]; exact h4.2.2)
      (by rw [hpast]; exact b5) (by rw [j4]; split <;> omega)
      (by
        intro h
        have h4 : 4 ≤ t''.count := by rw [j4]; split <;> omega
        rw [j6, if_pos ⟨hm, h4⟩, fo'.point, (ok.some_ fo.st).2, fo.point, mm_spin]
        exact speed_gt hz b3)
      (by
        by_cases h3 : 3 ≤ m
        · rw [j5, more, if_pos (hspeed h3)]; split <;> omega
        · omega)
    exact ⟨tt, e1, by simp only [List.length_cons]; omega⟩

/-! ### When events are missing -/

theorem fixLast_past (t : Touch) (j n time : Nat) (hi : t.index < 4) (k : Nat) :
    1 ≤ k → k ≤ 4 → ((fixLast t j n time k).past 0).time = time - j := by
  induction k with
  | zero => intro h; omega
  | succ k ih =>
    intro _ h4
    have hidx : ∀ k, (fixLast t j n time k).index = t.index := fun k => (fixLast_fields t j n time k).2.2.2.1
    have hpos : (fixLast t j n time (k + 1)).pos 0 = t.index := by rw [Touch.pos_zero (by rw [hidx]; exact hi), hidx]
    have hpk : (fixLast t j n time k).pos k = (t.index + 4 - k) % 4 := by
      simp only [Touch.pos, hidx, LEN]; omega
    rw [Touch.past, hpos]
    simp only [fixLast, hpk]
    by_cases h0 : k = 0
    · subst h0
      have : t.index = (t.index + 4 - 0) % 4 := by omega
      rw [if_pos this]
      show time - j - n * 0 = time - j
      omega
    · rw [if_neg (by omega)]
      have h := ih (by omega) (by omega)
      rw [Touch.past, Touch.pos_zero (by rw [hidx]; exact hi), hidx] at h
      exact h

end Libinput.Follow
