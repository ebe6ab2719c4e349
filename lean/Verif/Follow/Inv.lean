/-
What holds of every touch after every history, and what a frame does with a touch of which that holds.
-/
import Verif.Follow.Frames
namespace Libinput.Follow
open Spec

/-- What holds of every touch. -/
structure Ok (t : Touch) : Prop where
  index : t.index < 4
  count : t.count ≤ 4
  fast : t.fast ≤ 15
  xmoves : t.xmoves < 8
  some_ : t.st ≠ .none → 1 ≤ t.count ∧ (t.past 0).point = t.point

theorem wobbling_xmoves (p : Pad) (t : Touch) (n : Nat) (m : Bool) (time : Nat) (h : t.xmoves < 8) :
    (wobbling p t n m time).2.xmoves < 8 := by
  simp only [wobbling]
  repeat' split
  all_goals first | exact h | exact Nat.zero_lt_succ _ | (show _ < 8; simp only []; omega)

theorem process_bounds (c : Config) (f : Frame) (want motion : Bool) (p : Pad) (t : Touch) (hf : t.fast ≤ 15) (hx : t.xmoves < 8) :
    (process c f want motion p t).2.fast ≤ 15 ∧ (process c f want motion p t).2.xmoves < 8 := by
  by_cases h : t.st = .none
  · rw [process_none c f want motion p t h]; exact ⟨hf, hx⟩
  · rw [process_eq c f want motion p t h]
    obtain ⟨f1, f2, f3, f4, f5, f6, f7, f8, f9, f10⟩ := forget_fields want t
    obtain ⟨g, hg⟩ : ∃ g, forget want t = g := ⟨_, rfl⟩
    rw [hg] at f4 f5 ⊢
    split
    · refine ⟨?_, ?_⟩
      · show g.fast - 1 ≤ 15; omega
      · show g.xmoves < 8; omega
    · have hu := unpin_fields c (calcSpeed c (countFast (push (ready c p f motion g).2 f.time)) f.time)
      have hcs := calcSpeed_fields c (countFast (push (ready c p f motion g).2 f.time)) f.time
      refine ⟨?_, ?_⟩
      · show (unpin c _).fast ≤ 15
        rw [hu.2.2.2.1, hcs.2.2.2.2.1]
        have h1 : (push (ready c p f motion g).2 f.time).fast ≤ 15 := by
          show (ready c p f motion g).2.fast ≤ 15
          rw [(ready_fields c p f motion g).2.2.2.1]; omega
        simp only [countFast]
        repeat' split
        all_goals omega
      · show (unpin c _).xmoves < 8
        rw [hu.2.2.2.2.2.1, hcs.2.2.2.2.2.2.1]
        show (ready c p f motion g).2.xmoves < 8
        simp only [ready]
        rw [(steady_fields c _ _).2.2.2.2.2.2.2.1]
        apply wobbling_xmoves
        have hj := (jumps_fields c g f.time).2.2.2.2.1
        split
        · show (jumps c g f.time).1.xmoves < 8; omega
        · omega

/-- What a frame does with a touch. -/
theorem frame_touch (c : Config) (s : State) (f : Frame) (i : Nat) (t : Touch) (v : View) (ht : s.touches[i]? = some t)
    (hv : f.views[i]? = some v) (ok : Ok t) :
    ∃ t', (frame c s f).1.touches[i]? = some t' ∧ Ok t' ∧
      t'.st = (if v.st = .begin then .update else v.st) ∧
      ((t.pinned = false ∨ v.fresh = true) → (f.press && c.clickpad) = false → t'.pinned = false) ∧
      (v.st = .none → (frame c s f).2.1[i]? = some {}) ∧
      (v.st ≠ .none →
        t'.past 0 = { time := f.time, point := t'.point } ∧ t'.again = wants c s f ∧
        t'.pinned = ((f.press && c.clickpad) ||
          (t.pinned && !v.fresh && !(v.st == .end_) && !(v.dirty && decide (c.mm t'.point t.pinCenter ≥ 3 / 2)))) ∧
        t'.pinCenter = (if f.press && c.clickpad then t'.point else t.pinCenter) ∧
        ∃ d, (frame c s f).2.1[i]? =
            some (if (v.st = .begin ∨ v.st = .update) ∧ t'.pinned = false ∧ v.dirty = true then d else {}) ∧
          ((wants c s f = true ∨ t.again = true ∨ v.fresh = true ∨ v.landed = true ∨ t.count = 0 ∨
            (v.dirty = true ∧ (jumps c (bef c s f t v) f.time).2 = true)) → d = {}) ∧
          (wants c s f = false → t.again = false → v.fresh = false → v.landed = false → 1 ≤ t.count →
            (v.dirty = true → (jumps c (bef c s f t v) f.time).2 = false) → d = diff t'.point (t.past 0).point) ∧
          ((frame c s f).1.pad.jitter = false → v.st ≠ .end_ →
            (c.alps = false ∨ (jumps c (forget (wants c s f) (bef c s f t v)) f.time).2 = false) →
            t'.point = seen c s.pad t.point v)) := by
  obtain ⟨q, h1, h2, h3, h4⟩ := frame_get c s f i t v ht hv
  obtain ⟨b1, b2, b3, b4, b5, b6, b7, b8, b9, b10, b11, b12, b13, b14⟩ := before_spec c (mscFrame s.pad f).1 f
    ((mscFrame s.pad f).2.map (fun j => (j, (mscFrame s.pad f).1.interval))) t v
  have hb : bef c s f t v = before c (mscFrame s.pad f).1 f
    ((mscFrame s.pad f).2.map (fun j => (j, (mscFrame s.pad f).1.interval))) t v := rfl
  rw [← hb] at b1 b2 b3 b4 b5 b6 b7 b8 b9 b10 b11 b12 b13 b14
  obtain ⟨b, hbb⟩ : ∃ b, bef c s f t v = b := ⟨_, rfl⟩
  rw [hbb] at b1 b2 b3 b4 b5 b6 b7 b8 b9 b10 b11 b12 b13 b14 h2 h3 h4 ⊢
  have hbi : b.index < 4 := by rw [b3]; exact ok.index
  have hbc : b.count ≤ 4 := by rw [b4]; have := ok.count; split <;> omega
  have hbx : b.xmoves < 8 := by rw [b11]; have := ok.xmoves; split <;> omega
  have hbf : b.fast ≤ 15 := Nat.le_trans b12 ok.fast
  have hbounds := process_bounds c f (wants c s f) (motionOf c s f) q b hbf hbx
  obtain ⟨r, hr⟩ : ∃ r, process c f (wants c s f) (motionOf c s f) q b = r := ⟨_, rfl⟩
  have hpi : ∀ u, (pinIf c f u).st = u.st ∧ (pinIf c f u).dirty = u.dirty ∧ (pinIf c f u).index = u.index ∧
      (pinIf c f u).count = u.count ∧ (pinIf c f u).samples = u.samples ∧ (pinIf c f u).again = u.again ∧
      (pinIf c f u).point = u.point ∧ (pinIf c f u).fast = u.fast ∧ (pinIf c f u).xmoves = u.xmoves ∧
      (pinIf c f u).pinned = ((f.press && c.clickpad) || u.pinned) ∧
      (pinIf c f u).pinCenter = (if f.press && c.clickpad then u.point else u.pinCenter) := by
    intro u
    simp only [pinIf]
    split
    · next h => simp [pin, h]
    · next h => simp [h]
  obtain ⟨p1, p2, p3, p4, p5, p6, p7, p8, p9, p10, p11⟩ := hpi r.2
  rw [hr] at h2 h3 h4 hbounds
  by_cases hn : v.st = .none
  · have hrb : r = (q, b) := by rw [← hr]; exact process_none _ _ _ _ _ _ (b1.trans hn)
    refine ⟨_, h3, ?_, ?_, ?_, ?_, fun h => absurd hn h⟩
    · refine ⟨by show (pinIf c f r.2).index < 4; rw [p3, hrb]; exact hbi, by show (pinIf c f r.2).count ≤ 4; rw [p4, hrb]; exact hbc,
        by show (pinIf c f r.2).fast ≤ 15; rw [p8]; exact hbounds.1, by show (pinIf c f r.2).xmoves < 8; rw [p9]; exact hbounds.2, ?_⟩
      intro h
      refine absurd ?_ h
      show (if (pinIf c f r.2).st = .begin then St.update else (pinIf c f r.2).st) = .none
      rw [p1, hrb]
      show (if b.st = .begin then St.update else b.st) = .none
      rw [b1, hn]; rfl
    · show (if (pinIf c f r.2).st = .begin then St.update else (pinIf c f r.2).st) = _
      rw [p1, hrb]
      show (if b.st = .begin then St.update else b.st) = _
      rw [b1]
    · intro k1 k2
      show (pinIf c f r.2).pinned = false
      rw [p10, k2, hrb]
      show (false || b.pinned) = false
      rw [b7]
      rcases k1 with k1 | k1 <;> simp [k1]
    · intro _
      rw [h4, moves, if_neg]
      rw [p1, hrb]
      show ¬ ((b.st = .begin ∨ b.st = .update) ∧ _)
      rw [b1, hn]; simp
  · have hbn : b.st ≠ .none := by rw [b1]; exact hn
    obtain ⟨s1, s2, s3, s4, s5, s6, s7, s8, s9, s10, s11, s12⟩ :=
      process_spec c f (wants c s f) (motionOf c s f) q b hbn hbi hbc
    rw [hr] at s1 s2 s3 s4 s5 s6 s7 s8 s9 s10 s11 s12
    have hpast : (after (pinIf c f r.2)).past 0 = r.2.past 0 := past_congr p5 p3 0
    have hpt : (after (pinIf c f r.2)).point = r.2.point := p7
    have hst : (after (pinIf c f r.2)).st = (if v.st = .begin then .update else v.st) := by
      show (if (pinIf c f r.2).st = .begin then St.update else (pinIf c f r.2).st) = _
      rw [p1, s1, b1]
    refine ⟨_, h3, ?_, hst, ?_, fun h => absurd h hn, fun _ => ?_⟩
    · refine ⟨by show (pinIf c f r.2).index < 4; rw [p3]; exact s3, by show (pinIf c f r.2).count ≤ 4; rw [p4]; exact s5,
        by show (pinIf c f r.2).fast ≤ 15; rw [p8]; exact hbounds.1, by show (pinIf c f r.2).xmoves < 8; rw [p9]; exact hbounds.2, ?_⟩
      intro _
      exact ⟨by show 1 ≤ (pinIf c f r.2).count; rw [p4]; exact s4, by rw [hpast, hpt, s6]⟩
    · intro k1 k2
      show (pinIf c f r.2).pinned = false
      rw [p10, k2, s9, b7]
      rcases k1 with k1 | k1 <;> simp [k1]
    · have hpin : (after (pinIf c f r.2)).pinned = ((f.press && c.clickpad) ||
          (t.pinned && !v.fresh && !(v.st == .end_) && !(v.dirty && decide (c.mm r.2.point t.pinCenter ≥ 3 / 2)))) := by
        show (pinIf c f r.2).pinned = _
        rw [p10, s9, b7, b2, b8]
      refine ⟨by rw [hpast, hpt, s6], by show (pinIf c f r.2).again = _; rw [p6, s7], by rw [hpin, hpt], ?_, delta r.2, ?_, ?_, ?_, ?_⟩
      · show (pinIf c f r.2).pinCenter = _
        rw [p11, hpt, s8, b8]
      · rw [h4, moves, p1, s1, b1, p2, s2, b2]
        have : delta (pinIf c f r.2) = delta r.2 := delta_congr p5 p3 p4
        rw [this]; rfl
      · intro hh
        apply s10
        rw [b4, b9, b2]
        rcases hh with hh | hh | hh | hh | hh | hh
        · exact Or.inl hh
        · exact Or.inr (Or.inl hh)
        · exact Or.inr (Or.inr (Or.inl (by simp [hh])))
        · exact Or.inr (Or.inr (Or.inl (by simp [hh])))
        · exact Or.inr (Or.inr (Or.inl (by simp [hh])))
        · exact Or.inr (Or.inr (Or.inr hh))
      · intro a1 a2 a3 a4 a5 a6
        rw [hpt, ← b5]
        apply s11 a1 (b9.trans a2)
        · rw [b4, a3, a4]; simpa using a5
        · intro a; exact a6 (b2 ▸ a)
      · intro a1 a2 a3
        rw [hpt, s12, b13 a2]
        · have hm := mscFrame_pad s.pad f
          simp only [seen, rotated, hm.2.2.2.1]
        · -- the pad of the touch is not jittery if that of the end is not
          cases hj : r.1.jitter
          · rfl
          · exfalso
            have := h2.jitter hj
            obtain ⟨q2, _, hq, hq2⟩ := frame_pad c s f
            rw [← hq2] at this
            have hjj : (frame c s f).1.pad.jitter = q2.jitter := by
              rw [hq, applyRotation]
              repeat' split
              all_goals rfl
            rw [hjj, this] at a1
            exact absurd a1 (by simp)
        · intro _
          rw [← (forget_fields (wants c s f) b).1]
          rcases a3 with a3 | a3
          · exact (jumps_fields c _ f.time).2.2.2.2.2.2.2.2 a3
          · exact (jumps_fields c _ f.time).2.2.2.2.2.2.2.1 a3

theorem process_lastMm (c : Config) (f : Frame) (want motion : Bool) (p : Pad) (t : Touch) :
    (process c f want motion p t).2.lastMm =
      if t.st = .none ∨ t.dirty = false then t.lastMm else (jumps c (forget want t) f.time).1.lastMm := by
  by_cases h : t.st = .none
  · rw [process_none c f want motion p t h, if_pos (Or.inl h)]
  · rw [process_eq c f want motion p t h]
    by_cases hd : t.dirty = false
    · rw [if_pos hd, if_pos (Or.inr hd)]
      exact (forget_fields want t).2.2.2.2.2.1
    · rw [if_neg hd, if_neg (by simp [h, hd])]
      show (unpin c _).lastMm = _
      rw [(unpin_fields c _).2.2.2.2.1, (calcSpeed_fields c _ _).2.2.2.2.2.1]
      exact (ready_fields c p f motion _).2.2.2.2.1

/-- What is remembered of how far the touch went. -/
theorem frame_lastMm (c : Config) (s : State) (f : Frame) (i : Nat) (t : Touch) (v : View) (ht : s.touches[i]? = some t)
    (hv : f.views[i]? = some v) :
    ∃ t', (frame c s f).1.touches[i]? = some t' ∧ t'.lastMm =
      if v.st = .none ∨ v.dirty = false then t.lastMm
      else (jumps c (forget (wants c s f) (bef c s f t v)) f.time).1.lastMm := by
  obtain ⟨q, h1, h2, h3, h4⟩ := frame_get c s f i t v ht hv
  refine ⟨_, h3, ?_⟩
  have hp : ∀ u, (pinIf c f u).lastMm = u.lastMm := fun u => by simp only [pinIf]; split <;> rfl
  have hb := before_spec c (mscFrame s.pad f).1 f
    ((mscFrame s.pad f).2.map (fun j => (j, (mscFrame s.pad f).1.interval))) t v
  show (pinIf c f _).lastMm = _
  rw [hp, process_lastMm]
  have h1 : (bef c s f t v).st = v.st := hb.1
  have h2 : (bef c s f t v).dirty = v.dirty := hb.2.1
  have h3 : (bef c s f t v).lastMm = t.lastMm := hb.2.2.2.2.2.2.2.2.2.1
  rw [h1, h2, h3]

/-! ### After every history -/

/-- What holds after every history. -/
def Inv (s : State) : Prop := ∀ t ∈ s.touches, Ok t

theorem init_inv (n : Nat) : Inv (init n) := by
  intro t ht
  have := List.eq_of_mem_replicate ht
  subst this
  exact ⟨by decide, by decide, by decide, by decide, fun h => absurd rfl h⟩

theorem frame_inv (c : Config) {s : State} (f : Frame) (h : Inv s) : Inv (frame c s f).1 := by
  intro t ht
  obtain ⟨i, hi, hit⟩ := List.mem_iff_getElem.1 ht
  have hl := (frame_length c s f).1
  have h1 : i < s.touches.length := by omega
  have h2 : i < f.views.length := by omega
  obtain ⟨t', k1, k2, _⟩ := frame_touch c s f i s.touches[i] f.views[i] (List.getElem?_eq_getElem h1) (List.getElem?_eq_getElem h2)
    (h _ (List.getElem_mem h1))
  have : some t' = some t := by rw [← k1, List.getElem?_eq_getElem hi, hit]
  cases this
  exact k2

theorem step_inv (c : Config) {s : State} (op : Op) (h : Inv s) : Inv (step c s op).1 := by
  cases op with
  | frame f => exact frame_inv c f h
  | left on => exact h

theorem run_inv (c : Config) (ops : List Op) : ∀ {s : State}, Inv s → Inv (run c s ops).1 := by
  induction ops with
  | nil => exact fun h => h
  | cons op ops ih => exact fun h => ih (step_inv c op h)

theorem run_append (c : Config) (xs : List Op) : ∀ (s : State) (ys : List Op),
    (run c s (xs ++ ys)).1 = (run c (run c s xs).1 ys).1 ∧
    (run c s (xs ++ ys)).2 = (run c s xs).2 ++ (run c (run c s xs).1 ys).2 := by
  induction xs with
  | nil => exact fun _ _ => ⟨rfl, rfl⟩
  | cons x xs ih =>
    intro s ys
    obtain ⟨h1, h2⟩ := ih (step c s x).1 ys
    exact ⟨h1, congrArg ((step c s x).2 :: ·) h2⟩

end Libinput.Follow
