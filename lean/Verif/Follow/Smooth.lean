import Verif.Follow.Props
/-! C61, more: where a touch starts to move, and what smoothing does to a touch. -/
namespace Libinput.Follow
open Spec

/-- **C61.** A finger that has just landed is not expected to be fast: what it moves first is at most 7 mm in 12 ms. -/
theorem no_jump_at_first (c : Config) (n : Nat) (ops : List Op) (f0 f1 f2 : Frame) (i : Nat) (hoff : c.jumpsOff = false)
    (hw : c.wacom = false) (htest : c.test = false) (hs2 : f2.stamp = none) (h1 : (see i f1).st ≠ .none)
    (hland : (see i f1).fresh = true) (ht2 : f1.time < f2.time) (h2 : f2.time - f1.time ≤ 30000)
    (hj : (run c (init n) (ops ++ [.frame f0, .frame f1, .frame f2])).1.pad.jitter = false) :
    let d := moved i (frame c (run c (init n) (ops ++ [.frame f0, .frame f1])).1 f2).2.1
    d = {} ∨ size c d * 12000 / ((f2.time - f1.time : Nat) : Rat) ≤ 7 := by
  intro d
  obtain ⟨s, hs⟩ : ∃ s, (run c (init n) (ops ++ [.frame f0])).1 = s := ⟨_, rfl⟩
  have e2 : (run c (init n) (ops ++ [.frame f0, .frame f1])).1 = (frame c s f1).1 := by
    have : ops ++ [.frame f0, .frame f1] = (ops ++ [.frame f0]) ++ [.frame f1] := by simp
    rw [this, run_frame, hs]
  have e3 : (run c (init n) (ops ++ [.frame f0, .frame f1, .frame f2])).1 = (frame c (frame c s f1).1 f2).1 := by
    have : ops ++ [.frame f0, .frame f1, .frame f2] = (ops ++ [.frame f0, .frame f1]) ++ [.frame f2] := by simp
    rw [this, run_frame, e2]
  have inv : Inv s := by rw [← hs]; exact run_inv c _ (init_inv n)
  rw [e3] at hj
  by_cases hd : d = {}
  · exact Or.inl hd
  right
  have q2 : d = moved i (frame c (frame c s f1).1 f2).2.1 := by show moved i (frame c (run c _ _).1 f2).2.1 = _; rw [e2]
  rw [q2] at hd ⊢
  obtain ⟨t', v', b1, b2, b3, _, _, b6, b7, b8, b9, b10⟩ := moved_size inv h1 hj hs2 hd
  have hz2 : f2.time - f1.time ≠ 0 := by omega
  have k2 := (jumps_no b8 hoff hw htest b3 (by rw [b9]; exact hz2) (by rw [b9]; exact h2)).2.1
  have hi : i < s.touches.length := by
    have h1 := (List.getElem?_eq_some_iff.1 b1).1
    have h2 := (frame_length c s f1).1
    omega
  obtain ⟨t'', l1, l2⟩ := frame_lastMm c s f1 i _ _ (List.getElem?_eq_getElem hi) (see_of_st h1)
  have : t'' = t' := by rw [l1] at b1; exact Option.some.inj b1
  subst this
  have hd1 : (see i f1).dirty = true := by simp [View.dirty, hland]
  have hc : (bef c s f1 s.touches[i] (see i f1)).count = 0 := by
    have hbef := before_spec c (mscFrame s.pad f1).1 f1
      ((mscFrame s.pad f1).2.map (fun j => (j, (mscFrame s.pad f1).1.interval))) s.touches[i] (see i f1)
    have : (bef c s f1 s.touches[i] (see i f1)).count = _ := hbef.2.2.2.1
    rw [this, hland]; rfl
  have hf : (forget (wants c s f1) (bef c s f1 s.touches[i] (see i f1))).count = 0 :=
    (forget_fields _ _).2.2.2.2.2.2.2.2.1 (Or.inr (Or.inr hc))
  rw [if_neg (by simp [h1, hd1])] at l2
  simp only [jumps, hoff, hw, Bool.false_eq_true, if_false, if_pos hf] at l2
  rw [b6, l2, b9, b10] at k2
  have := sub_bound (x := size c (moved i (frame c (frame c s f1).1 f2).2.1) * 12000 / ((f2.time - f1.time : Nat) : Rat)) (y := 0) k2
  grind

theorem before_center (c : Config) (p : Pad) (f : Frame) (fix : Option (Nat × Nat)) (t : Touch) (v : View) (h : v.fresh = false)
    (hl : v.landed = false) : (before c p f fix t v).center = t.center := by
  have h1 : (arrive c p t v).center = t.center := by simp [arrive, h]
  have h2 : ∀ u j n m k, (fixLast u j n m k).center = u.center := by
    intro u j n m k
    induction k with
    | zero => rfl
    | succ k ih => simpa [fixLast] using ih
  have h3 : ∀ u, (fixTouch f fix u v).center = u.center := by
    intro u
    simp only [fixTouch]
    repeat' split
    · exact h2 ..
    · rfl
    · rfl
  simp only [before, hl]
  repeat' split
  all_goals simp_all

/-- **C61.** On a touchpad that jitters a touch that goes on is smoothed: its new place is what the hysteresis makes of where the
finger is and where the touch was left by it last. -/
theorem jitter_smoothed (c : Config) (n i : Nat) (ops : List Op) (f1 f0 f : Frame) (ht450 : c.t450 = false)
    (hoff : c.jumpsOff = true) (h0 : (see i f0).st ≠ .none) (hs : Stays i f) (same : f0.fingers = f1.fingers)
    (same' : f.fingers = f0.fingers) (hd : (see i f).dirty = true)
    (hj : (run c (init n) (ops ++ [.frame f1, .frame f0])).1.pad.jitter = true) (t : Touch)
    (ht : (run c (init n) (ops ++ [.frame f1, .frame f0])).1.touches[i]? = some t) :
    ∃ t', (run c (init n) (ops ++ [.frame f1, .frame f0, .frame f])).1.touches[i]? = some t' ∧
      t'.point = c.hyst (seen c (run c (init n) (ops ++ [.frame f1, .frame f0])).1.pad t.point (see i f)) t.center ∧
      t'.center = t'.point := by
  have e1 : (run c (init n) (ops ++ [.frame f1, .frame f0])).1 = (frame c (run c (init n) (ops ++ [.frame f1])).1 f0).1 := by
    have : ops ++ [.frame f1, .frame f0] = (ops ++ [.frame f1]) ++ [.frame f0] := by simp
    rw [this, run_frame]
  have e2 : (run c (init n) (ops ++ [.frame f1, .frame f0, .frame f])).1 =
      (frame c (run c (init n) (ops ++ [.frame f1, .frame f0])).1 f).1 := by
    have : ops ++ [.frame f1, .frame f0, .frame f] = (ops ++ [.frame f1, .frame f0]) ++ [.frame f] := by simp
    rw [this, run_frame]
  have hf1 : (run c (init n) (ops ++ [.frame f1])).1.pad.fingers = f1.fingers := by
    rw [run_frame]; exact (frame_pad_fields c _ f1).2.1
  have inv := run_inv c (ops ++ [.frame f1]) (init_inv n)
  rw [e1] at ht hj
  rw [e2, e1]
  obtain ⟨s, hss⟩ : ∃ s, (run c (init n) (ops ++ [.frame f1])).1 = s := ⟨_, rfl⟩
  rw [hss] at ht hj hf1 inv ⊢
  have inv' := frame_inv c f0 inv
  have ok := inv' t (List.mem_of_getElem? ht)
  have hi : i < s.touches.length := by
    have h1 := (List.getElem?_eq_some_iff.1 ht).1
    have h2 := (frame_length c s f0).1
    omega
  obtain ⟨t0, j1, j2, j3, j4, j5, j6⟩ := frame_touch c s f0 i s.touches[i] _ (List.getElem?_eq_getElem hi) (see_of_st h0)
    (inv _ (List.getElem_mem hi))
  have : t0 = t := by rw [j1] at ht; exact Option.some.inj ht
  subst this
  obtain ⟨m1, m2, _⟩ := j6 h0
  have hagain : t0.again = false := m2.trans (wants_not c s f0 (same.trans hf1.symm) ht450)
  obtain ⟨hup1, hfresh, hland⟩ := hs
  have hv := see_of_st (i := i) (f := f) (by rw [hup1]; simp)
  have hwants : wants c (frame c s f0).1 f = false := by
    apply wants_not c _ f _ ht450
    rw [(frame_pad_fields c s f0).2.1, same']
  obtain ⟨S, hS⟩ : ∃ S, (frame c s f0).1 = S := ⟨_, rfl⟩
  rw [hS] at hj hwants ht ⊢
  have hbef := before_spec c (mscFrame S.pad f).1 f
    ((mscFrame S.pad f).2.map (fun j => (j, (mscFrame S.pad f).1.interval))) t0 (see i f)
  have hst0 : t0.st ≠ .none := by
    rw [j3]; split
    · simp
    · exact h0
  have hcount : (bef c S f t0 (see i f)).count > 0 := by
    have : (bef c S f t0 (see i f)).count = _ := hbef.2.2.2.1
    rw [this, hfresh, hland]
    have := (ok.some_ hst0).1
    simp only [Bool.or_self, Bool.false_eq_true, if_false]; omega
  have hbpt : (bef c S f t0 (see i f)).point = seen c S.pad t0.point (see i f) := by
    refine (hbef.2.2.2.2.2.2.2.2.2.2.2.2.1 (by rw [hup1]; simp)).trans ?_
    have hm := (mscFrame_pad S.pad f).2.2.2.1
    simp only [seen, rotated, hm]
  have hbc : (bef c S f t0 (see i f)).center = t0.center := before_center c _ f _ t0 _ hfresh hland
  obtain ⟨q, g1, g2, g3, g4⟩ := frame_get c S f i t0 _ ht hv
  have hq : q.jitter = true := g1.jitter ((mscFrame_pad S.pad f).1.trans hj)
  have hba : (bef c S f t0 (see i f)).again = false := hbef.2.2.2.2.2.2.2.2.1.trans hagain
  have hfor := (forget_fields (wants c S f) (bef c S f t0 (see i f))).2.2.2.2.2.2.2.2.2 hwants hba
  have hbst : (bef c S f t0 (see i f)).st ≠ .none := by
    have : (bef c S f t0 (see i f)).st = _ := hbef.1
    rw [this, hup1]; simp
  have hbd : (bef c S f t0 (see i f)).dirty = true := hbef.2.1.trans hd
  have key : ready c q f (motionOf c S f) (bef c S f t0 (see i f)) =
      (q, { bef c S f t0 (see i f) with
            point := c.hyst (seen c S.pad t0.point (see i f)) t0.center
            center := c.hyst (seen c S.pad t0.point (see i f)) t0.center }) := by
    have hw : wobbling q (bef c S f t0 (see i f)) f.fingers (motionOf c S f) f.time = (q, bef c S f t0 (see i f)) := by
      simp only [wobbling, hq, true_or, if_true]
      split <;> rfl
    have hjm : jumps c (bef c S f t0 (see i f)) f.time = (bef c S f t0 (see i f), false) := by simp [jumps, hoff]
    simp only [ready, hjm, Bool.false_eq_true, if_false, hw, steady, hq, if_pos hcount, hbpt, hbc]
    rfl
  have hp : ∀ u, (pinIf c f u).center = u.center := fun u => by simp only [pinIf]; split <;> rfl
  have hc1 : ∀ u, (unpin c u).center = u.center := fun u => by simp only [unpin]; (repeat' split) <;> rfl
  have hc2 : ∀ u, (calcSpeed c u f.time).center = u.center := fun u => by simp only [calcSpeed]; (repeat' split) <;> rfl
  refine ⟨_, g3, ?_, ?_⟩
  · rw [(pinIf_speed c f _).2.2.2, process_eq _ _ _ _ _ _ hbst, if_neg (by rw [hbd]; simp), hfor]
    show (unpin c _).point = _
    rw [(unpin_fields c _).2.2.2.2.2.2.1, (calcSpeed_fields c _ _).2.2.2.2.2.2.2]
    show (ready c q f _ _).2.point = _
    rw [key]
  · rw [(pinIf_speed c f _).2.2.2]
    show (pinIf c f _).center = _
    rw [hp, process_eq _ _ _ _ _ _ hbst, if_neg (by rw [hbd]; simp), hfor]
    show (unpin c _).center = (unpin c _).point
    rw [(unpin_fields c _).2.2.2.2.2.2.1, (calcSpeed_fields c _ _).2.2.2.2.2.2.2, hc1, hc2]
    show (ready c q f _ _).2.center = (ready c q f _ _).2.point
    rw [key]

namespace Ex

/-- A finger lands and moves 8 mm in 12 ms: too far; 6 mm are fine. -/
example : outs pad [.frame (lands 0 (some 500) (some 500)), .frame (at_ 12000 (some 580) none)] = [{}, {}] := by decide +kernel
example : moved 0 (frame pad (run pad (init 1) ([] ++ [.frame { time := 0, fingers := 0, views := [{}] },
      .frame (lands 100000 (some 500) (some 500))])).1 (at_ 112000 (some 560) none)).2.1 = {} ∨
    size pad (moved 0 (frame pad (run pad (init 1) ([] ++ [.frame { time := 0, fingers := 0, views := [{}] },
      .frame (lands 100000 (some 500) (some 500))])).1 (at_ 112000 (some 560) none)).2.1) * 12000 / ((12000 : Nat) : Rat) ≤ 7 :=
  no_jump_at_first pad 1 [] { time := 0, fingers := 0, views := [{}] } (lands 100000 (some 500) (some 500)) (at_ 112000 (some 560) none) 0
    rfl rfl rfl rfl (by decide) rfl (by decide) (by decide) (by decide +kernel)

/-- A finger that went to and fro. -/
def shaky : List Op := [.frame (lands 0 (some 500) (some 500)), .frame (at_ 10000 (some 500) none), .frame (at_ 20000 (some 501) none),
  .frame (at_ 30000 (some 500) none)]
example (t : Touch) (ht : (run { pad with jumpsOff := true } (init 1) (shaky ++ [.frame (at_ 40000 (some 501) none),
      .frame (at_ 50000 (some 500) none)])).1.touches[0]? = some t) :=
  jitter_smoothed { pad with jumpsOff := true } 1 0 shaky (at_ 40000 (some 501) none) (at_ 50000 (some 500) none)
    (at_ 60000 (some 501) none) rfl rfl (by decide) ⟨rfl, rfl, rfl⟩ rfl rfl (by decide) (by decide +kernel) t ht

end Ex

end Libinput.Follow
