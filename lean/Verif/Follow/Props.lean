/-
C61: the pointer follows the finger on a touchpad.
-/
import Verif.Follow.More
import Verif.Follow.Speed
namespace Libinput.Follow
open Spec

theorem step_frame (c : Config) (s : State) (f : Frame) : step c s (.frame f) = ((frame c s f).1, (frame c s f).2.1) := rfl

theorem run_frame (c : Config) (s : State) (ops : List Op) (f : Frame) :
    (run c s (ops ++ [.frame f])).1 = (frame c (run c s ops).1 f).1 := (run_append c ops s [.frame f]).1

theorem jitter_back {c : Config} {s : State} {ops : List Op} (h : (run c s ops).1.pad.jitter = false) : s.pad.jitter = false := by
  cases hj : s.pad.jitter
  · rfl
  · rw [run_jitter c ops s hj] at h; exact absurd h (by simp)

/-- **C61.** A finger is followed exactly.  After any history in which touch `i` landed (`land`) and nothing was pressed since, and from
a frame `f0` on that has the same number of fingers as the one before (`f1`) and says where the touch is: as long as it stays down
and the number of fingers stays the same, what it moved is the way from where it was in `f0` to where it is, turned around on a
touchpad that is upside down.  This is for touchpads on which no jitter was seen, and where jumps are not looked for or the finger
moves at most 7 mm in 12 ms; and not for the touchpads that send a wrong position or are silent before they jump. -/
theorem follows (c : Config) (n i : Nat) (pre mid fs : List Op) (land f1 f0 : Frame) (X Y : Int) (hi : i < n)
    (full : Full n (pre ++ .frame land :: mid ++ .frame f1 :: .frame f0 :: fs))
    (fresh : (see i land).fresh = true) (nopress : NoPress (.frame land :: mid ++ .frame f1 :: .frame f0 :: fs))
    (some_ : f0.fingers ≠ 0) (same : f0.fingers = f1.fingers) (sames : ∀ f, .frame f ∈ fs → f.fingers = f0.fingers)
    (here : (see i f0).st = .begin ∨ (see i f0).st = .update) (hX : (see i f0).x = some X) (hY : (see i f0).y = some Y)
    (stays : ∀ f, .frame f ∈ fs → Stays i f)
    (calm : (run c (init n) (pre ++ .frame land :: mid ++ .frame f1 :: .frame f0 :: fs)).1.pad.jitter = false)
    (ht450 : c.t450 = false) (halps : c.alps = false)
    (slow : c.jumpsOff = true ∨ c.wacom = true ∨
      (c.test = false ∧ (∀ a b, 0 ≤ c.len a b) ∧ Slow c i { x := X, y := Y } f0.time fs)) :
    total ((run c (run c (init n) (pre ++ .frame land :: mid ++ [.frame f1, .frame f0])).1 fs).2.map (moved i)) =
      turn (upside false false 0 (pre ++ .frame land :: mid ++ [.frame f1]))
        (diff (places i { x := X, y := Y } fs) { x := X, y := Y }) := by
  -- the states
  obtain ⟨s1, hs1⟩ : ∃ s, (run c (init n) pre).1 = s := ⟨_, rfl⟩
  obtain ⟨s2, hs2⟩ : ∃ s, (frame c s1 land).1 = s := ⟨_, rfl⟩
  obtain ⟨s3, hs3⟩ : ∃ s, (run c s2 (mid ++ [.frame f1])).1 = s := ⟨_, rfl⟩
  have inv1 : Inv s1 := by rw [← hs1]; exact run_inv c pre (init_inv n)
  have inv2 : Inv s2 := by rw [← hs2]; exact frame_inv c land inv1
  have inv3 : Inv s3 := by rw [← hs3]; exact run_inv c _ inv2
  have e3 : (run c (init n) (pre ++ .frame land :: mid ++ [.frame f1])).1 = s3 := by
    rw [List.append_assoc, (run_append c pre _ _).1, hs1]
    show (run c (frame c s1 land).1 (mid ++ [.frame f1])).1 = s3
    rw [hs2, hs3]
  have e4 : (run c (init n) (pre ++ .frame land :: mid ++ [.frame f1, .frame f0])).1 = (frame c s3 f0).1 := by
    have : pre ++ .frame land :: mid ++ [.frame f1, .frame f0] = (pre ++ .frame land :: mid ++ [.frame f1]) ++ [.frame f0] := by simp
    rw [this, run_frame, e3]
  have e5 : (run c (init n) (pre ++ .frame land :: mid ++ .frame f1 :: .frame f0 :: fs)).1 = (run c (frame c s3 f0).1 fs).1 := by
    have : pre ++ .frame land :: mid ++ .frame f1 :: .frame f0 :: fs = (pre ++ .frame land :: mid ++ [.frame f1, .frame f0]) ++ fs := by
      simp
    rw [this, (run_append c _ _ _).1, e4]
  rw [e5] at calm
  rw [e4]
  have hj0 := jitter_back calm
  -- the lengths
  have l0 : (init n).touches.length = n := by simp [init]
  have l1 : s1.touches.length = n := by
    rw [← hs1, run_length c pre (init n) (by rw [l0]; exact fun f hf => full f (by simp [hf])), l0]
  have lland : land.views.length = n := full land (by simp)
  have l2 : s2.touches.length = n := by rw [← hs2, (frame_length c s1 land).1, l1, lland]; exact Nat.min_self _
  -- the touch is not pinned
  obtain ⟨t2, g2, _, _, g3, _⟩ := frame_touch c s1 land i s1.touches[i] _ (List.getElem?_eq_getElem (by omega))
    (see_some (by omega)) (inv1 _ (List.getElem_mem _))
  rw [hs2] at g2
  have np : ∀ f, .frame f ∈ .frame land :: mid ++ .frame f1 :: .frame f0 :: fs → f.press = false := nopress
  have hp2 := g3 (Or.inr fresh) (by simp [np land (by simp)])
  obtain ⟨t3, u1, u2⟩ := run_unpinned c i (mid ++ [.frame f1]) inv2
    (by rw [l2]; intro f hf; exact full f (by simp at hf ⊢; rcases hf with h | h <;> simp [h]))
    (by intro f hf; exact np f (by simp at hf ⊢; rcases hf with h | h <;> simp [h])) g2 hp2
  rw [hs3] at u1
  -- the frame from which it is followed
  have hn : (see i f0).st ≠ .none := by rcases here with h | h <;> rw [h] <;> simp
  have hne : (see i f0).st ≠ .end_ := by rcases here with h | h <;> rw [h] <;> simp
  obtain ⟨t4, k1, k2, k3, k4, k5, k6⟩ := frame_touch c s3 f0 i t3 _ u1 (see_of_st hn) (inv3 _ (List.mem_of_getElem? u1))
  obtain ⟨m1, m2, m3, m4, d, m5, m6, m7, m8⟩ := k6 hn
  have hpt := m8 hj0 hne (Or.inl halps)
  rw [seen_both hX hY] at hpt
  have hf3 : s3.pad.fingers = f1.fingers := by
    have : (run c s2 (mid ++ [.frame f1])).1.pad.fingers = f1.fingers := by
      rw [run_frame]; exact (frame_pad_fields c _ f1).2.1
    rw [hs3] at this; exact this
  obtain ⟨_, p2, p3, p4, _⟩ := frame_pad_fields c s3 f0
  have hr3 : s3.pad.rotate = upside false false 0 (pre ++ .frame land :: mid ++ [.frame f1]) := by
    rw [← e3]; exact run_rotate c _ (init n)
  have fo : Followed c (frame c s3 f0).1 i { x := X, y := Y } f0.fingers s3.pad.rotate t4 := by
    refine ⟨k1, ?_, ?_, hpt, p2, ?_⟩
    · rw [k3]; rcases here with h | h <;> rw [h] <;> simp
    · rw [m2]; exact wants_not c s3 f0 (same.trans hf3.symm) ht450
    · rw [p4, if_neg some_]
  rw [← hr3]
  refine run_follows some_ ht450 halps fs (frame_inv c f0 inv3) fo (k4 (Or.inl u2) (by simp [np f0 (by simp)])) sames stays
    (fun f hf => np f (by simp [hf])) calm ?_
  rcases slow with h | h | ⟨h1, h2, h3⟩
  · exact Or.inl h
  · exact Or.inr (Or.inl h)
  · refine Or.inr (Or.inr ⟨h1, h2, ?_, by rw [m1]; exact h3⟩)
    apply frame_far c h2
    rw [← e3]; exact run_far c h2 _ (init_far n)

/-- **C61.** The touchpad is upside down if that was asked for last at a time when no finger was down, or when the last one was
lifted: never while fingers are down. -/
theorem turns_only_without_fingers (c : Config) (n : Nat) (ops : List Op) :
    (run c (init n) ops).1.pad.rotate = upside false false 0 ops := run_rotate c ops (init n)

/-- **C61.** When the number of fingers changes nothing moves, in that frame and in the next. -/
theorem fingers_change_without_motion (c : Config) (n : Nat) (ops : List Op) (f : Frame) (h : f.fingers ≠ down 0 ops) (i : Nat) :
    moved i (frame c (run c (init n) ops).1 f).2.1 = {} ∧
    ∀ g, ((see i f).st ≠ .none ∨ (see i g).fresh = true) →
      moved i (frame c (frame c (run c (init n) ops).1 f).1 g).2.1 = {} := by
  have inv := run_inv c ops (init_inv n)
  have hw : wants c (run c (init n) ops).1 f = true := wants_fingers c _ f (by rw [run_fingers]; exact h)
  exact ⟨wants_zero inv hw i, fun g hg => wants_zero_next inv hw i hg⟩

/-- What is known if a touch moved. -/
theorem moved_facts {c : Config} {s : State} {f0 f : Frame} {i : Nat} (inv : Inv s) (h0 : (see i f0).st ≠ .none)
    (hd : moved i (frame c (frame c s f0).1 f).2.1 ≠ {}) :
    ∃ t v, (frame c s f0).1.touches[i]? = some t ∧ f.views[i]? = some v ∧ t.past 0 = { time := f0.time, point := t.point } ∧ Ok t ∧
      (v.st = .begin ∨ v.st = .update) ∧ v.dirty = true ∧ wants c (frame c s f0).1 f = false ∧ t.again = false ∧ v.fresh = false ∧
      v.landed = false ∧ 1 ≤ t.count ∧ (jumps c (bef c (frame c s f0).1 f t v) f.time).2 = false ∧
      ((frame c (frame c s f0).1 f).1.pad.jitter = false →
        moved i (frame c (frame c s f0).1 f).2.1 = diff (seen c (frame c s f0).1.pad t.point v) t.point) := by
  cases ht : (frame c s f0).1.touches[i]? with
  | none => exact absurd (moved_none (out_none (Or.inl ht))) hd
  | some t =>
    cases hv : f.views[i]? with
    | none => exact absurd (moved_none (out_none (Or.inr hv))) hd
    | some v =>
      have inv' := frame_inv c f0 inv
      have ok := inv' t (List.mem_of_getElem? ht)
      obtain ⟨t', k1, k2, k3, k4, k5, k6⟩ := frame_touch c (frame c s f0).1 f i t v ht hv ok
      by_cases hn : v.st = .none
      · exact absurd (moved_some (k5 hn)) hd
      · obtain ⟨m1, m2, m3, m4, d, m5, m6, m7, m8⟩ := k6 hn
        have hi : i < s.touches.length := by
          have h1 := (List.getElem?_eq_some_iff.1 ht).1
          have h2 := (frame_length c s f0).1
          omega
        obtain ⟨t0, j1, j2, j3, j4, j5, j6⟩ := frame_touch c s f0 i s.touches[i] _ (List.getElem?_eq_getElem hi) (see_of_st h0)
          (inv _ (List.getElem_mem hi))
        have : t0 = t := by rw [j1] at ht; exact Option.some.inj ht
        subst this
        rw [moved_some m5] at hd ⊢
        split at hd
        · next hc =>
          have n1 : wants c (frame c s f0).1 f = false := by
            cases hx : wants c (frame c s f0).1 f
            · rfl
            · exact absurd (m6 (Or.inl hx)) hd
          have n2 : t0.again = false := by
            cases hx : t0.again
            · rfl
            · exact absurd (m6 (Or.inr (Or.inl hx))) hd
          have n3 : v.fresh = false := by
            cases hx : v.fresh
            · rfl
            · exact absurd (m6 (Or.inr (Or.inr (Or.inl hx)))) hd
          have n4 : v.landed = false := by
            cases hx : v.landed
            · rfl
            · exact absurd (m6 (Or.inr (Or.inr (Or.inr (Or.inl hx))))) hd
          have n5 : t0.count ≠ 0 := fun hx => hd (m6 (Or.inr (Or.inr (Or.inr (Or.inr (Or.inl hx))))))
          have n6 : (jumps c (bef c (frame c s f0).1 f t0 v) f.time).2 = false := by
            cases hx : (jumps c (bef c (frame c s f0).1 f t0 v) f.time).2
            · rfl
            · exact absurd (m6 (Or.inr (Or.inr (Or.inr (Or.inr (Or.inr ⟨hc.2.2, hx⟩)))))) hd
          refine ⟨t0, v, rfl, rfl, (j6 h0).1, ok, hc.1, hc.2.2, n1, n2, n3, n4, by omega, n6, fun hj => ?_⟩
          have hst0 : t0.st ≠ .none := by
            rw [j3]; split
            · simp
            · exact h0
          have hne : v.st ≠ .end_ := by rcases hc.1 with h | h <;> rw [h] <;> simp
          have hnj : (jumps c (forget (wants c (frame c s f0).1 f) (bef c (frame c s f0).1 f t0 v)) f.time).2 = false := by
            have hbef := before_spec c (mscFrame (frame c s f0).1.pad f).1 f
              ((mscFrame (frame c s f0).1.pad f).2.map (fun j => (j, (mscFrame (frame c s f0).1.pad f).1.interval))) t0 v
            have hba : (bef c (frame c s f0).1 f t0 v).again = false := hbef.2.2.2.2.2.2.2.2.1.trans n2
            rw [n1, (forget_fields false _).2.2.2.2.2.2.2.2.2 rfl hba]
            exact n6
          rw [if_pos hc, m7 n1 n2 n3 n4 (by omega) (fun _ => n6), (ok.some_ hst0).2, m8 hj hne (Or.inr hnj)]
        · exact absurd rfl hd

/-- How far a touch went, for the code. -/
theorem moved_size {c : Config} {s : State} {f0 f : Frame} {i : Nat} (inv : Inv s) (h0 : (see i f0).st ≠ .none)
    (hj : (frame c (frame c s f0).1 f).1.pad.jitter = false) (hst : f.stamp = none)
    (hd : moved i (frame c (frame c s f0).1 f).2.1 ≠ {}) :
    ∃ t v, (frame c s f0).1.touches[i]? = some t ∧ f.views[i]? = some v ∧ 1 ≤ (bef c (frame c s f0).1 f t v).count ∧
      v.st ≠ .none ∧ v.dirty = true ∧
      (bef c (frame c s f0).1 f t v).lastMm = t.lastMm ∧
      forget (wants c (frame c s f0).1 f) (bef c (frame c s f0).1 f t v) = bef c (frame c s f0).1 f t v ∧
      (jumps c (bef c (frame c s f0).1 f t v) f.time).2 = false ∧
      ((bef c (frame c s f0).1 f t v).past 0).time = f0.time ∧
      c.mm (bef c (frame c s f0).1 f t v).point ((bef c (frame c s f0).1 f t v).past 0).point =
        size c (moved i (frame c (frame c s f0).1 f).2.1) := by
  obtain ⟨t, v, h1, h2, h3, h4, h5, h6, h7, h8, h9, h10, h11, h12, h13⟩ := moved_facts inv h0 hd
  have hbef := before_spec c (mscFrame (frame c s f0).1.pad f).1 f
    ((mscFrame (frame c s f0).1.pad f).2.map (fun j => (j, (mscFrame (frame c s f0).1.pad f).1.interval))) t v
  have hbp := bef_eq c (frame c s f0).1 f t v hst
  have hne : v.st ≠ .end_ := by rcases h5 with h | h <;> rw [h] <;> simp
  have hba : (bef c (frame c s f0).1 f t v).again = false := hbef.2.2.2.2.2.2.2.2.1.trans h8
  refine ⟨t, v, h1, h2, ?_, ?_, h6, hbef.2.2.2.2.2.2.2.2.2.1, ?_, h12, by rw [hbp, h3], ?_⟩
  · have : (bef c (frame c s f0).1 f t v).count = _ := hbef.2.2.2.1
    rw [this, h9, h10]; simpa using h11
  · rcases h5 with h | h <;> rw [h] <;> simp
  · rw [h7]; exact (forget_fields false _).2.2.2.2.2.2.2.2.2 rfl hba
  · have : (bef c (frame c s f0).1 f t v).point = seen c (frame c s f0).1.pad t.point v := by
      refine (hbef.2.2.2.2.2.2.2.2.2.2.2.2.1 hne).trans ?_
      have hm := (mscFrame_pad (frame c s f0).1.pad f).2.2.2.1
      simp only [seen, rotated, hm]
    rw [this, hbp, h3, h13 hj, mm_size]

theorem div_bound {a : Rat} {k : Nat} (hk : k ≠ 0) (h : a * ((12000 : Nat) : Rat) / (k : Rat) ≤ 20) : a * 12000 ≤ 20 * (k : Rat) := by
  have h := Rat.not_lt.2 h
  rw [Rat.lt_div_iff (cast_pos hk)] at h
  exact Rat.not_lt.1 h

/-- **C61.** The pointer does not jump.  If a touch that was there in a frame moves in the next, at most 30 ms later, it moves at most
20 mm for every 12 ms that passed. -/
theorem no_jump (c : Config) (n : Nat) (ops : List Op) (f0 f : Frame) (i : Nat) (hoff : c.jumpsOff = false) (hw : c.wacom = false)
    (htest : c.test = false) (hst : f.stamp = none) (h0 : (see i f0).st ≠ .none) (htime : f0.time < f.time)
    (h30 : f.time - f0.time ≤ 30000)
    (hj : (run c (init n) (ops ++ [.frame f0, .frame f])).1.pad.jitter = false) :
    let d := moved i (frame c (run c (init n) (ops ++ [.frame f0])).1 f).2.1
    d = {} ∨ size c d * 12000 ≤ 20 * ((f.time - f0.time : Nat) : Rat) := by
  intro d
  have e1 : (run c (init n) (ops ++ [.frame f0])).1 = (frame c (run c (init n) ops).1 f0).1 := run_frame c _ _ _
  have e2 : (run c (init n) (ops ++ [.frame f0, .frame f])).1 = (frame c (frame c (run c (init n) ops).1 f0).1 f).1 := by
    have : ops ++ [.frame f0, .frame f] = (ops ++ [.frame f0]) ++ [.frame f] := by simp
    rw [this, run_frame, e1]
  have inv := run_inv c ops (init_inv n)
  by_cases hd : d = {}
  · exact Or.inl hd
  · right
    have hd' : moved i (frame c (frame c (run c (init n) ops).1 f0).1 f).2.1 ≠ {} := by rw [← e1]; exact hd
    obtain ⟨t, v, h1, h2, h3, _, _, h4, h5, h6, h7, h8⟩ := moved_size inv h0 (by rw [← e2]; exact hj) hst hd'
    have hz : f.time - f0.time ≠ 0 := by omega
    have := (jumps_no h6 hoff hw htest h3 (by rw [h7]; exact hz) (by rw [h7]; exact h30)).1
    rw [h7, h8] at this
    have q1 : d = moved i (frame c (frame c (run c (init n) ops).1 f0).1 f).2.1 := by
      show moved i (frame c (run c _ _).1 f).2.1 = _; rw [e1]
    rw [← q1] at this
    exact div_bound hz this

theorem sub_bound {x y : Rat} (h : x - y ≤ 7) : x ≤ y + 7 := by grind

/-- **C61.** Nor does its speed: what a touch moves in 12 ms grows by at most 7 mm from one frame to the next. -/
theorem no_sudden_jump (c : Config) (n : Nat) (ops : List Op) (f0 f1 f2 : Frame) (i : Nat) (hoff : c.jumpsOff = false)
    (hw : c.wacom = false) (htest : c.test = false) (hs1 : f1.stamp = none) (hs2 : f2.stamp = none)
    (h0 : (see i f0).st ≠ .none) (ht1 : f0.time < f1.time) (ht2 : f1.time < f2.time) (h1 : f1.time - f0.time ≤ 30000)
    (h2 : f2.time - f1.time ≤ 30000)
    (hj : (run c (init n) (ops ++ [.frame f0, .frame f1, .frame f2])).1.pad.jitter = false) :
    let d1 := moved i (frame c (run c (init n) (ops ++ [.frame f0])).1 f1).2.1
    let d2 := moved i (frame c (run c (init n) (ops ++ [.frame f0, .frame f1])).1 f2).2.1
    d1 = {} ∨ d2 = {} ∨
      size c d2 * 12000 / ((f2.time - f1.time : Nat) : Rat) ≤ size c d1 * 12000 / ((f1.time - f0.time : Nat) : Rat) + 7 := by
  intro d1 d2
  obtain ⟨s, hs⟩ : ∃ s, (run c (init n) ops).1 = s := ⟨_, rfl⟩
  have e1 : (run c (init n) (ops ++ [.frame f0])).1 = (frame c s f0).1 := by rw [run_frame, hs]
  have e2 : (run c (init n) (ops ++ [.frame f0, .frame f1])).1 = (frame c (frame c s f0).1 f1).1 := by
    have : ops ++ [.frame f0, .frame f1] = (ops ++ [.frame f0]) ++ [.frame f1] := by simp
    rw [this, run_frame, e1]
  have e3 : (run c (init n) (ops ++ [.frame f0, .frame f1, .frame f2])).1 = (frame c (frame c (frame c s f0).1 f1).1 f2).1 := by
    have : ops ++ [.frame f0, .frame f1, .frame f2] = (ops ++ [.frame f0, .frame f1]) ++ [.frame f2] := by simp
    rw [this, run_frame, e2]
  have inv : Inv s := by rw [← hs]; exact run_inv c ops (init_inv n)
  rw [e3] at hj
  have hj1 : (frame c (frame c s f0).1 f1).1.pad.jitter = false := jitter_back (ops := [.frame f2]) hj
  by_cases hd1 : d1 = {}
  · exact Or.inl hd1
  by_cases hd2 : d2 = {}
  · exact Or.inr (Or.inl hd2)
  right; right
  have q1 : d1 = moved i (frame c (frame c s f0).1 f1).2.1 := by show moved i (frame c (run c _ _).1 f1).2.1 = _; rw [e1]
  have q2 : d2 = moved i (frame c (frame c (frame c s f0).1 f1).1 f2).2.1 := by show moved i (frame c (run c _ _).1 f2).2.1 = _; rw [e2]
  rw [q1] at hd1 ⊢
  rw [q2] at hd2 ⊢
  obtain ⟨t, v, a1, a2, a3, a4, a5, a6, a7, a8, a9, a10⟩ := moved_size inv h0 hj1 hs1 hd1
  have hv1 : (see i f1).st ≠ .none := by
    have : see i f1 = v := by simp [see, a2]
    rw [this]; exact a4
  obtain ⟨t', v', b1, b2, b3, _, _, b6, b7, b8, b9, b10⟩ := moved_size (frame_inv c f0 inv) hv1 hj hs2 hd2
  have hz1 : f1.time - f0.time ≠ 0 := by omega
  have hz2 : f2.time - f1.time ≠ 0 := by omega
  have k1 := (jumps_no a8 hoff hw htest a3 (by rw [a9]; exact hz1) (by rw [a9]; exact h1)).2.2
  have k2 := (jumps_no b8 hoff hw htest b3 (by rw [b9]; exact hz2) (by rw [b9]; exact h2)).2.1
  obtain ⟨t'', l1, l2⟩ := frame_lastMm c (frame c s f0).1 f1 i t v a1 a2
  have : t'' = t' := by rw [l1] at b1; exact Option.some.inj b1
  subst this
  rw [if_neg (by simp [a4, a5]), a7, k1, a9, a10] at l2
  rw [b6, l2, b9, b10] at k2
  exact sub_bound k2

/-- **C61.** A touchpad that sends the position (4095, 0) by mistake: it moves nothing, and the touch stays where it was. -/
theorem wrong_position_ignored (c : Config) (n i : Nat) (ops : List Op) (f1 f0 f : Frame) (ha : c.alps = true)
    (ht450 : c.t450 = false) (hoff : c.jumpsOff = false) (hw : c.wacom = false) (htest : c.test = false) (hst : f.stamp = none)
    (h0 : (see i f0).st ≠ .none) (hs : Stays i f) (same : f0.fingers = f1.fingers) (same' : f.fingers = f0.fingers)
    (hx : (see i f).x = some 4095) (hy : (see i f).y = some 0) (hup : upside false false 0 (ops ++ [.frame f1, .frame f0]) = false)
    (htime : f0.time < f.time) (h30 : f.time - f0.time ≤ 30000)
    (hj : (run c (init n) (ops ++ [.frame f1, .frame f0, .frame f])).1.pad.jitter = false) (t : Touch)
    (ht : (run c (init n) (ops ++ [.frame f1, .frame f0])).1.touches[i]? = some t) :
    moved i (frame c (run c (init n) (ops ++ [.frame f1, .frame f0])).1 f).2.1 = {} ∧
    ∃ t', (run c (init n) (ops ++ [.frame f1, .frame f0, .frame f])).1.touches[i]? = some t' ∧ t'.point = t.point := by
  have e1 : (run c (init n) (ops ++ [.frame f1, .frame f0])).1 = (frame c (run c (init n) (ops ++ [.frame f1])).1 f0).1 := by
    have : ops ++ [.frame f1, .frame f0] = (ops ++ [.frame f1]) ++ [.frame f0] := by simp
    rw [this, run_frame]
  have e2 : (run c (init n) (ops ++ [.frame f1, .frame f0, .frame f])).1 =
      (frame c (run c (init n) (ops ++ [.frame f1, .frame f0])).1 f).1 := by
    have : ops ++ [.frame f1, .frame f0, .frame f] = (ops ++ [.frame f1, .frame f0]) ++ [.frame f] := by simp
    rw [this, run_frame]
  have hr := run_rotate c (ops ++ [.frame f1, .frame f0]) (init n)
  have hr : _ = upside false false 0 _ := hr
  rw [hup] at hr
  have hf1 : (run c (init n) (ops ++ [.frame f1])).1.pad.fingers = f1.fingers := by
    rw [run_frame]; exact (frame_pad_fields c _ f1).2.1
  have inv := run_inv c (ops ++ [.frame f1]) (init_inv n)
  rw [e2, e1] at hj
  rw [e1] at ht hr
  rw [e2, e1]
  obtain ⟨s, hss⟩ : ∃ s, (run c (init n) (ops ++ [.frame f1])).1 = s := ⟨_, rfl⟩
  rw [hss] at ht hj hr hf1 inv ⊢
  have inv' := frame_inv c f0 inv
  have ok := inv' t (List.mem_of_getElem? ht)
  have hi : i < s.touches.length := by
    have h1 := (List.getElem?_eq_some_iff.1 ht).1
    have h2 := (frame_length c s f0).1
    omega
  obtain ⟨t0, j1, j2, j3, j4, j5, j6⟩ := frame_touch c s f0 i s.touches[i] _ (List.getElem?_eq_getElem hi) (see_of_st h0)
    (inv _ (List.getElem_mem hi))
  have : t0 = t := by rw [j1] at ht; exact Option.some.inj ht
  subst this
  obtain ⟨m1, m2, _⟩ := j6 h0
  have hagain : t0.again = false := m2.trans (wants_not c s f0 (same.trans hf1.symm) ht450)
  obtain ⟨hup1, hfresh, hland⟩ := hs
  have hv := see_of_st (i := i) (f := f) (by rw [hup1]; simp)
  have hwants : wants c (frame c s f0).1 f = false := by
    apply wants_not c _ f _ ht450
    rw [(frame_pad_fields c s f0).2.1, same']
  have hbef := before_spec c (mscFrame (frame c s f0).1.pad f).1 f
    ((mscFrame (frame c s f0).1.pad f).2.map (fun j => (j, (mscFrame (frame c s f0).1.pad f).1.interval))) t0 (see i f)
  have hbp := bef_eq c (frame c s f0).1 f t0 (see i f) hst
  have hbpt : (bef c (frame c s f0).1 f t0 (see i f)).point = { x := 4095, y := 0 } := by
    refine (hbef.2.2.2.2.2.2.2.2.2.2.2.2.1 (by rw [hup1]; simp)).trans ?_
    have hm := (mscFrame_pad (frame c s f0).1.pad f).2.2.2.1
    simp [seen, rotated, hm, hr, hx, hy]
  have hst0 : t0.st ≠ .none := by
    rw [j3]; split
    · simp
    · exact h0
  have hcount : (bef c (frame c s f0).1 f t0 (see i f)).count ≠ 0 := by
    have : (bef c (frame c s f0).1 f t0 (see i f)).count = _ := hbef.2.2.2.1
    rw [this, hfresh, hland]
    have := (ok.some_ hst0).1
    simp only [Bool.or_self, Bool.false_eq_true, if_false]; omega
  have hjump : jumps c (bef c (frame c s f0).1 f t0 (see i f)) f.time =
      ({ bef c (frame c s f0).1 f t0 (see i f) with point := t0.point }, true) := by
    simp only [jumps, hoff, hw, htest, ha, hbpt, Bool.false_eq_true, if_false, if_neg hcount, hbp, m1, and_self, if_true]
    rw [if_neg (by omega)]
  have hdirty : (see i f).dirty = true := by simp [View.dirty, hx]
  obtain ⟨q, g1, g2, g3, g4⟩ := frame_get c (frame c s f0).1 f i t0 _ ht hv
  obtain ⟨t', k1, k2, k3, k4, k5, k6⟩ := frame_touch c (frame c s f0).1 f i t0 _ ht hv ok
  obtain ⟨_, _, _, _, d, m5, m6, _⟩ := k6 (by rw [hup1]; simp)
  refine ⟨?_, _, g3, ?_⟩
  · rw [moved_some m5, m6 (Or.inr (Or.inr (Or.inr (Or.inr (Or.inr ⟨hdirty, by rw [hjump]⟩)))))]
    split <;> rfl
  · rw [(pinIf_speed c f _).2.2.2]
    have hba : (bef c (frame c s f0).1 f t0 (see i f)).again = false := hbef.2.2.2.2.2.2.2.2.1.trans hagain
    have hfor := (forget_fields (wants c (frame c s f0).1 f) (bef c (frame c s f0).1 f t0 (see i f))).2.2.2.2.2.2.2.2.2 hwants hba
    have hjit : (process c f (wants c (frame c s f0).1 f) (motionOf c (frame c s f0).1 f) q
        (bef c (frame c s f0).1 f t0 (see i f))).1.jitter = false := by
      cases hh : (process c f (wants c (frame c s f0).1 f) (motionOf c (frame c s f0).1 f) q
        (bef c (frame c s f0).1 f t0 (see i f))).1.jitter
      · rfl
      · exfalso
        have := g2.jitter hh
        obtain ⟨q2, _, hq, hq2⟩ := frame_pad c (frame c s f0).1 f
        rw [← hq2] at this
        rw [hq, (applyRotation_fields _).1] at hj
        have hj : q2.jitter = false := hj
        rw [this] at hj
        exact absurd hj (by simp)
    have hbst : (bef c (frame c s f0).1 f t0 (see i f)).st ≠ .none := by
      have : (bef c (frame c s f0).1 f t0 (see i f)).st = _ := hbef.1
      rw [this, hup1]; simp
    have hbd : (bef c (frame c s f0).1 f t0 (see i f)).dirty = true := hbef.2.1.trans hdirty
    rw [process_eq _ _ _ _ _ _ hbst, if_neg (by rw [hbd]; simp), hfor] at hjit ⊢
    show (unpin c _).point = _
    rw [(unpin_fields c _).2.2.2.2.2.2.1, (calcSpeed_fields c _ _).2.2.2.2.2.2.2]
    show (ready c q f _ _).2.point = _
    rw [(ready_fields c q f _ _).2.2.2.2.2.2 hjit, hjump]

/-- **C61.** On a touchpad that jumps after having been silent about positions (more than ten frames), that jump is swallowed. -/
theorem silence_before_motion (c : Config) (n : Nat) (ops : List Op) (fs : List Frame) (f : Frame) (ht : c.t450 = true)
    (hfs : ∀ g ∈ fs, g.fingers = down 0 ops ∧ g.motion = false ∧ g.others = true) (hlen : 10 < fs.length)
    (hf : f.fingers = down 0 ops) (hm : f.motion = true) (i : Nat) :
    moved i (frame c (run c (init n) (ops ++ fs.map .frame)).1 f).2.1 = {} := by
  have inv := run_inv c (ops ++ fs.map .frame) (init_inv n)
  rw [(run_append c ops _ _).1] at inv ⊢
  obtain ⟨h1, h2⟩ := silent_run ht (down 0 ops) fs (s := (run c (init n) ops).1) (run_fingers c ops (init n)) hfs
  apply wants_zero inv
  rw [silent_wants ht (hf.trans h2.symm) hm, h1]
  exact decide_eq_true (by omega)

/-- **C61.** Jitter, once seen, is smoothed for ever after. -/
theorem jitter_stays (c : Config) (n : Nat) (ops more : List Op) (h : (run c (init n) ops).1.pad.jitter = true) :
    (run c (init n) (ops ++ more)).1.pad.jitter = true := by
  rw [(run_append c ops _ _).1]; exact run_jitter c more _ h

/-- **C61.** It is only seen while a single finger moves. -/
theorem jitter_of_one_finger (c : Config) (n : Nat) (ops : List Op) (f : Frame) (h0 : (run c (init n) ops).1.pad.jitter = false)
    (h1 : (run c (init n) (ops ++ [.frame f])).1.pad.jitter = true) : f.fingers = 1 ∧ down 0 ops = 1 ∧ f.motion = true := by
  rw [run_frame] at h1
  have := jitter_needs h0 h1
  rw [run_fingers] at this
  exact this

theorem way_spin {c : Config} {r back : Bool} {a b : Pt} (h : if back then b.x ≤ a.x else a.x ≤ b.x) :
    Way (back != r) (spin c r a) (spin c r b) := by
  cases back <;> cases r <;> simp only [Way, spin] <;> simp at h ⊢ <;> omega

theorem spin_ne {c : Config} {r : Bool} {a b : Pt} (h : b ≠ a) : spin c r b ≠ spin c r a := by
  intro hh
  apply h
  cases r
  · exact hh
  · simp only [spin, if_true, Pt.mk.injEq] at hh
    cases a; cases b
    simp only [Pt.mk.injEq] at hh ⊢
    omega

/-- **C61.** A finger that only goes one way is not taken for jitter: after any history without jitter, if a finger lands (`land`),
alone, and goes only left or only right (moving whenever there is motion), no jitter is seen. -/
theorem one_way_is_not_jitter (c : Config) (n i : Nat) (pre gs : List Op) (land : Frame) (X Y : Int) (back : Bool) (hi : i < n)
    (full : Full n (pre ++ .frame land :: gs)) (hpre : (run c (init n) pre).1.pad.jitter = false) (halps : c.alps = false)
    (fresh : (see i land).fresh = true) (begins : (see i land).st = .begin) (hX : (see i land).x = some X)
    (hY : (see i land).y = some Y) (one : ∀ f, .frame f ∈ .frame land :: gs → f.fingers = 1 ∧ ∀ j, j ≠ i → (see j f).st = .none)
    (stays : ∀ f, .frame f ∈ gs → Stays i f) (way : OneWay back i { x := X, y := Y } gs) :
    (run c (init n) (pre ++ .frame land :: gs)).1.pad.jitter = false := by
  -- while it goes on
  have key : ∀ (gs : List Op) (s : State) (p : Pt) (t : Touch) (r : Bool), Inv s → s.pad.jitter = false → s.touches[i]? = some t →
      t.st ≠ .none → t.point = spin c r p → s.pad.rotate = r → s.pad.fingers = 1 → Marks (back != r) t.xmoves →
      (∀ f, .frame f ∈ gs → f.fingers = 1 ∧ ∀ j, j ≠ i → (see j f).st = .none) → (∀ f, .frame f ∈ gs → Stays i f) →
      OneWay back i p gs → (run c s gs).1.pad.jitter = false := by
    intro gs
    induction gs with
    | nil => intro s p t r _ h _ _ _ _ _ _ _ _ _; exact h
    | cons op gs ih =>
      intro s p t r inv hj ht hst hpt hr hf hm hone hstay hway
      cases op with
      | left on =>
        obtain ⟨a1, a2, a3, a4, _⟩ := applyRotation_fields { s.pad with wantRotate := on }
        refine ih (step c s (.left on)).1 p t r inv (a1.trans hj) ht hst hpt ?_ (a2.trans hf) hm
          (fun f h => hone f (List.mem_cons_of_mem _ h)) (fun f h => hstay f (List.mem_cons_of_mem _ h)) hway
        refine a4.trans ?_
        show (if s.pad.fingers = 0 then _ else s.pad.rotate) = r
        rw [if_neg (by omega)]; exact hr
      | frame f =>
        obtain ⟨w1, w2, w3⟩ := hway
        obtain ⟨o1, o2⟩ := hone f (List.mem_cons_self ..)
        obtain ⟨y1, y2, y3⟩ := hstay f (List.mem_cons_self ..)
        have ok := inv t (List.mem_of_getElem? ht)
        have hseen : seen c s.pad t.point (see i f) = spin c r (place p (see i f)) := by rw [hpt, ← hr, seen_spin]
        have hpast : (t.past 0).point = spin c r p := by rw [(ok.some_ hst).2, hpt]
        obtain ⟨z1, t', z2, z3⟩ := frame_way (c := c) (s := s) (f := f) (i := i) (t := t) (back := back != r) hj halps ht
          (Or.inr y1) o2 (Or.inr hm) (Or.inr (Or.inr (by
            rw [hseen, hpast]; exact ⟨way_spin w1, fun h => spin_ne (w2 h)⟩)))
        obtain ⟨t'', k1, k2, k3, k4, k5, k6⟩ := frame_touch c s f i t _ ht (see_of_st (by rw [y1]; simp)) ok
        have : t'' = t' := by rw [k1] at z2; exact Option.some.inj z2
        subst this
        obtain ⟨_, _, _, _, d, _, _, _, m8⟩ := k6 (by rw [y1]; simp)
        have hp' := m8 z1 (by rw [y1]; simp) (Or.inl halps)
        rw [hseen] at hp'
        obtain ⟨_, p2, p3, p4, _⟩ := frame_pad_fields c s f
        exact ih (frame c s f).1 (place p (see i f)) t'' r (frame_inv c f inv) z1 k1 (by rw [k3, y1]; simp) hp'
          (by rw [p4, if_neg (by omega)]; exact hr) (p2.trans o1) z3 (fun f h => hone f (List.mem_cons_of_mem _ h))
          (fun f h => hstay f (List.mem_cons_of_mem _ h)) w3
  -- when it lands
  rw [(run_append c pre _ _).1]
  obtain ⟨s, hs⟩ : ∃ s, (run c (init n) pre).1 = s := ⟨_, rfl⟩
  rw [hs] at hpre ⊢
  have inv : Inv s := by rw [← hs]; exact run_inv c pre (init_inv n)
  have l0 : (init n).touches.length = n := by simp [init]
  have l1 : s.touches.length = n := by
    rw [← hs, run_length c pre (init n) (by rw [l0]; exact fun f hf => full f (by simp [hf])), l0]
  have ht : s.touches[i]? = some s.touches[i] := List.getElem?_eq_getElem (by omega)
  obtain ⟨o1, o2⟩ := one land (List.mem_cons_self ..)
  obtain ⟨z1, t', z2, z3⟩ := frame_way (c := c) (s := s) (f := land) (i := i) (back := back != s.pad.rotate) hpre halps ht
    (Or.inl begins) o2 (Or.inl fresh) (Or.inl fresh)
  have ok := inv _ (List.mem_of_getElem? ht)
  obtain ⟨t'', k1, k2, k3, k4, k5, k6⟩ := frame_touch c s land i _ _ ht (see_of_st (by rw [begins]; simp)) ok
  have : t'' = t' := by rw [k1] at z2; exact Option.some.inj z2
  subst this
  obtain ⟨_, _, _, _, d, _, _, _, m8⟩ := k6 (by rw [begins]; simp)
  have hp' := m8 z1 (by rw [begins]; simp) (Or.inl halps)
  rw [seen_both hX hY] at hp'
  obtain ⟨_, p2, p3, p4, _⟩ := frame_pad_fields c s land
  exact key gs (frame c s land).1 _ t'' s.pad.rotate (frame_inv c land inv) z1 k1 (by rw [k3, begins]; simp) hp'
    (by rw [p4, if_neg (by omega)]) (p2.trans o1) z3 (fun f h => one f (List.mem_cons_of_mem _ h)) stays way

/-- **C61.** Nothing moves in the frame in which a clickpad is pressed. -/
theorem click_without_motion (c : Config) (n : Nat) (ops : List Op) (f : Frame) (hc : c.clickpad = true) (hp : f.press = true)
    (i : Nat) : moved i (frame c (run c (init n) ops).1 f).2.1 = {} := by
  have inv := run_inv c ops (init_inv n)
  obtain ⟨s, hs⟩ : ∃ s, (run c (init n) ops).1 = s := ⟨_, rfl⟩
  rw [hs] at inv ⊢
  cases ht : s.touches[i]? with
  | none => exact moved_none (out_none (Or.inl ht))
  | some t =>
    cases hv : f.views[i]? with
    | none => exact moved_none (out_none (Or.inr hv))
    | some v =>
      obtain ⟨t', k1, k2, k3, k4, k5, k6⟩ := frame_touch c s f i t v ht hv (inv t (List.mem_of_getElem? ht))
      by_cases hn : v.st = .none
      · exact moved_some (k5 hn)
      · obtain ⟨_, _, m3, _, d, m5, m6, _⟩ := k6 hn
        rw [moved_some m5, m3]
        simp [hc, hp]

/-- A touch that is held in place. -/
theorem run_held {c : Config} {i k : Nat} {r : Bool} {q : Pt} (hk : k ≠ 0) (ha : c.alps = false) (fs : List Frame) :
    ∀ {s : State} {p : Pt} {t : Touch}, Inv s → s.touches[i]? = some t → t.st ≠ .none → t.point = spin c r p → s.pad.rotate = r →
      s.pad.fingers = k → t.pinned = true → t.pinCenter = spin c r q → (∀ f ∈ fs, f.fingers = k ∧ Stays i f ∧ f.press = false) →
      (run c s (fs.map .frame)).1.pad.jitter = false → Near c i q p fs →
      (∀ out ∈ (run c s (fs.map .frame)).2, moved i out = {}) ∧
      ∃ t', (run c s (fs.map .frame)).1.touches[i]? = some t' ∧ t'.st ≠ .none ∧
        t'.point = spin c r (places i p (fs.map .frame)) ∧ (run c s (fs.map .frame)).1.pad.rotate = r ∧
        (run c s (fs.map .frame)).1.pad.fingers = k ∧ t'.pinned = true ∧ t'.pinCenter = spin c r q ∧
        (fs ≠ [] → c.t450 = false → t'.again = false) := by
  induction fs with
  | nil =>
    intro s p t inv h1 h2 h3 h4 h5 h6 h7 _ _ _
    exact ⟨by simp [run], t, h1, h2, h3, h4, h5, h6, h7, fun h => absurd rfl h⟩
  | cons f fs ih =>
    intro s p t inv h1 h2 h3 h4 h5 h6 h7 h8 hj near
    obtain ⟨f1, ⟨y1, y2, y3⟩, f3⟩ := h8 f (List.mem_cons_self ..)
    obtain ⟨n1, n2⟩ := near
    have hj1 : (frame c s f).1.pad.jitter = false := jitter_back (ops := fs.map .frame) hj
    have ok := inv t (List.mem_of_getElem? h1)
    obtain ⟨t', k1, k2, k3, k4, k5, k6⟩ := frame_touch c s f i t _ h1 (see_of_st (by rw [y1]; simp)) ok
    obtain ⟨_, m2, m3, m4, d, m5, _, _, m8⟩ := k6 (by rw [y1]; simp)
    have hp' : t'.point = spin c r (place p (see i f)) := by
      rw [m8 hj1 (by rw [y1]; simp) (Or.inl ha), h3, ← h4, seen_spin]
    obtain ⟨_, p2, p3, p4, _⟩ := frame_pad_fields c s f
    have hpin : t'.pinned = true := by
      rw [m3, h6, y2, y1, f3, hp', h7, mm_spin, decide_eq_false (Rat.not_le.2 n1)]
      simp
    have hcen : t'.pinCenter = spin c r q := by rw [m4, f3]; exact h7
    have hrot : (frame c s f).1.pad.rotate = r := by rw [p4, if_neg (by omega)]; exact h4
    obtain ⟨i1, t'', i2, i3, i4, i5, i6, i7, i8, i9⟩ := ih (s := (frame c s f).1) (frame_inv c f inv) k1 (by rw [k3, y1]; simp) hp' hrot
      (p2.trans f1) hpin hcen (fun g hg => h8 g (List.mem_cons_of_mem _ hg)) hj n2
    refine ⟨?_, t'', i2, i3, i4, i5, i6, i7, i8, ?_⟩
    · intro out ho
      rcases List.mem_cons.1 ho with ho | ho
      · subst ho
        show moved i (frame c s f).2.1 = {}
        rw [moved_some m5, hpin]; simp
      · exact i1 out ho
    · intro _ h450
      cases fs with
      | nil =>
        have : t'' = t' := by
          have i2 : (frame c s f).1.touches[i]? = some t'' := i2
          rw [k1] at i2; exact (Option.some.inj i2).symm
        rw [this, m2]
        exact wants_not c s f (f1.trans h5.symm) h450
      | cons g gs => exact i9 (by simp) h450

/-- What is known after the press of a clickpad. -/
theorem pressed {c : Config} {n i : Nat} {ops : List Op} {f : Frame} {X Y : Int} (hi : i < n) (full : Full n (ops ++ [.frame f]))
    (hc : c.clickpad = true) (hp : f.press = true) (halps : c.alps = false)
    (here : (see i f).st = .begin ∨ (see i f).st = .update) (hX : (see i f).x = some X) (hY : (see i f).y = some Y)
    (hk : f.fingers ≠ 0) (hj : (run c (init n) (ops ++ [.frame f])).1.pad.jitter = false) :
    ∃ t r, (run c (init n) (ops ++ [.frame f])).1.touches[i]? = some t ∧ t.st ≠ .none ∧ t.point = spin c r { x := X, y := Y } ∧
      (run c (init n) (ops ++ [.frame f])).1.pad.rotate = r ∧ (run c (init n) (ops ++ [.frame f])).1.pad.fingers = f.fingers ∧
      t.pinned = true ∧ t.pinCenter = spin c r { x := X, y := Y } ∧ r = upside false false 0 ops := by
  have inv := run_inv c ops (init_inv n)
  have hrot := run_rotate c ops (init n)
  rw [run_frame] at hj ⊢
  have l0 : (init n).touches.length = n := by simp [init]
  have l1 := run_length c ops (init n) (by rw [l0]; exact fun f hf => full f (by simp [hf]))
  obtain ⟨s, hs⟩ : ∃ s, (run c (init n) ops).1 = s := ⟨_, rfl⟩
  rw [hs] at inv hj l1 hrot ⊢
  have ht : s.touches[i]? = some s.touches[i] := List.getElem?_eq_getElem (by omega)
  have hn : (see i f).st ≠ .none := by rcases here with h | h <;> rw [h] <;> simp
  have hne : (see i f).st ≠ .end_ := by rcases here with h | h <;> rw [h] <;> simp
  obtain ⟨t', k1, k2, k3, k4, k5, k6⟩ := frame_touch c s f i _ _ ht (see_of_st hn) (inv _ (List.mem_of_getElem? ht))
  obtain ⟨_, m2, m3, m4, d, m5, _, _, m8⟩ := k6 hn
  have hpt := m8 hj hne (Or.inl halps)
  rw [seen_both hX hY] at hpt
  obtain ⟨_, p2, p3, p4, _⟩ := frame_pad_fields c s f
  refine ⟨t', s.pad.rotate, k1, ?_, hpt, by rw [p4, if_neg hk], p2, by rw [m3]; simp [hc, hp], by rw [m4]; simp [hc, hp, hpt], hrot⟩
  rw [k3]; rcases here with h | h <;> rw [h] <;> simp

/-- **C61.** The finger that presses a clickpad does not move the pointer until it is 1.5 mm from where it pressed. -/
theorem click_holds (c : Config) (n i : Nat) (ops : List Op) (f : Frame) (fs : List Frame) (X Y : Int) (hi : i < n)
    (full : Full n (ops ++ [.frame f])) (hc : c.clickpad = true) (hp : f.press = true) (halps : c.alps = false)
    (here : (see i f).st = .begin ∨ (see i f).st = .update) (hX : (see i f).x = some X) (hY : (see i f).y = some Y)
    (hk : f.fingers ≠ 0) (stays : ∀ g ∈ fs, g.fingers = f.fingers ∧ Stays i g ∧ g.press = false)
    (hj : (run c (init n) (ops ++ [.frame f] ++ fs.map .frame)).1.pad.jitter = false)
    (near : Near c i { x := X, y := Y } { x := X, y := Y } fs) :
    ∀ out ∈ (run c (run c (init n) (ops ++ [.frame f])).1 (fs.map .frame)).2, moved i out = {} := by
  rw [(run_append c (ops ++ [Op.frame f]) _ _).1] at hj
  obtain ⟨t, r, h1, h2, h3, h4, h5, h6, h7, _⟩ := pressed hi full hc hp halps here hX hY hk (jitter_back hj)
  exact (run_held hk halps fs (run_inv c _ (init_inv n)) h1 h2 h3 h4 h5 h6 h7 stays hj near).1

/-- **C61.** When it is 1.5 mm from there, it moves the pointer: from the frame on in which it gets there, by what it moved in that. -/
theorem click_releases (c : Config) (n i : Nat) (ops : List Op) (f : Frame) (fs : List Frame) (g : Frame) (X Y : Int) (hi : i < n)
    (full : Full n (ops ++ [.frame f])) (hc : c.clickpad = true) (hp : f.press = true) (halps : c.alps = false)
    (h450 : c.t450 = false) (hjumps : c.jumpsOff = true ∨ c.wacom = true)
    (here : (see i f).st = .begin ∨ (see i f).st = .update) (hX : (see i f).x = some X) (hY : (see i f).y = some Y)
    (hk : f.fingers ≠ 0) (hfs : fs ≠ []) (stays : ∀ h ∈ fs ++ [g], h.fingers = f.fingers ∧ Stays i h ∧ h.press = false)
    (hj : (run c (init n) (ops ++ [.frame f] ++ fs.map .frame ++ [.frame g])).1.pad.jitter = false)
    (near : Near c i { x := X, y := Y } { x := X, y := Y } fs)
    (far : 3 / 2 ≤ size c (diff (place (places i { x := X, y := Y } (fs.map .frame)) (see i g)) { x := X, y := Y }))
    (sent : (see i g).x ≠ none ∨ (see i g).y ≠ none) :
    moved i (frame c (run c (init n) (ops ++ [.frame f] ++ fs.map .frame)).1 g).2.1 =
      turn (upside false false 0 ops) (diff (place (places i { x := X, y := Y } (fs.map .frame)) (see i g))
        (places i { x := X, y := Y } (fs.map .frame))) := by
  rw [run_frame] at hj
  have inv := run_inv c (ops ++ [.frame f] ++ fs.map .frame) (init_inv n)
  rw [(run_append c (ops ++ [Op.frame f]) _ _).1] at hj inv ⊢
  have hj1 : (run c (run c (init n) (ops ++ [.frame f])).1 (fs.map .frame)).1.pad.jitter = false := jitter_back (ops := [.frame g]) hj
  obtain ⟨t, r, h1, h2, h3, h4, h5, h6, h7, h8⟩ := pressed hi full hc hp halps here hX hY hk (jitter_back hj1)
  obtain ⟨_, t', i2, i3, i4, i5, i6, i7, i8, i9⟩ := run_held hk halps fs (run_inv c _ (init_inv n)) h1 h2 h3 h4 h5 h6 h7
    (fun g hg => stays g (by simp [hg])) hj1 near
  obtain ⟨g1, g2, g3⟩ := stays g (by simp)
  obtain ⟨t'', k1, k2, k3, k4, k5, k6⟩ := step_follows (r := r) inv ⟨i2, i3, i9 hfs h450, i4, i6, i5⟩ hk g1 g2 g3 h450 halps hj
  rw [← h8]
  apply k6
  · have hd : (see i g).dirty = true := by
      rcases sent with h | h
      · cases hx : (see i g).x
        · exact absurd hx h
        · simp [View.dirty, hx]
      · cases hy : (see i g).y
        · exact absurd hy h
        · simp [View.dirty, hy]
    rw [k4, k1.point, i8, mm_spin, hd, decide_eq_true (show size c _ ≥ 3 / 2 from far)]
    simp
  · rcases hjumps with h | h
    · exact Or.inl h
    · exact Or.inr (Or.inl h)

/-- **C61.** The acceleration starts anew, at a time in the past, exactly when the timestamps say that events are missing, and when a
touch begins. -/
theorem restarts (c : Config) (n : Nat) (ops : List Op) (f : Frame) (t : Nat) :
    t ∈ (frame c (run c (init n) ops).1 f).2.2 ↔
      (∃ now by_, f.stamp = some now ∧ Missing (stamps ops) now by_ ∧ t = f.time - by_) ∨
      ((∃ v ∈ f.views, v.st = .begin) ∧ t = f.time) := by
  have hb : f.begins = true ↔ ∃ v ∈ f.views, v.st = .begin := by
    simp only [Frame.begins, List.any_eq_true, beq_iff_eq]
  have hm : ∀ by_, (mscFrame (run c (init n) ops).1.pad f).2 = some by_ ↔ ∃ now, f.stamp = some now ∧ Missing (stamps ops) now by_ := by
    intro by_
    simp only [mscFrame]
    cases hst : f.stamp with
    | none => simp
    | some now =>
      obtain ⟨h1, h2⟩ := run_stamps c ops (init n)
      rw [(mscStep_congr h1 h2 now).2.2, missing_iff _ rfl]
      simp
  show t ∈ (match (mscFrame (run c (init n) ops).1.pad f).2 with
    | some j => [f.time - j]
    | none => []) ++ (if f.begins then [f.time] else []) ↔ _
  rw [List.mem_append, ← hb]
  apply or_congr
  · cases hj : (mscFrame (run c (init n) ops).1.pad f).2 with
    | none =>
      simp only [List.not_mem_nil, false_iff]
      rintro ⟨now, by_, h1, h2, _⟩
      have := (hm by_).2 ⟨now, h1, h2⟩
      rw [hj] at this; exact absurd this (by simp)
    | some j =>
      simp only [List.mem_singleton]
      constructor
      · intro h
        obtain ⟨now, h1, h2⟩ := (hm j).1 hj
        exact ⟨now, j, h1, h2, h⟩
      · rintro ⟨now, by_, h1, h2, h3⟩
        have := (hm by_).2 ⟨now, h1, h2⟩
        rw [hj] at this
        cases this
        exact h3
  · cases f.begins <;> simp

/-! ### What is not so -/

/-- **C61.** If the timestamps say that events are missing, the way of a touch is measured against the time the device told, not
against that of the frames: it moves at most 20 mm for every 12 ms of that. -/
theorem no_jump_after_missing (c : Config) (n : Nat) (ops : List Op) (f0 f : Frame) (i now by_ : Nat) (hoff : c.jumpsOff = false)
    (hw : c.wacom = false) (htest : c.test = false) (hst : f.stamp = some now) (hmiss : Missing (stamps (ops ++ [.frame f0])) now by_)
    (h0 : (see i f0).st = .begin ∨ (see i f0).st = .update) (h30 : by_ ≤ 30000) (hby : by_ ≤ f.time)
    (hj : (run c (init n) (ops ++ [.frame f0, .frame f])).1.pad.jitter = false) :
    let d := moved i (frame c (run c (init n) (ops ++ [.frame f0])).1 f).2.1
    d = {} ∨ size c d * 12000 ≤ 20 * (by_ : Rat) := by
  intro d
  have hn0 : (see i f0).st ≠ .none := by rcases h0 with h | h <;> rw [h] <;> simp
  have e1 : (run c (init n) (ops ++ [.frame f0])).1 = (frame c (run c (init n) ops).1 f0).1 := run_frame c _ _ _
  have e2 : (run c (init n) (ops ++ [.frame f0, .frame f])).1 = (frame c (frame c (run c (init n) ops).1 f0).1 f).1 := by
    have : ops ++ [.frame f0, .frame f] = (ops ++ [.frame f0]) ++ [.frame f] := by simp
    rw [this, run_frame, e1]
  have inv := run_inv c ops (init_inv n)
  have hpos : by_ ≠ 0 := by
    obtain ⟨_, v, _, _, _, _, _, h1, h2⟩ := hmiss
    omega
  have hm : (mscFrame (frame c (run c (init n) ops).1 f0).1.pad f).2 = some by_ := by
    rw [← e1]
    simp only [mscFrame, hst]
    obtain ⟨h1, h2⟩ := run_stamps c (ops ++ [.frame f0]) (init n)
    rw [(mscStep_congr h1 h2 now).2.2, missing_iff _ rfl]
    exact hmiss
  rw [e2] at hj
  by_cases hd : d = {}
  · exact Or.inl hd
  · right
    have q1 : d = moved i (frame c (frame c (run c (init n) ops).1 f0).1 f).2.1 := by
      show moved i (frame c (run c _ _).1 f).2.1 = _; rw [e1]
    rw [q1] at hd ⊢
    clear q1 d
    obtain ⟨s, hs⟩ : ∃ s, (run c (init n) ops).1 = s := ⟨_, rfl⟩
    rw [hs] at inv hm hj hd ⊢
    obtain ⟨t, v, h1, h2, h3, h4, h5, h6, h7, h8, h9, h10, h11, h12, h13⟩ := moved_facts inv hn0 hd
    have hi : i < s.touches.length := by
      have h1 := (List.getElem?_eq_some_iff.1 h1).1
      have h2 := (frame_length c s f0).1
      omega
    obtain ⟨t0, j1, _, j3, _⟩ := frame_touch c s f0 i s.touches[i] _ (List.getElem?_eq_getElem hi) (see_of_st hn0)
      (inv _ (List.getElem_mem hi))
    have : t0 = t := by rw [j1] at h1; exact Option.some.inj h1
    subst this
    have hup : t0.st = .update := by rw [j3]; rcases h0 with h | h <;> rw [h] <;> rfl
    have hne : v.st ≠ .end_ := by rcases h5 with h | h <;> rw [h] <;> simp
    have hbef := before_spec c (mscFrame (frame c s f0).1.pad f).1 f
      ((mscFrame (frame c s f0).1.pad f).2.map (fun j => (j, (mscFrame (frame c s f0).1.pad f).1.interval))) t0 v
    have htime : ((bef c (frame c s f0).1 f t0 v).past 0).time = f.time - by_ := by
      simp only [bef, before, hm, Option.map_some, h10]
      have harr : (arrive c (mscFrame (frame c s f0).1.pad f).1 t0 v).st = .update := by simp [arrive, h9, hup]
      have hcnt : (arrive c (mscFrame (frame c s f0).1.pad f).1 t0 v).count = t0.count := by simp [arrive, h9]
      have hidx : (arrive c (mscFrame (frame c s f0).1.pad f).1 t0 v).index = t0.index := by simp [arrive, h9]
      have key : ((fixTouch f (some (by_, (mscFrame (frame c s f0).1.pad f).1.interval))
          (arrive c (mscFrame (frame c s f0).1.pad f).1 t0 v) v).past 0).time = f.time - by_ := by
        simp only [fixTouch]
        rw [if_pos ⟨harr, hne⟩]
        exact fixLast_past _ _ _ _ (by rw [hidx]; exact h4.index) _ (by rw [hcnt]; exact h11) (by rw [hcnt]; exact h4.count)
      simp only [Bool.false_eq_true, if_false, if_neg hne, hne, false_and]
      by_cases hb : v.st = .begin
      · simp only [hb, if_true]; exact key
      · simp only [hb, if_false]; exact key
    have hcount : 1 ≤ (bef c (frame c s f0).1 f t0 v).count := by
      have : (bef c (frame c s f0).1 f t0 v).count = _ := hbef.2.2.2.1
      rw [this, h9, h10]; simpa using h11
    have hsize : c.mm (bef c (frame c s f0).1 f t0 v).point ((bef c (frame c s f0).1 f t0 v).past 0).point =
        size c (moved i (frame c (frame c s f0).1 f).2.1) := by
      have e : (bef c (frame c s f0).1 f t0 v).point = seen c (frame c s f0).1.pad t0.point v := by
        refine (hbef.2.2.2.2.2.2.2.2.2.2.2.2.1 hne).trans ?_
        have hm := (mscFrame_pad (frame c s f0).1.pad f).2.2.2.1
        simp only [seen, rotated, hm]
      have e' : ((bef c (frame c s f0).1 f t0 v).past 0).point = t0.point := by
        refine hbef.2.2.2.2.1.trans ?_
        rw [h3]
      rw [e, e', h13 hj, mm_size]
    have hz : f.time - (f.time - by_) = by_ := by omega
    have := (jumps_no h12 hoff hw htest hcount (by rw [htime, hz]; exact hpos) (by rw [htime, hz]; exact h30)).1
    rw [htime, hsize, hz] at this
    exact div_bound hpos this

/-- **C61.** A finger that never moves faster than 20 mm/s is not counted as fast (which makes other touches thumbs): after any history,
if a touch lands (`land`), stays, and is never that fast, its count of fast frames is 0. -/
theorem slow_is_not_fast (c : Config) (n i : Nat) (pre gs : List Op) (land : Frame) (X Y : Int) (hi : i < n)
    (full : Full n (pre ++ .frame land :: gs)) (halps : c.alps = false)
    (fresh : (see i land).fresh = true) (here : (see i land).st = .begin ∨ (see i land).st = .update)
    (hX : (see i land).x = some X) (hY : (see i land).y = some Y)
    (some_ : ∀ f, .frame f ∈ .frame land :: gs → f.fingers ≠ 0) (stays : ∀ f, .frame f ∈ gs → Stays i f)
    (hj : (run c (init n) (pre ++ .frame land :: gs)).1.pad.jitter = false)
    (slow : Leisurely c i { x := X, y := Y } land.time gs) :
    ∃ t, (run c (init n) (pre ++ .frame land :: gs)).1.touches[i]? = some t ∧ t.fast = 0 := by
  have inv := run_inv c pre (init_inv n)
  have l0 : (init n).touches.length = n := by simp [init]
  have l1 := run_length c pre (init n) (by rw [l0]; exact fun f hf => full f (by simp [hf]))
  rw [(run_append c pre _ _).1] at hj ⊢
  obtain ⟨s, hs⟩ : ∃ s, (run c (init n) pre).1 = s := ⟨_, rfl⟩
  rw [hs] at inv hj l1 ⊢
  have hj : (run c (frame c s land).1 gs).1.pad.jitter = false := hj
  have hj0 := jitter_back hj
  have ht : s.touches[i]? = some s.touches[i] := List.getElem?_eq_getElem (by omega)
  have hn : (see i land).st ≠ .none := by rcases here with h | h <;> rw [h] <;> simp
  have hne : (see i land).st ≠ .end_ := by rcases here with h | h <;> rw [h] <;> simp
  obtain ⟨t, k1, k2, k3, k4, k5, k6⟩ := frame_touch c s land i _ _ ht (see_of_st hn) (inv _ (List.mem_of_getElem? ht))
  obtain ⟨m1, m2, m3, m4, d, m5, m6, m7, m8⟩ := k6 hn
  obtain ⟨t', j1, j2, j3⟩ := frame_fresh c s land i _ _ ht (see_of_st hn) fresh
  have : t' = t := by rw [k1] at j1; exact (Option.some.inj j1).symm
  subst this
  have hpt := m8 hj0 hne (Or.inl halps)
  rw [seen_both hX hY] at hpt
  obtain ⟨_, g2, g3, g4, _⟩ := frame_pad_fields c s land
  have hfl := some_ land (by simp)
  refine run_slow halps gs (frame_inv c land inv) k1 ?_ hpt ?_ ?_ (fun f hf => some_ f (by simp [hf])) stays hj ?_ j2 ?_
  · rw [k3]; rcases here with h | h <;> rw [h] <;> simp
  · exact g4.trans (if_neg hfl)
  · exact fun hh => hfl (g2.symm.trans hh)
  · rw [j3]; decide
  · rw [m1]; exact slow

/-- **C61.** A finger that moves faster than that in every frame is: after any history that ends with two frames with the same number
of fingers and the touch in the second, it is counted from the fourth of these frames on, up to 15. -/
theorem fast_is_counted (c : Config) (n i : Nat) (pre : List Op) (f1 f0 : Frame) (fs : List Frame) (X Y : Int) (hi : i < n)
    (full : Full n (pre ++ [.frame f1, .frame f0])) (ht450 : c.t450 = false) (halps : c.alps = false) (hm : c.multi = true)
    (some_ : f0.fingers ≠ 0) (same : f0.fingers = f1.fingers)
    (here : (see i f0).st = .begin ∨ (see i f0).st = .update) (hX : (see i f0).x = some X) (hY : (see i f0).y = some Y)
    (stays : ∀ f ∈ fs, f.fingers = f0.fingers ∧ Stays i f ∧ f.press = false)
    (hj : (run c (init n) (pre ++ [.frame f1, .frame f0] ++ fs.map .frame)).1.pad.jitter = false)
    (slow : c.jumpsOff = true ∨ c.wacom = true ∨
      (c.test = false ∧ (∀ a b, 0 ≤ c.len a b) ∧ Slow c i { x := X, y := Y } f0.time (fs.map .frame)))
    (fast : Brisk c i { x := X, y := Y } f0.time fs) :
    ∃ t, (run c (init n) (pre ++ [.frame f1, .frame f0] ++ fs.map .frame)).1.touches[i]? = some t ∧
      min 15 (fs.length - 3) ≤ t.fast ∧ t.fast ≤ 15 := by
  have l0 : (init n).touches.length = n := by simp [init]
  have e4 : (run c (init n) (pre ++ [.frame f1, .frame f0])).1 = (frame c (run c (init n) (pre ++ [.frame f1])).1 f0).1 := by
    have : pre ++ [.frame f1, .frame f0] = (pre ++ [.frame f1]) ++ [.frame f0] := by simp
    rw [this, run_frame]
  have l1 := run_length c (pre ++ [.frame f1]) (init n)
    (by rw [l0]; intro f hf; exact full f (by simp at hf ⊢; rcases hf with h | h <;> simp [h]))
  have hf3 : (run c (init n) (pre ++ [.frame f1])).1.pad.fingers = f1.fingers := by
    rw [run_frame]; exact (frame_pad_fields c _ f1).2.1
  have inv := run_inv c (pre ++ [.frame f1]) (init_inv n)
  rw [(run_append c (pre ++ [Op.frame f1, Op.frame f0]) _ _).1, e4] at hj ⊢
  have hfar : ∀ h : (∀ a b, 0 ≤ c.len a b), Far (run c (init n) (pre ++ [.frame f1])).1 := fun h => run_far c h _ (init_far n)
  obtain ⟨s, hs⟩ : ∃ s, (run c (init n) (pre ++ [.frame f1])).1 = s := ⟨_, rfl⟩
  rw [hs] at inv hj l1 hf3 hfar ⊢
  have hj0 := jitter_back hj
  have ht : s.touches[i]? = some s.touches[i] := List.getElem?_eq_getElem (by omega)
  have hn : (see i f0).st ≠ .none := by rcases here with h | h <;> rw [h] <;> simp
  have hne : (see i f0).st ≠ .end_ := by rcases here with h | h <;> rw [h] <;> simp
  obtain ⟨t, k1, k2, k3, k4, k5, k6⟩ := frame_touch c s f0 i _ _ ht (see_of_st hn) (inv _ (List.mem_of_getElem? ht))
  obtain ⟨m1, m2, m3, m4, d, m5, m6, m7, m8⟩ := k6 hn
  have hpt := m8 hj0 hne (Or.inl halps)
  rw [seen_both hX hY] at hpt
  obtain ⟨_, g2, g3, g4, _⟩ := frame_pad_fields c s f0
  have hst : t.st ≠ .none := by rw [k3]; rcases here with h | h <;> rw [h] <;> simp
  have fo : Followed c (frame c s f0).1 i { x := X, y := Y } f0.fingers s.pad.rotate t := by
    refine ⟨k1, hst, ?_, hpt, g2, ?_⟩
    · rw [m2]; exact wants_not c s f0 (same.trans hf3.symm) ht450
    · rw [g4, if_neg some_]
  have hcount := (k2.some_ hst).1
  obtain ⟨t', e1, e2⟩ := run_fast some_ ht450 halps hm fs (s := (frame c s f0).1) 0 (frame_inv c f0 inv) fo stays hj
    (by
      rcases slow with h | h | ⟨h1, h2, h3⟩
      · exact Or.inl h
      · exact Or.inr (Or.inl h)
      · exact Or.inr (Or.inr ⟨h1, h2, frame_far c h2 f0 (hfar h2), by rw [m1]; exact h3⟩))
    (by rw [m1]; exact fast) (by omega) (by omega) (by omega)
  have hok := run_inv c (fs.map .frame) (frame_inv c f0 inv) t' (List.mem_of_getElem? e1)
  exact ⟨t', e1, by simpa using e2, hok.fast⟩

/-- **C61.** A device that sends its timestamps regularly from when it woke up is taken for one of which events are missing, in the
third frame after: the code compares the time since then, not since the last frame, with twice the interval, and goes on looking
when the next frame was in time. -/
theorem regular_timestamps_taken_for_missing (c : Config) (n v : Nat) (f0 f1 f2 f3 : Frame) (h0 : v ≠ 0) (hv : v ≤ 20000)
    (s0 : f0.stamp = some 0) (s1 : f1.stamp = some v) (s2 : f2.stamp = some (2 * v)) (s3 : f3.stamp = some (3 * v)) :
    f3.time - 2 * v ∈ (frame c (run c (init n) [.frame f0, .frame f1, .frame f2]).1 f3).2.2 := by
  rw [restarts]
  refine Or.inl ⟨3 * v, 2 * v, s3, ⟨[], v, [2 * v], ?_, h0, hv, ?_, by omega, by omega⟩, rfl⟩
  · simp [stamps, s0, s1, s2]
  · intro m hm
    have : m = 2 * v := by simpa using hm
    omega

namespace Ex

/-- A touchpad of 100 mm by 100 mm.  (The touches of the examples move along one axis at a time: their way is the larger one.) -/
def pad : Config :=
  { rx := 10, ry := 10, xmax := 1000, ymax := 1000, clickpad := true, hyst := fun p _ => p
    len := fun a b => if a ≤ b then (if 0 ≤ b then b else 0) else (if 0 ≤ a then a else 0) }

theorem len_nonneg (a b : Rat) : 0 ≤ pad.len a b := by
  simp only [pad]
  repeat' split
  all_goals first | assumption | exact Rat.le_refl

/-- A frame with one touch that is down. -/
def at_ (time : Nat) (x y : Option Int) : Frame := { time := time, fingers := 1, views := [{ x := x, y := y, other := true, st := .update }] }

/-- A touch lands. -/
def lands (time : Nat) (x y : Option Int) : Frame :=
  { time := time, fingers := 1, views := [{ x := x, y := y, fresh := true, st := .begin }] }

def way : List Op := [.frame (at_ 36000 (some 508) none), .left true, .frame (at_ 48000 (some 513) none),
  .frame (at_ 60000 none (some 498)), .frame (at_ 72000 (some 520) none)]

/-- What the touches of these frames moved, one after the other. -/
def outs (c : Config) (ops : List Op) : List Pt := (run c (init 1) ops).2.map (moved 0)

example : total ((run pad (run pad (init 1) ([] ++ .frame (lands 0 (some 500) (some 500)) :: [] ++
      [.frame (at_ 12000 (some 503) none), .frame (at_ 24000 (some 505) (some 500))])).1 way).2.map (moved 0)) =
    { x := 15, y := -2 } :=
  (follows pad 1 0 [] [] way (lands 0 (some 500) (some 500)) (at_ 12000 (some 503) none) (at_ 24000 (some 505) (some 500)) 505 500
    (by decide) (by simp [Full, way, at_, lands]) rfl (by simp [NoPress, way, at_, lands]) (by decide) rfl (by simp [way, at_])
    (Or.inr rfl) rfl rfl (by simp [Stays, see, way, at_]) (by decide +kernel) rfl rfl
    (Or.inr (Or.inr ⟨rfl, len_nonneg, by
      simp only [way, Slow]
      exact ⟨rfl, by decide +kernel, rfl, by decide +kernel, rfl, by decide +kernel, rfl, by decide +kernel, trivial⟩⟩))).trans
    (by decide +kernel)

/-- The way of the touch is what it moved, except at the start and when the number of fingers changed. -/
example : outs pad (.frame (lands 0 (some 500) (some 500)) :: .frame (at_ 12000 (some 503) none) ::
    .frame (at_ 24000 (some 505) (some 500)) :: way) =
    [{}, {}, { x := 2, y := 0 }, { x := 3, y := 0 }, {}, { x := 5, y := 0 }, { x := 0, y := -2 }, { x := 7, y := 0 }] := by
  decide +kernel

/-- A finger that jumps is not followed in that frame. -/
def jump : List Op := [.frame (lands 0 (some 500) (some 500)), .frame (at_ 12000 (some 503) none), .frame (at_ 24000 (some 505) none),
  .frame (at_ 36000 (some 800) none), .frame (at_ 48000 (some 803) none)]
example : outs pad jump = [{}, {}, { x := 2, y := 0 }, {}, { x := 3, y := 0 }] := by decide +kernel
/-- As fast as that is no jump, but getting there at once is. -/
example : outs pad [.frame (lands 0 (some 500) (some 500)), .frame (at_ 12000 (some 500) none), .frame (at_ 24000 (some 570) none),
    .frame (at_ 36000 (some 710) none), .frame (at_ 48000 (some 910) none), .frame (at_ 60000 (some 981) none)] =
    [{}, {}, { x := 70, y := 0 }, { x := 140, y := 0 }, { x := 200, y := 0 }, { x := 71, y := 0 }] := by decide +kernel
example : let d := moved 0 (frame pad (run pad (init 1) ([.frame (lands 0 (some 500) (some 500)), .frame (at_ 12000 (some 500) none)] ++
      [.frame (at_ 24000 (some 505) none)])).1 (at_ 36000 (some 560) none)).2.1
    d = {} ∨ size pad d * 12000 ≤ 20 * ((36000 - 24000 : Nat) : Rat) :=
  no_jump pad 1 _ (at_ 24000 (some 505) none) (at_ 36000 (some 560) none) 0 rfl rfl rfl rfl (by decide) (by decide) (by decide)
    (by decide +kernel)
example : moved 0 (frame pad (run pad (init 1) [.frame (lands 0 (some 500) (some 500)), .frame (at_ 12000 (some 500) none),
      .frame (at_ 24000 (some 505) none)]).1 (at_ 36000 (some 560) none)).2.1 = { x := 55, y := 0 } := by decide +kernel

/-- Two fingers. -/
example : outs pad [.frame (lands 0 (some 500) (some 500)), .frame (at_ 12000 (some 503) none), .frame (at_ 24000 (some 505) none),
    .frame { at_ 36000 (some 508) none with fingers := 2 }, .frame { at_ 48000 (some 510) none with fingers := 2 },
    .frame { at_ 60000 (some 512) none with fingers := 2 }] =
    [{}, {}, { x := 2, y := 0 }, {}, {}, { x := 2, y := 0 }] := by decide +kernel
example : moved 0 (frame pad (run pad (init 1) [.frame (lands 0 (some 500) (some 500))]).1 { at_ 36000 (some 508) none with fingers := 2 }).2.1
    = {} := (fingers_change_without_motion pad 1 [.frame (lands 0 (some 500) (some 500))] _ (by decide) 0).1

/-- Silence before a jump. -/
def silence : List Frame := List.replicate 11 (at_ 12000 none none)
example : moved 0 (frame { pad with t450 := true } (run { pad with t450 := true } (init 1)
      ([.frame (lands 0 (some 500) (some 500)), .frame (at_ 0 (some 500) none)] ++ silence.map .frame)).1 (at_ 36000 (some 550) none)).2.1 =
    {} :=
  silence_before_motion { pad with t450 := true } 1 _ silence (at_ 36000 (some 550) none) rfl
    (by intro g hg; have := List.eq_of_mem_replicate hg; subst this; decide) (by decide) rfl rfl 0
example : moved 0 (frame { pad with t450 := true } (run { pad with t450 := true } (init 1)
      ([.frame (lands 0 (some 500) (some 500)), .frame (at_ 0 (some 500) none)] ++ (silence.drop 1).map .frame)).1
      (at_ 36000 (some 550) none)).2.1 = { x := 50, y := 0 } := by decide +kernel

/-- Jitter. -/
def jitter : List Op := [.frame (lands 0 (some 500) (some 500)), .frame (at_ 10000 (some 501) none), .frame (at_ 20000 (some 500) none),
  .frame (at_ 30000 (some 501) none), .frame (at_ 40000 (some 500) none)]
example : (run pad (init 1) jitter).1.pad.jitter = true := by decide +kernel
example : (run pad (init 1) (jitter ++ [.frame (at_ 50000 (some 600) none)])).1.pad.jitter = true :=
  jitter_stays pad 1 jitter _ (by decide +kernel)
example : (at_ 40000 (some 500) none).fingers = 1 ∧ down 0 jitter.dropLast = 1 ∧ (at_ 40000 (some 500) none).motion = true :=
  jitter_of_one_finger pad 1 jitter.dropLast _ (by decide +kernel) (by decide +kernel)
def leftwards : List Op := [.frame (at_ 10000 (some 490) none), .frame (at_ 20000 (some 480) none), .frame (at_ 30000 none (some 501)),
  .frame (at_ 40000 (some 470) none), .frame (at_ 50000 none none), .frame (at_ 60000 (some 460) none)]
example : (run pad (init 1) ([] ++ .frame (lands 0 (some 500) (some 500)) :: leftwards)).1.pad.jitter = false :=
  one_way_is_not_jitter pad 1 0 [] leftwards (lands 0 (some 500) (some 500)) 500 500 true (by decide)
    (by simp [Full, leftwards, at_, lands]) rfl rfl rfl rfl rfl rfl
    (by
      intro f hf
      simp only [leftwards, List.mem_cons, Op.frame.injEq, List.not_mem_nil, or_false] at hf
      rcases hf with rfl | rfl | rfl | rfl | rfl | rfl | rfl <;>
        exact ⟨rfl, fun j hj => by obtain ⟨j, rfl⟩ : ∃ k, j = k + 1 := ⟨j - 1, by omega⟩; simp [see, at_, lands]⟩)
    (by simp [Stays, see, leftwards, at_]) (by simp [OneWay, leftwards, place, see, at_, Frame.motion])

/-- Clicks. -/
def click : Frame := { at_ 36000 (some 505) (some 500) with press := true }
def held : List Frame := [at_ 48000 (some 510) none, at_ 60000 (some 519) none]
def offPad : Config := { pad with jumpsOff := true }
def start : List Op := [.frame (lands 0 (some 500) (some 500)), .frame (at_ 12000 (some 503) none), .frame (at_ 24000 (some 505) none)]
example : moved 0 (frame pad (run pad (init 1) start).1 click).2.1 = {} := click_without_motion pad 1 start click rfl rfl 0
theorem held_stays : ∀ g ∈ held ++ [at_ 72000 (some 520) none], g.fingers = click.fingers ∧ Stays 0 g ∧ g.press = false := by
  intro g hg
  simp only [held, List.cons_append, List.nil_append, List.mem_cons, List.not_mem_nil, or_false] at hg
  rcases hg with rfl | rfl | rfl <;> exact ⟨rfl, ⟨rfl, rfl, rfl⟩, rfl⟩
example : ∀ out ∈ (run offPad (run offPad (init 1) (start ++ [.frame click])).1 (held.map .frame)).2, moved 0 out = {} :=
  click_holds offPad 1 0 start click held 505 500 (by decide) (by simp [Full, start, click, at_, lands]) rfl rfl rfl (Or.inr rfl) rfl rfl
    (by decide) (fun g hg => held_stays g (by simp [hg])) (by decide +kernel)
    (by simp only [held, Near]; exact ⟨by decide +kernel, by decide +kernel, trivial⟩)
example : moved 0 (frame offPad (run offPad (init 1) (start ++ [.frame click] ++ held.map .frame)).1 (at_ 72000 (some 520) none)).2.1 =
    { x := 1, y := 0 } :=
  (click_releases offPad 1 0 start click held (at_ 72000 (some 520) none) 505 500 (by decide)
    (by simp [Full, start, click, at_, lands]) rfl rfl rfl rfl (Or.inl rfl) (Or.inr rfl) rfl rfl (by decide) (by decide) held_stays
    (by decide +kernel) (by simp only [held, Near]; exact ⟨by decide +kernel, by decide +kernel, trivial⟩) (by decide +kernel)
    (Or.inl (by decide))).trans (by decide +kernel)

/-- Missing events. -/
def woken : List Op := [.frame { lands 2500000 (some 500) (some 500) with stamp := some 0 },
  .frame { at_ 2502000 (some 501) none with stamp := some 7300 }]
example : (frame pad (run pad (init 1) woken).1 { at_ 2504000 (some 600) none with stamp := some 123456 }).2.2 = [2504000 - 116156] := by
  decide +kernel
example : Missing (stamps woken) 123456 116156 := ⟨[], 7300, [], rfl, by decide, by decide, by simp, by decide, by decide⟩
example : (frame pad (run pad (init 1) (woken ++ [.frame { at_ 2510000 (some 502) none with stamp := some 14600 }])).1
    { at_ 2517000 (some 503) none with stamp := some 21900 }).2.2 = [2517000 - 14600] := by decide +kernel
example : 2517000 - 2 * 7300 ∈ (frame pad (run pad (init 1) [.frame { at_ 0 none none with stamp := some 0 },
    .frame { at_ 0 none none with stamp := some 7300 }, .frame { at_ 0 none none with stamp := some (2 * 7300) }]).1
    { at_ 2517000 none none with stamp := some (3 * 7300) }).2.2 :=
  regular_timestamps_taken_for_missing pad 1 7300 _ _ _ { at_ 2517000 none none with stamp := some (3 * 7300) } (by decide) (by decide)
    rfl rfl rfl rfl

/-- A finger of 18 mm/s is not fast. -/
def stroll : List Op := [.frame (at_ 10000 (some 501) none), .frame (at_ 20000 (some 502) none), .left true, .frame (at_ 30000 (some 503) none),
  .frame (at_ 40000 none (some 502)), .frame (at_ 50000 none (some 504))]
example : ∃ t, (run pad (init 1) ([] ++ .frame (lands 0 (some 500) (some 500)) :: stroll)).1.touches[0]? = some t ∧ t.fast = 0 :=
  slow_is_not_fast pad 1 0 [] stroll (lands 0 (some 500) (some 500)) 500 500 (by decide) (by simp [Full, stroll, at_, lands]) rfl rfl
    (Or.inl rfl) rfl rfl (by simp [stroll, at_, lands]) (by simp [Stays, see, stroll, at_]) (by decide +kernel)
    (by
      simp only [stroll, Leisurely]
      exact ⟨rfl, by decide, by decide +kernel, rfl, by decide, by decide +kernel, rfl, by decide, by decide +kernel, rfl, by decide,
        by decide +kernel, rfl, by decide, by decide +kernel, trivial⟩)
/-- One of 30 mm/s is, twice after five frames. -/
def run5 : List Frame := [at_ 20000 (some 503) none, at_ 30000 (some 506) none, at_ 40000 (some 509) none, at_ 50000 (some 512) none,
  at_ 60000 (some 515) none]
example : ∃ t, (run pad (init 1) ([.frame (lands 0 (some 500) (some 500))] ++
      [.frame (at_ 5000 none none), .frame (at_ 10000 (some 500) (some 500))] ++ run5.map .frame)).1.touches[0]? = some t ∧
    min 15 (5 - 3) ≤ t.fast ∧ t.fast ≤ 15 :=
  fast_is_counted pad 1 0 [.frame (lands 0 (some 500) (some 500))] (at_ 5000 none none) (at_ 10000 (some 500) (some 500)) run5 500 500
    (by decide) (by simp [Full, at_, lands]) rfl rfl rfl (by decide) rfl (Or.inr rfl) rfl rfl
    (by simp [Stays, see, run5, at_]) (by decide +kernel)
    (Or.inr (Or.inr ⟨rfl, len_nonneg, by
      simp only [run5, Slow, List.map]
      exact ⟨rfl, by decide +kernel, rfl, by decide +kernel, rfl, by decide +kernel, rfl, by decide +kernel, rfl, by decide +kernel,
        trivial⟩⟩))
    (by
      simp only [run5, Brisk]
      exact ⟨rfl, by decide, by decide +kernel, Or.inl (by decide), rfl, by decide, by decide +kernel, Or.inl (by decide), rfl, by decide,
        by decide +kernel, Or.inl (by decide), rfl, by decide, by decide +kernel, Or.inl (by decide), rfl, by decide, by decide +kernel,
        Or.inl (by decide), trivial⟩)
/-- After a pause of the device of 20 ms (its interval is 8 ms), a way of 7.5 mm is fine although the frames are 2 ms apart. -/
def late : List Op := [.frame { lands 100000 (some 500) (some 500) with stamp := some 0 }, .frame { at_ 108000 (some 510) none with stamp := some 8000 }]
def late0 : Frame := { at_ 126000 (some 520) none with stamp := some 16000 }
def late1 : Frame := { at_ 128000 (some 595) none with stamp := some 28000 }
example : moved 0 (frame pad (run pad (init 1) (late ++ [.frame late0])).1 late1).2.1 = { x := 75, y := 0 } := by decide +kernel
example : moved 0 (frame pad (run pad (init 1) (late ++ [.frame late0])).1 { late1 with stamp := none }).2.1 = {} := by decide +kernel
example : let d := moved 0 (frame pad (run pad (init 1) (late ++ [.frame late0])).1 late1).2.1
    d = {} ∨ size pad d * 12000 ≤ 20 * ((20000 : Nat) : Rat) :=
  no_jump_after_missing pad 1 late late0 late1 0 28000 20000 rfl rfl rfl rfl
    ⟨[], 8000, [16000], rfl, by decide, by decide, by decide, by decide, by decide⟩ (Or.inr rfl) (by decide) (by decide) (by decide +kernel)

/-- A wrong position. -/
example : outs { pad with alps := true } [.frame (lands 0 (some 500) (some 500)), .frame (at_ 12000 (some 500) none),
    .frame (at_ 24000 (some 505) none), .frame (at_ 36000 (some 4095) (some 0)), .frame (at_ 48000 (some 507) (some 500))] =
    [{}, {}, { x := 5, y := 0 }, {}, { x := 2, y := 0 }] := by decide +kernel
example (t : Touch) (ht : (run { pad with alps := true } (init 1) ([.frame (lands 0 (some 500) (some 500))] ++
      [.frame (at_ 12000 (some 500) none), .frame (at_ 24000 (some 505) none)])).1.touches[0]? = some t) :=
  wrong_position_ignored { pad with alps := true } 1 0 [.frame (lands 0 (some 500) (some 500))] (at_ 12000 (some 500) none)
    (at_ 24000 (some 505) none) (at_ 36000 (some 4095) (some 0)) rfl rfl rfl rfl rfl rfl (by decide) ⟨rfl, rfl, rfl⟩ rfl rfl rfl rfl rfl
    (by decide) (by decide) (by decide +kernel) t ht

end Ex

/-- **C61.** When a touchpad is turned between touches, the next touch may start in the wrong place: the kernel does not send again
a coordinate that is the same as that of the last touch, and the old one, from before, is kept as it is.  The touch moves by one
unit, and the pointer by 39 the other way. -/
theorem turned_touchpad_jumps :
    ∃ (c : Config) (ops : List Op) (f : Frame), (see 0 f).y = some 481 ∧
      places 0 {} ops = { x := 500, y := 480 } ∧ upside false false 0 ops = true ∧
      moved 0 (frame c (run c (init 1) ops).1 f).2.1 = { x := 0, y := 39 } ∧
      turn true (diff (places 0 {} (ops ++ [.frame f])) (places 0 {} ops)) = { x := 0, y := -1 } :=
  ⟨Ex.pad, [.frame (Ex.lands 0 (some 500) (some 480)), .frame (Ex.at_ 12000 none none),
    .frame { time := 24000, fingers := 0, views := [{ st := .end_ }] }, .frame { time := 24000, fingers := 0, views := [{}] }, .left true,
    .frame (Ex.lands 1000000 none none), .frame (Ex.at_ 1012000 none none)], Ex.at_ 1024000 none (some 481), by decide +kernel⟩

/-- **C61.** A finger that only goes left is taken for jitter if there is motion of another touch, which only hovers, while it stands
still. -/
theorem standing_still_taken_for_jitter :
    ∃ (c : Config) (ops : List Op), (∀ a b, a ++ [b] <+: ops → (places 0 {} (a ++ [b])).x ≤ (places 0 { x := 500, y := 0 } a).x) ∧
      (run c (init 2) ops).1.pad.jitter = true := by
  refine ⟨Ex.pad, [
    .frame { time := 0, fingers := 1, views := [{ x := some 500, y := some 500, fresh := true, st := .begin },
      { x := some 100, y := some 100, fresh := true, st := .hovering }] },
    .frame { time := 10000, fingers := 1, views := [{ x := some 499, st := .update }, { st := .hovering }] },
    .frame { time := 20000, fingers := 1, views := [{ x := some 498, st := .update }, { st := .hovering }] },
    .frame { time := 30000, fingers := 1, views := [{ other := true, st := .update }, { x := some 101, st := .hovering }] },
    .frame { time := 40000, fingers := 1, views := [{ x := some 497, st := .update }, { st := .hovering }] }], ?_, by decide +kernel⟩
  rintro a b ⟨t, ht⟩
  rcases a with _ | ⟨a1, _ | ⟨a2, _ | ⟨a3, _ | ⟨a4, _ | ⟨a5, a⟩⟩⟩⟩⟩ <;> simp at ht
  · obtain ⟨rfl, _⟩ := ht; decide
  · obtain ⟨rfl, rfl, _⟩ := ht; decide
  · obtain ⟨rfl, rfl, rfl, _⟩ := ht; decide
  · obtain ⟨rfl, rfl, rfl, rfl, _⟩ := ht; decide
  · obtain ⟨rfl, rfl, rfl, rfl, rfl, _⟩ := ht; decide

end Libinput.Follow
