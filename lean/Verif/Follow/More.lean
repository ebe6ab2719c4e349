/-
Jitter, clicks, missing events, and the touchpads that are silent before they jump.
-/
import Verif.Follow.Walk
namespace Libinput.Follow
open Spec

/-! ### Forgetting -/

theorem moved_none {i : Nat} {out : List Pt} (h : out[i]? = none) : moved i out = {} := by simp [moved, h]

theorem moved_some {i : Nat} {out : List Pt} {p : Pt} (h : out[i]? = some p) : moved i out = p := by simp [moved, h]

theorem out_none {c : Config} {s : State} {f : Frame} {i : Nat} (h : s.touches[i]? = none ∨ f.views[i]? = none) :
    (frame c s f).2.1[i]? = none := by
  apply List.getElem?_eq_none
  rw [(frame_length c s f).2]
  rcases h with h | h
  · have := List.getElem?_eq_none_iff.1 h; omega
  · have := List.getElem?_eq_none_iff.1 h; omega

theorem wants_zero {c : Config} {s : State} {f : Frame} (inv : Inv s) (h : wants c s f = true) (i : Nat) :
    moved i (frame c s f).2.1 = {} := by
  cases ht : s.touches[i]? with
  | none => exact moved_none (out_none (Or.inl ht))
  | some t =>
    cases hv : f.views[i]? with
    | none => exact moved_none (out_none (Or.inr hv))
    | some v =>
      obtain ⟨t', k1, k2, k3, k4, k5, k6⟩ := frame_touch c s f i t v ht hv (inv t (List.mem_of_getElem? ht))
      by_cases hn : v.st = .none
      · exact moved_some (k5 hn)
      · obtain ⟨_, _, _, _, d, m5, m6, _⟩ := k6 hn
        rw [moved_some m5, m6 (Or.inl h)]
        simp

theorem wants_zero_next {c : Config} {s : State} {f g : Frame} (inv : Inv s) (h : wants c s f = true) (i : Nat)
    (hs : (see i f).st ≠ .none ∨ (see i g).fresh = true) : moved i (frame c (frame c s f).1 g).2.1 = {} := by
  cases ht : (frame c s f).1.touches[i]? with
  | none => exact moved_none (out_none (Or.inl ht))
  | some t =>
    cases hv : g.views[i]? with
    | none => exact moved_none (out_none (Or.inr hv))
    | some v =>
      have inv' := frame_inv c f inv
      obtain ⟨t', k1, k2, k3, k4, k5, k6⟩ := frame_touch c (frame c s f).1 g i t v ht hv (inv' t (List.mem_of_getElem? ht))
      by_cases hn : v.st = .none
      · exact moved_some (k5 hn)
      · obtain ⟨_, _, _, _, d, m5, m6, _⟩ := k6 hn
        rw [moved_some m5]
        rcases hs with hs | hs
        · have hv0 := see_of_st (i := i) (f := f) hs
          have hi : i < s.touches.length := by
            have h1 := (List.getElem?_eq_some_iff.1 ht).1
            have h2 := (frame_length c s f).1
            omega
          obtain ⟨t0, j1, j2, j3, j4, j5, j6⟩ := frame_touch c s f i s.touches[i] _ (List.getElem?_eq_getElem hi) hv0
            (inv _ (List.getElem_mem hi))
          have : t0 = t := by rw [j1] at ht; exact Option.some.inj ht
          subst this
          rw [m6 (Or.inr (Or.inl ((j6 hs).2.1.trans h)))]
          simp
        · have : v.fresh = true := by
            have : see i g = v := by simp [see, hv]
            rw [← this]; exact hs
          rw [m6 (Or.inr (Or.inr (Or.inl this)))]
          simp

/-! ### Touchpads that are silent before they jump -/

theorem padOf_idle (c : Config) (s : State) (f : Frame) :
    (frame c s f).1.pad.idle = (needReset c { (mscFrame s.pad f).1 with
      lastMotion := if f.begins then f.time else (mscFrame s.pad f).1.lastMotion } f).2.2 := by
  obtain ⟨q, h1, h2, _⟩ := frame_pad c s f
  rw [h2, (applyRotation_fields _).2.2.2.2.1]
  exact h1.idle

theorem silent_step {c : Config} {s : State} {f : Frame} (ht : c.t450 = true) (hf : f.fingers = s.pad.fingers)
    (hm : f.motion = false) (ho : f.others = true) : (frame c s f).1.pad.idle = s.pad.idle + 1 := by
  obtain ⟨m1, m2, m3, _⟩ := mscFrame_pad s.pad f
  rw [padOf_idle]
  simp only [needReset, m2, hf, ht, hm, ho, m3]
  simp

theorem silent_run {c : Config} (ht : c.t450 = true) (k : Nat) (fs : List Frame) : ∀ {s : State}, s.pad.fingers = k →
    (∀ f ∈ fs, f.fingers = k ∧ f.motion = false ∧ f.others = true) →
    (run c s (fs.map .frame)).1.pad.idle = s.pad.idle + fs.length ∧ (run c s (fs.map .frame)).1.pad.fingers = k := by
  induction fs with
  | nil => exact fun h _ => ⟨rfl, h⟩
  | cons f fs ih =>
    intro s hs h
    obtain ⟨h1, h2, h3⟩ := h f (List.mem_cons_self ..)
    have hk : (frame c s f).1.pad.fingers = k := (frame_pad_fields c s f).2.1.trans h1
    obtain ⟨i1, i2⟩ := ih (s := (frame c s f).1) hk (fun g hg => h g (List.mem_cons_of_mem _ hg))
    refine ⟨?_, i2⟩
    have := silent_step (c := c) (s := s) (f := f) ht (h1.trans hs.symm) h2 h3
    show (run c (frame c s f).1 (fs.map .frame)).1.pad.idle = _
    rw [i1, this, List.length_cons]
    omega

theorem silent_wants {c : Config} {s : State} {f : Frame} (ht : c.t450 = true) (hf : f.fingers = s.pad.fingers)
    (hm : f.motion = true) : wants c s f = decide (s.pad.idle > 10) := by
  obtain ⟨m1, m2, m3, _⟩ := mscFrame_pad s.pad f
  simp only [wants, needReset, m2, hf, ht, hm, m3]
  simp

/-! ### Missing events -/

theorem mscStep_congr {p q : Pad} (h1 : p.msc = q.msc) (h2 : p.interval = q.interval) (now : Nat) :
    (mscStep p now).1.msc = (mscStep q now).1.msc ∧ (mscStep p now).1.interval = (mscStep q now).1.interval ∧
    (mscStep p now).2 = (mscStep q now).2 := by
  simp only [mscStep, h1, h2]
  split
  · exact ⟨rfl, rfl, rfl⟩
  · split
    · split <;> exact ⟨rfl, by simp [h2], rfl⟩
    · split
      · exact ⟨rfl, by simp [h2], rfl⟩
      · exact ⟨h1, by simp [h2], rfl⟩
    · exact ⟨h1, by simp [h2], rfl⟩

/-- What the timestamps do to the pad. -/
def stampRun (p : Pad) (l : List Nat) : Pad := l.foldl (fun p now => (mscStep p now).1) p

theorem stampRun_congr (l : List Nat) : ∀ {p q : Pad}, p.msc = q.msc → p.interval = q.interval →
    (stampRun p l).msc = (stampRun q l).msc ∧ (stampRun p l).interval = (stampRun q l).interval := by
  induction l with
  | nil => exact fun h1 h2 => ⟨h1, h2⟩
  | cons x l ih =>
    intro p q h1 h2
    have := mscStep_congr h1 h2 x
    exact ih this.1 this.2.1

theorem run_stamps (c : Config) (ops : List Op) : ∀ s : State,
    (run c s ops).1.pad.msc = (stampRun s.pad (stamps ops)).msc ∧
    (run c s ops).1.pad.interval = (stampRun s.pad (stamps ops)).interval := by
  induction ops with
  | nil => exact fun _ => ⟨rfl, rfl⟩
  | cons op ops ih =>
    intro s
    cases op with
    | left on =>
      obtain ⟨_, _, _, _, _, a6, a7⟩ := applyRotation_fields { s.pad with wantRotate := on }
      have h1 := ih (step c s (.left on)).1
      have h2 := stampRun_congr (stamps ops) (p := (step c s (.left on)).1.pad) (q := s.pad) a6 a7
      exact ⟨h1.1.trans h2.1, h1.2.trans h2.2⟩
    | frame f =>
      obtain ⟨_, _, _, _, a5, a6⟩ := frame_pad_fields c s f
      have h1 := ih (frame c s f).1
      have h2 := stampRun_congr (stamps ops) (p := (frame c s f).1.pad) (q := (mscFrame s.pad f).1) a5 a6
      have h3 : stampRun s.pad (stamps (.frame f :: ops)) = stampRun (mscFrame s.pad f).1 (stamps ops) := by
        simp only [stamps, mscFrame]
        cases f.stamp <;> rfl
      rw [h3]
      exact ⟨h1.1.trans h2.1, h1.2.trans h2.2⟩

/-- What is known of the timestamps. -/
def StampInv (l : List Nat) (p : Pad) : Prop :=
  match p.msc with
  | .ignore => True
  | .expectFirst => ∃ pre, l = pre ++ [0]
  | .expectDelay => ∃ pre mid, l = pre ++ 0 :: p.interval :: mid ∧ p.interval ≠ 0 ∧ p.interval ≤ 20000 ∧
      ∀ m ∈ mid, m ≠ 0 ∧ m ≤ 2 * p.interval

theorem stamp_inv_step {l : List Nat} {p : Pad} (now : Nat) (h : StampInv l p) : StampInv (l ++ [now]) (mscStep p now).1 := by
  simp only [mscStep]
  split
  · next h0 => subst h0; exact ⟨l, rfl⟩
  · next h0 =>
    cases hm : p.msc with
    | ignore => simp [StampInv, hm]
    | expectFirst =>
      simp only [StampInv, hm] at h
      obtain ⟨pre, hp⟩ := h
      dsimp only
      split
      · simp [StampInv]
      · next hle => exact ⟨pre, [], by rw [hp]; simp, h0, by simpa using hle, by simp⟩
    | expectDelay =>
      simp only [StampInv, hm] at h
      obtain ⟨pre, mid, h1, h2, h3, h4⟩ := h
      dsimp only
      split
      · simp [StampInv]
      · next hle =>
        simp only [StampInv, hm]
        refine ⟨pre, mid ++ [now], by rw [h1]; simp, h2, h3, ?_⟩
        intro m hmm
        rcases List.mem_append.1 hmm with h | h
        · exact h4 m h
        · have : m = now := by simpa using h
          subst this
          exact ⟨h0, by omega⟩

theorem stamp_inv_run (l : List Nat) : ∀ {a : List Nat} {p : Pad}, StampInv a p → StampInv (a ++ l) (stampRun p l) := by
  induction l with
  | nil => intro a p h; simpa [stampRun] using h
  | cons x l ih =>
    intro a p h
    have := ih (stamp_inv_step x h)
    show StampInv (a ++ x :: l) (stampRun (mscStep p x).1 l)
    simpa using this

theorem stampRun_append (p : Pad) (a b : List Nat) : stampRun p (a ++ b) = stampRun (stampRun p a) b := List.foldl_append

theorem stamp_mid (mid : List Nat) : ∀ {p : Pad}, p.msc = .expectDelay → (∀ m ∈ mid, m ≠ 0 ∧ m ≤ 2 * p.interval) →
    stampRun p mid = p := by
  induction mid with
  | nil => exact fun _ _ => rfl
  | cons x mid ih =>
    intro p h1 h2
    obtain ⟨h3, h4⟩ := h2 x (List.mem_cons_self ..)
    have : (mscStep p x).1 = p := by
      simp only [mscStep, if_neg h3, h1]
      rw [if_neg (by omega)]
    show stampRun (mscStep p x).1 mid = p
    rw [this]
    exact ih h1 (fun m hm => h2 m (List.mem_cons_of_mem _ hm))

/-- The timestamps after which events are missing are those of the specification. -/
theorem missing_iff (p : Pad) (h : p.msc = .ignore) (l : List Nat) (now : Nat) (by_ : Nat) :
    (mscStep (stampRun p l) now).2 = some by_ ↔ Missing l now by_ := by
  constructor
  · intro hh
    have inv : StampInv l (stampRun p l) := by
      have := stamp_inv_run l (a := []) (p := p) (by simp [StampInv, h])
      simpa using this
    revert hh
    simp only [mscStep]
    split
    · simp
    · cases hm : (stampRun p l).msc with
      | ignore => simp
      | expectFirst => dsimp only; split <;> simp
      | expectDelay =>
        dsimp only
        simp only [StampInv, hm] at inv
        obtain ⟨pre, mid, h1, h2, h3, h4⟩ := inv
        split
        · intro hh
          exact ⟨pre, _, mid, h1, h2, h3, h4, by omega, by simpa using hh.symm⟩
        · simp
  · rintro ⟨pre, v, mid, h1, h2, h3, h4, h5, h6⟩
    have ha : stampRun p (pre ++ [0]) = { stampRun p pre with msc := .expectFirst, interval := 0 } := by
      rw [stampRun_append]; rfl
    have hb : stampRun p (pre ++ [0] ++ [v]) = { stampRun p pre with msc := .expectDelay, interval := v } := by
      rw [stampRun_append, ha]
      simp only [stampRun, List.foldl_cons, List.foldl_nil, mscStep, if_neg h2]
      rw [if_neg (by omega)]
    have hc : stampRun p l = { stampRun p pre with msc := .expectDelay, interval := v } := by
      have : l = pre ++ [0] ++ [v] ++ mid := by rw [h1]; simp
      rw [this, stampRun_append, hb]
      exact stamp_mid mid rfl h4
    rw [hc]
    simp only [mscStep]
    rw [if_neg (by omega), if_pos (by omega), h6]

/-! ### Jitter -/

theorem wobbling_off {p : Pad} {t : Touch} {n : Nat} {m : Bool} {time : Nat} (h : ¬ (n = 1 ∧ n = p.fingers ∧ m = true)) :
    (wobbling p t n m time).1.jitter = p.jitter := by
  simp only [wobbling]
  split
  · rfl
  · next h1 =>
    split
    · rfl
    · split
      · rfl
      · next h2 => exact absurd ⟨by omega, by omega, by simpa using h2⟩ h

theorem process_off {c : Config} {f : Frame} {want motion : Bool} {p : Pad} {t : Touch}
    (h : ¬ (f.fingers = 1 ∧ f.fingers = p.fingers ∧ motion = true)) : (process c f want motion p t).1.jitter = p.jitter := by
  by_cases hn : t.st = .none
  · rw [process_none c f want motion p t hn]
  · rw [process_eq c f want motion p t hn]
    split
    · rfl
    · exact wobbling_off h

theorem processAll_off {c : Config} {f : Frame} {want motion : Bool} (ts : List Touch) : ∀ {p : Pad},
    ¬ (f.fingers = 1 ∧ f.fingers = p.fingers ∧ motion = true) → (processAll c f want motion p ts).1.jitter = p.jitter := by
  induction ts with
  | nil => exact fun _ => rfl
  | cons t ts ih =>
    intro p h
    have h1 := process_later c f want motion p t
    have h2 := ih (p := (process c f want motion p t).1) (by rw [h1.fingers]; exact h)
    exact h2.trans (process_off h)

theorem frame_jitter_eq (c : Config) (s : State) (f : Frame) :
    (frame c s f).1.pad.jitter = (processAll c f (wants c s f) (motionOf c s f) (padOf c s f)
          ((s.touches.zip f.views).map (fun tv => bef c s f tv.1 tv.2))).1.jitter := by
  obtain ⟨q, _, h2, h3⟩ := frame_pad c s f
  rw [h2, (applyRotation_fields _).1, h3]

theorem motionOf_motion {c : Config} {s : State} {f : Frame} (h : motionOf c s f = true) : f.motion = true := by
  revert h
  simp only [motionOf, needReset]
  split
  · exact id
  · split
    · cases f.motion <;> simp
    · exact id

/-- It takes a moving finger, alone, for jitter to be seen. -/
theorem jitter_needs {c : Config} {s : State} {f : Frame} (h0 : s.pad.jitter = false) (h1 : (frame c s f).1.pad.jitter = true) :
    f.fingers = 1 ∧ s.pad.fingers = 1 ∧ f.motion = true := by
  have hm := mscFrame_pad s.pad f
  apply Decidable.byContradiction
  intro h
  rw [frame_jitter_eq, processAll_off] at h1
  · have : (padOf c s f).jitter = s.pad.jitter := hm.1
    rw [this, h0] at h1; exact absurd h1 (by simp)
  · rintro ⟨a1, a2, a3⟩
    have : (padOf c s f).fingers = s.pad.fingers := hm.2.1
    exact h ⟨a1, by omega, motionOf_motion a3⟩

/-- What the marks of a touch can be if it goes one way. -/
def Marks (back : Bool) (x : Nat) : Prop := if back then x = 0 ∨ x = 4 ∨ x = 6 ∨ x = 7 else x = 0

/-- Whether the way from one place to another is that way. -/
def Way (back : Bool) (a b : Pt) : Prop := if back then b.x ≤ a.x else a.x ≤ b.x

theorem wobbling_way {p : Pad} {t : Touch} {n : Nat} {m : Bool} {time : Nat} {back : Bool} (hj : p.jitter = false)
    (hm : Marks back t.xmoves)
    (hw : t.count ≠ 0 → Way back (t.past 0).point t.point ∧ (m = true → t.point ≠ (t.past 0).point)) :
    (wobbling p t n m time).1.jitter = false ∧ Marks back (wobbling p t n m time).2.xmoves := by
  have hz : Marks back 0 := by cases back <;> simp [Marks]
  simp only [wobbling]
  split
  · exact ⟨hj, hm⟩
  · split
    · exact ⟨hj, hm⟩
    · next h2 =>
      have hc : t.count ≠ 0 := fun h => h2 (Or.inr h)
      obtain ⟨w1, w2⟩ := hw hc
      split
      · exact ⟨hj, hz⟩
      · next h3 =>
        have w2 := w2 (by simpa using h3)
        split
        · exact ⟨hj, hz⟩
        · next h4 =>
          cases back with
          | false =>
            have w1 : (t.past 0).point.x ≤ t.point.x := w1
            rw [if_neg (by omega)]
            refine ⟨hj, ?_⟩
            have : t.xmoves = 0 := hm
            show t.xmoves / 2 = 0
            omega
          | true =>
            have w1 : t.point.x ≤ (t.past 0).point.x := w1
            have hm : t.xmoves = 0 ∨ t.xmoves = 4 ∨ t.xmoves = 6 ∨ t.xmoves = 7 := hm
            by_cases hx : (t.past 0).point.x - t.point.x > 0
            · rw [if_pos hx]
              refine ⟨?_, ?_⟩
              · show (p.jitter || (t.xmoves / 2 % 4 + 4 == 5)) = false
                rw [hj]
                rcases hm with h | h | h | h <;> rw [h] <;> rfl
              · show t.xmoves / 2 % 4 + 4 = 0 ∨ t.xmoves / 2 % 4 + 4 = 4 ∨ t.xmoves / 2 % 4 + 4 = 6 ∨ t.xmoves / 2 % 4 + 4 = 7
                omega
            · exfalso
              apply w2
              have h5 : (t.past 0).point.x = t.point.x := by omega
              have h6 : (t.past 0).point.y = t.point.y := by
                apply Decidable.byContradiction
                intro h6
                exact h4 (Or.inl ⟨by omega, by omega⟩)
              cases hp : t.point
              cases hq : (t.past 0).point
              rw [hp, hq] at h5 h6
              simp_all

theorem process_way {c : Config} {f : Frame} {want motion : Bool} {p : Pad} {t : Touch} {back : Bool} (hj : p.jitter = false)
    (ha : c.alps = false) (hm : Marks back t.xmoves)
    (hw : t.count ≠ 0 → Way back (t.past 0).point t.point ∧ (motion = true → t.point ≠ (t.past 0).point)) :
    (process c f want motion p t).1.jitter = false ∧ Marks back (process c f want motion p t).2.xmoves := by
  by_cases hn : t.st = .none
  · rw [process_none c f want motion p t hn]; exact ⟨hj, hm⟩
  · rw [process_eq c f want motion p t hn]
    have hf := forget_fields want t
    have hfs := forget_same want t
    split
    · exact ⟨hj, by show Marks back (forget want t).xmoves; rw [hf.2.2.2.1]; exact hm⟩
    · have hjf := jumps_fields c (forget want t) f.time
      have hjs := jumps_same c (forget want t) f.time
      obtain ⟨j, hjj⟩ : ∃ j, jumps c (forget want t) f.time = j := ⟨_, rfl⟩
      rw [hjj] at hjf hjs
      have hww : ∀ u : Touch, u = (if j.2 then reset j.1 else j.1) → u.xmoves = t.xmoves ∧ u.point = t.point ∧
          (u.past 0) = t.past 0 ∧ (u.count ≠ 0 → t.count ≠ 0) := by
        rintro u rfl
        have h1 : (if j.2 then reset j.1 else j.1).xmoves = j.1.xmoves := by split <;> rfl
        have h2 : (if j.2 then reset j.1 else j.1).point = j.1.point := by split <;> rfl
        have h3 : (if j.2 then reset j.1 else j.1).past 0 = j.1.past 0 := by split <;> rfl
        have h4 : (if j.2 then reset j.1 else j.1).count ≤ j.1.count := by
          split
          · exact Nat.zero_le _
          · exact Nat.le_refl _
        refine ⟨h1.trans (hjf.2.2.2.2.1.trans hf.2.2.2.1), h2.trans ((hjf.2.2.2.2.2.2.2.2 ha).trans hf.1),
          h3.trans ((hjs.past 0).trans (hfs.past 0)), ?_⟩
        intro h
        have := hjf.1
        have := hf.2.2.2.2.2.2.2.1
        omega
      obtain ⟨u, hu⟩ : ∃ u, (if j.2 then reset j.1 else j.1) = u := ⟨_, rfl⟩
      obtain ⟨u1, u2, u3, u4⟩ := hww u hu.symm
      have key := wobbling_way (p := p) (t := u) (n := f.fingers) (m := motion) (time := f.time) (back := back) hj
        (by rw [u1]; exact hm) (by rw [u2, u3]; exact fun h => hw (u4 h))
      have hr1 : (ready c p f motion (forget want t)).1 = (wobbling p u f.fingers motion f.time).1 := by
        simp only [ready, hjj, hu]
      have hr2 : (ready c p f motion (forget want t)).2.xmoves = (wobbling p u f.fingers motion f.time).2.xmoves := by
        simp only [ready, hjj, hu]
        exact (steady_fields c _ _).2.2.2.2.2.2.2.1
      refine ⟨by show (ready c p f motion (forget want t)).1.jitter = false; rw [hr1]; exact key.1, ?_⟩
      show Marks back (unpin c _).xmoves
      rw [(unpin_fields c _).2.2.2.2.2.1, (calcSpeed_fields c _ _).2.2.2.2.2.2.1]
      show Marks back (ready c p f motion (forget want t)).2.xmoves
      rw [hr2]; exact key.2

theorem processAll_way {c : Config} {f : Frame} {want motion : Bool} (ts : List Touch) : ∀ {p : Pad}, p.jitter = false →
    (∀ t ∈ ts, ∀ q : Pad, q.jitter = false → (process c f want motion q t).1.jitter = false) →
    (processAll c f want motion p ts).1.jitter = false := by
  induction ts with
  | nil => exact fun h _ => h
  | cons t ts ih =>
    intro p hp h
    exact ih (h t (List.mem_cons_self ..) p hp) (fun u hu => h u (List.mem_cons_of_mem _ hu))

/-- A frame in which one touch goes on one way, and the others are not there. -/
theorem frame_way {c : Config} {s : State} {f : Frame} {i : Nat} {t : Touch} {back : Bool} (hj : s.pad.jitter = false)
    (ha : c.alps = false) (ht : s.touches[i]? = some t) (hst : (see i f).st = .begin ∨ (see i f).st = .update)
    (hothers : ∀ j, j ≠ i → (see j f).st = .none) (hm : (see i f).fresh = true ∨ Marks back t.xmoves)
    (hw : (see i f).fresh = true ∨ (see i f).landed = true ∨
      (Way back (t.past 0).point (seen c s.pad t.point (see i f)) ∧
        (f.motion = true → seen c s.pad t.point (see i f) ≠ (t.past 0).point))) :
    (frame c s f).1.pad.jitter = false ∧ ∃ t', (frame c s f).1.touches[i]? = some t' ∧ Marks back t'.xmoves := by
  have hz : Marks back 0 := by cases back <;> simp [Marks]
  have hne : (see i f).st ≠ .none := by rcases hst with h | h <;> rw [h] <;> simp
  have hv := see_of_st hne
  have hb := before_spec c (mscFrame s.pad f).1 f
    ((mscFrame s.pad f).2.map (fun j => (j, (mscFrame s.pad f).1.interval))) t (see i f)
  obtain ⟨b, hbb⟩ : ∃ b, bef c s f t (see i f) = b := ⟨_, rfl⟩
  have hb' : before c (mscFrame s.pad f).1 f
    ((mscFrame s.pad f).2.map (fun j => (j, (mscFrame s.pad f).1.interval))) t (see i f) = b := hbb
  rw [hb'] at hb
  obtain ⟨b1, b2, b3, b4, b5, b6, b7, b8, b9, b10, b11, b12, b13, b14⟩ := hb
  have hbx : Marks back b.xmoves := by
    rw [b11]
    rcases hm with h | h
    · rw [h]; exact hz
    · split
      · exact hz
      · exact h
  have hbw : b.count ≠ 0 → Way back (b.past 0).point b.point ∧
      (motionOf c s f = true → b.point ≠ (b.past 0).point) := by
    intro hc
    have hp : b.point = seen c s.pad t.point (see i f) := by
      rw [b13 (by rcases hst with h | h <;> rw [h] <;> simp)]
      have hm := (mscFrame_pad s.pad f).2.2.2.1
      simp only [seen, rotated, hm]
    rw [b5, hp]
    rcases hw with h | h | ⟨h1, h2⟩
    · rw [b4, h] at hc; simp at hc
    · rw [b4, h] at hc; simp at hc
    · exact ⟨h1, fun h => h2 (motionOf_motion h)⟩
  refine ⟨?_, ?_⟩
  · rw [frame_jitter_eq]
    apply processAll_way
    · exact ((mscFrame_pad s.pad f).1).trans hj
    · intro u hu q hq
      obtain ⟨j, hjl, hju⟩ := List.mem_iff_getElem.1 hu
      simp only [List.length_map, List.length_zip] at hjl
      have hu' : u = bef c s f s.touches[j] f.views[j] := by rw [← hju]; simp
      have hs : see j f = f.views[j] := by simp [see, show j < f.views.length by omega]
      by_cases hji : j = i
      · subst hji
        have : s.touches[j] = t := by
          have h := List.getElem?_eq_getElem (l := s.touches) (i := j) (by omega)
          rw [h] at ht; exact Option.some.inj ht
        rw [this, ← hs, hbb] at hu'
        rw [hu']
        exact (process_way hq ha hbx hbw).1
      · rw [process_none]
        · exact hq
        · rw [hu']
          refine (before_spec c _ f _ _ _).1.trans ?_
          rw [← hs]; exact hothers j hji
  · obtain ⟨q, h1, h2, h3, h4⟩ := frame_get c s f i t _ ht hv
    refine ⟨_, h3, ?_⟩
    have hp : ∀ u, (pinIf c f u).xmoves = u.xmoves := fun u => by simp only [pinIf]; split <;> rfl
    show Marks back (pinIf c f _).xmoves
    rw [hp, hbb]
    by_cases hqj : q.jitter = false
    · exact (process_way hqj ha hbx hbw).2
    · -- then nothing is marked
      rw [process_eq c f _ _ q b (by rw [b1]; exact hne)]
      split
      · show Marks back (forget _ b).xmoves
        rw [(forget_fields _ b).2.2.2.1]; exact hbx
      · show Marks back (unpin c _).xmoves
        rw [(unpin_fields c _).2.2.2.2.2.1, (calcSpeed_fields c _ _).2.2.2.2.2.2.1]
        show Marks back (ready c q f _ (forget _ b)).2.xmoves
        simp only [ready]
        rw [(steady_fields c _ _).2.2.2.2.2.2.2.1]
        have hw0 : ∀ u, (wobbling q u f.fingers (motionOf c s f) f.time).2.xmoves = u.xmoves := by
          intro u
          simp only [wobbling]
          split
          · rfl
          · rw [if_pos (Or.inl (by simpa using hqj))]
        rw [hw0]
        have hjx := (jumps_fields c (forget (wants c s f) b) f.time).2.2.2.2.1
        have hfx := (forget_fields (wants c s f) b).2.2.2.1
        split
        · show Marks back (jumps c (forget (wants c s f) b) f.time).1.xmoves
          rw [hjx, hfx]; exact hbx
        · rw [hjx, hfx]; exact hbx

end Libinput.Follow
