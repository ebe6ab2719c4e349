import Verif.Touch.Kernel
/-
Which touches are there and how many are down.
-/
namespace Libinput.Touch
open Spec

/-! Slots. -/

/-- The touches follow the slots. -/
structure Follows (num : Nat) (s : Pad) (k : Kernel) : Prop where
  mt : s.cfg.hasMt = true
  syn : s.cfg.synaptics = false
  len : num ≤ s.touches.length
  le : s.num ≤ num
  slot : s.slot = k.slot
  range : k.slot < num
  ended : ∃ e : Nat → Bool, (∀ (j : Nat) t, s.touches[j]? = some t → Ended (e j) t) ∧ ∀ j, j < s.num → e j = !k.landed j

theorem ended_congr {b : Bool} {t t' : Finger} (h : Ended b t) (h1 : t'.st = t.st) (h2 : t'.hasEnded = t.hasEnded) : Ended b t' := by
  unfold Ended at *; rw [h1, h2]; exact h

theorem current_eq {num : Nat} {s : Pad} {k : Kernel} (h : Follows num s k) : s.current = k.slot := by
  unfold Pad.current
  rw [h.slot]
  have := h.len; have := h.range
  omega

theorem tracking_follows {num : Nat} {ds : List Bool} {s : Pad} {k : Kernel} (hb : Between ds s) (h : Follows num s k) (b : Bool) :
    Follows num (s.tracking b) (k.follow (.tracking b)) := by
  have hc := current_eq h
  obtain ⟨e, h1, h2⟩ := h.ended
  have key : ∀ (s' : Pad) (f : Acc → Finger → Acc × Finger), s'.touches = s.touches → s'.slot = s.slot →
      (∀ a c t, Ended c t → t.st ≠ .end_ → Ended (!b) (f a t).2) →
      ∀ (j : Nat) t, (s'.onCurrent f).touches[j]? = some t → Ended (put e k.slot (!b) j) t := by
    intro s' f ht hs hf
    have hcur : s'.current = k.slot := by rw [← hc]; simp [Pad.current, ht, hs]
    refine loop_idx (R := fun j t => Ended (e j) t ∧ t.st ≠ .end_) (Q := fun j t => Ended (put e k.slot (!b) j) t) ?_ ?_
    · intro i a t hr
      rw [hcur]
      by_cases hi : i = k.slot
      · simp only [if_pos hi, put]; exact hf a _ t hr.1 hr.2
      · simp only [if_neg hi, put]; exact hr.1
    · rw [ht]; exact fun j t hj => ⟨h1 j t hj, hb.notEnd t (List.mem_of_getElem? hj)⟩
  have he : ∀ j, j < s.num → put e k.slot (!b) j = !(k.follow (.tracking b)).landed j := by
    intro j hj
    simp only [Kernel.follow, put]
    split
    · rfl
    · exact h2 j hj
  unfold Pad.tracking
  cases b with
  | true =>
    exact ⟨h.mt, h.syn, by simp only [if_true, Pad.onCurrent]; rw [(loop_same _ _).len]; exact h.len, h.le, h.slot, h.range,
      _, key { s with active := s.active + 1 } newTouch rfl rfl (fun a c t hr hn => newTouch_ended a hr hn), he⟩
  | false =>
    exact ⟨h.mt, h.syn, by simp only [Pad.onCurrent]; rw [if_neg (by simp), (loop_same _ _).len]; exact h.len, h.le, h.slot, h.range,
      _, key { s with active := s.active - 1, acc := { s.acc with aborted := s.acc.aborted || s.active == 0 } }
        endSequence rfl rfl (fun a c t hr hn => endSequence_ended a hr hn), he⟩

theorem handle_num (s : Pad) (hsyn : s.cfg.synaptics = false) :
    s.handle.1.num = if s.fake.count = 128 then s.num else s.fewerSlots.num := by
  have h4 : Same s.processFake s.handle.1 := by
    rw [handle_eq]
    exact (((unhover_same _).trans (loop_same _ _)).trans (positionFake_same _)).trans (postProcess_same _)
  rw [h4.num, processFake_eq]
  split
  · rfl
  · have e1 : s.beforeFake = s.fewerSlots := by simp [Pad.beforeFake, hsyn]
    rw [e1, (loop_same _ _).num]

theorem follows_step {num : Nat} {ds : List Bool} {s : Pad} {k : Kernel} (hb : Between ds s) (h : Follows num s k) (op : Op)
    (hv : Valid num k [op]) (hs : SameSlot k [op]) : Follows num (step s op).1 (k.follow op) := by
  have hv := hv.1
  have hs := hs.1
  obtain ⟨e, h1, h2⟩ := h.ended
  cases op with
  | slot v =>
    simp only [step, h.mt, if_true]
    exact ⟨h.mt, h.syn, h.len, h.le, rfl, hv, e, h1, h2⟩
  | tracking b =>
    simp only [step, h.mt, if_true]
    exact tracking_follows hb h b
  | axis ax v =>
    simp only [step, h.mt, Bool.true_or, if_true]
    refine ⟨h.mt, h.syn, by rw [Pad.onCurrent, (loop_same _ _).len]; exact h.len, h.le, h.slot, h.range, e, ?_, h2⟩
    refine loop_idx (R := fun j t => Ended (e j) t) (Q := fun j t => Ended (e j) t) (fun i a t ht => ?_) h1
    dsimp only
    split
    · exact ended_congr ht (setAxis_st _ _ _) (setAxis_hasEnded _ _ _)
    · exact ht
  | key k' p => exact ⟨h.mt, h.syn, h.len, h.le, h.slot, h.range, e, h1, h2⟩
  | syn =>
    have h3 := handle_same s
    have h4 := handle_ended hb h.syn h1
    simp only [step]
    refine ⟨by rw [h3.2.1]; exact h.mt, by rw [h3.2.1]; exact h.syn, by rw [h3.2.2.2.2.2.2]; exact h.len,
      Nat.le_trans h3.2.2.2.2.1 h.le, by rw [h3.2.2.1]; exact h.slot, h.range, endedBy s e, fun j t ht => (h4 j t ht).1, ?_⟩
    intro j hj
    have hlt : j < s.num := Nat.lt_of_lt_of_le hj h3.2.2.2.2.1
    rw [handle_num s h.syn] at hj
    have : s.fake.count = 128 ∨ j < s.fewerSlots.firstFake := by
      by_cases hc : s.fake.count = 128
      · exact Or.inl hc
      · rw [if_neg hc] at hj
        right
        have : s.fewerSlots.firstFake = s.fewerSlots.num := by
          unfold Pad.firstFake; rw [(fewerSlots_same s).2.1, h.mt]; simp
        omega
    unfold endedBy
    rw [if_pos this]
    exact h2 j hlt
  | clear =>
    have h3 := clear_same s
    have h4 := clear_between hb
    simp only [step]
    refine ⟨by rw [h3.2.1]; exact h.mt, by rw [h3.2.1]; exact h.syn, by rw [h3.2.2.2.2.2]; exact h.len,
      Nat.le_trans h3.2.2.2.1 h.le, by rw [h3.2.2.1]; exact h.slot, h.range, fun _ => true, fun j t ht => ?_, fun j _ => rfl⟩
    have := h4.2.2.2.2.1 t (List.mem_of_getElem? ht)
    simp [Ended, this]
  | sync v ks =>
    simp only [step]
    have hv' : v = k.slot := hs
    refine ⟨h.mt, h.syn, ?_, h.le, ?_, hv.2.1, e, ?_, h2⟩
    · show num ≤ (s.sync ks).touches.length
      exact Nat.le_trans h.len (Nat.le_of_eq (loop_same s (syncOne (max s.num 1) ks)).len.symm)
    · show s.slot = v
      rw [hv']; exact h.slot
    · exact loop_idx (R := fun j t => Ended (e j) t) (Q := fun j t => Ended (e j) t) (f := syncOne (max s.num 1) ks) (fun i a t ht => by
        obtain ⟨_, e2, _, e4⟩ := syncOne_same (max s.num 1) ks i a t
        exact ended_congr ht e2 e4) h1

theorem sameSlot_cons (k : Kernel) (op : Op) (ops : List Op) :
    SameSlot k (op :: ops) ↔ SameSlot k [op] ∧ SameSlot (k.follow op) ops := by
  simp only [SameSlot, and_true]

theorem follows_run {num : Nat} {ds : List Bool} {s : Pad} {k : Kernel} (hb : Between ds s) (h : Follows num s k) (ops : List Op)
    (hv : Valid num k ops) (hs : SameSlot k ops) : Follows num (run s ops).1 (k.after ops) := by
  induction ops generalizing ds s k with
  | nil => exact h
  | cons op ops ih =>
    rw [valid_cons] at hv
    rw [sameSlot_cons] at hs
    rw [run_cons]
    exact ih (step_between hb op).1 (follows_step hb h op hv.1 hs.1) hv.2 hs.2

theorem fresh_ended (cfg : Config) (num n slot : Nat) (ks : List Slot) (finger : Bool) :
    ∀ (j : Nat) t, (init cfg num n slot ks finger).touches[j]? = some t → Ended true t := by
  intro j t ht
  obtain ⟨a', t0, h0, e⟩ := each_get _ _ _ _ _ _ ht
  have : t0 = {} := by
    have := List.mem_of_getElem? h0
    exact (List.mem_replicate.mp this).2
  rw [e]
  have h2 := syncOne_same (max num 1) ks (0 + j) a' t0
  exact ended_congr (t := t0) (by rw [this]; simp [Ended]) h2.2.1 h2.2.2.2

theorem init_follows (cfg : Config) (num n slot : Nat) (ks : List Slot) (finger : Bool) (hm : cfg.hasMt = true)
    (hsyn : cfg.synaptics = false) (hn : num ≤ n) (hsl : slot < num) :
    Follows num (init cfg num n slot ks finger) (Kernel.start slot ks) := by
  refine ⟨hm, hsyn, ?_, Nat.le_refl _, rfl, hsl, fun _ => true, fresh_ended cfg num n slot ks finger, fun j _ => rfl⟩
  have h := loop_same { cfg := cfg, touches := List.replicate n {}, slot := slot, num := num : Pad } (syncOne (max num 1) ks)
  have h2 : (init cfg num n slot ks finger).touches.length = n := h.len.trans (List.length_replicate ..)
  omega

theorem init_enough (cfg : Config) (num n slot : Nat) (ks : List Slot) (finger : Bool)
    (ha : cfg.alps = false) (hsl : slot < num) :
    Enough num (init cfg num n slot ks finger) (Kernel.start slot ks) := by
  refine ⟨ha, rfl, hsl, fun _ => ?_, (init_between cfg num n slot ks finger).2.2⟩
  simp only [Kernel.start, ons_going, init, Pad.sync]
  rw [show max num 1 = num by omega]
  omega

/-! Without the Synaptics workaround the two ways to tell that a sequence is over agree. -/

/-- Every touch is consistent. -/
def Tidy (s : Pad) : Prop := ∃ e : Nat → Bool, ∀ (j : Nat) t, s.touches[j]? = some t → Ended (e j) t

theorem tidy_step {ds : List Bool} {s : Pad} (hb : Between ds s) (hsyn : s.cfg.synaptics = false) (h : Tidy s) (op : Op) :
    Tidy (step s op).1 ∧ (step s op).1.cfg = s.cfg := by
  obtain ⟨e, h1⟩ := h
  have hne : ∀ (j : Nat) t, s.touches[j]? = some t → Ended (e j) t ∧ t.st ≠ .end_ :=
    fun j t hj => ⟨h1 j t hj, hb.notEnd t (List.mem_of_getElem? hj)⟩
  have key : ∀ (s' : Pad) (f : Acc → Finger → Acc × Finger) (b : Bool), s'.touches = s.touches →
      (∀ a c t, Ended c t → t.st ≠ .end_ → Ended b (f a t).2) → Tidy (s'.onCurrent f) := by
    intro s' f b ht hf
    refine ⟨put e s'.current b, loop_idx (R := fun j t => Ended (e j) t ∧ t.st ≠ .end_)
      (Q := fun j t => Ended (put e s'.current b j) t) ?_ (by rw [ht]; exact hne)⟩
    intro i a t hr
    by_cases hi : i = s'.current
    · simp only [if_pos hi, put]; exact hf a _ t hr.1 hr.2
    · simp only [if_neg hi, put]; exact hr.1
  cases op with
  | slot v => simp only [step]; split <;> exact ⟨⟨e, h1⟩, rfl⟩
  | tracking b =>
    simp only [step]
    split
    · unfold Pad.tracking
      split
      · exact ⟨key { s with active := s.active + 1 } newTouch false rfl (fun a c t hr hn => newTouch_ended a hr hn), rfl⟩
      · exact ⟨key { s with active := s.active - 1, acc := { s.acc with aborted := s.acc.aborted || s.active == 0 } }
          endSequence true rfl (fun a c t hr hn => endSequence_ended a hr hn), rfl⟩
    · exact ⟨⟨e, h1⟩, rfl⟩
  | axis ax v =>
    simp only [step]
    split
    · refine ⟨⟨e, loop_idx (R := fun j t => Ended (e j) t) (Q := fun j t => Ended (e j) t) (fun i a t ht => ?_) h1⟩, rfl⟩
      dsimp only
      split
      · exact ended_congr ht (setAxis_st _ _ _) (setAxis_hasEnded _ _ _)
      · exact ht
    · exact ⟨⟨e, h1⟩, rfl⟩
  | key k' p => exact ⟨⟨e, h1⟩, rfl⟩
  | syn => exact ⟨⟨_, fun j t ht => (handle_ended hb hsyn h1 j t ht).1⟩, (handle_same s).2.1⟩
  | clear =>
    have h4 := clear_between hb
    exact ⟨⟨fun _ => true, fun j t ht => by
      have := h4.2.2.2.2.1 t (List.mem_of_getElem? ht)
      simp [Ended, this]⟩, (clear_same s).2.1⟩
  | sync v ks =>
    exact ⟨⟨e, loop_idx (R := fun j t => Ended (e j) t) (Q := fun j t => Ended (e j) t) (f := syncOne (max s.num 1) ks)
      (fun i a t ht => by
        obtain ⟨_, e2, _, e4⟩ := syncOne_same (max s.num 1) ks i a t
        exact ended_congr ht e2 e4) h1⟩, rfl⟩

theorem tidy_run {ds : List Bool} {s : Pad} (hb : Between ds s) (hsyn : s.cfg.synaptics = false) (h : Tidy s) (ops : List Op) :
    Tidy (run s ops).1 ∧ (run s ops).1.cfg = s.cfg := by
  induction ops generalizing ds s with
  | nil => exact ⟨h, rfl⟩
  | cons op ops ih =>
    have h1 := tidy_step hb hsyn h op
    have h2 := ih (step_between hb op).1 (by rw [h1.2]; exact hsyn) h1.1
    rw [run_cons]
    exact ⟨h2.1, h2.2.trans h1.2⟩

/-! Counting. -/

theorem countP_idx {p q : Finger → Bool} : ∀ {a b : List Finger}, a.length = b.length →
    (∀ (j : Nat) t u, a[j]? = some t → b[j]? = some u → p t = q u) → a.countP p = b.countP q
  | [], [], _, _ => rfl
  | t :: a, u :: b, hl, h => by
    have h1 := h 0 t u (by simp) (by simp)
    have h2 := countP_idx (a := a) (b := b) (by simpa using hl)
      (fun j t u h1 h2 => h (j + 1) t u (by simpa using h1) (by simpa using h2))
    simp only [List.countP_cons, h1, h2]
  | [], _ :: _, hl, _ => by simp at hl
  | _ :: _, [], hl, _ => by simp at hl

/-- The hovering touches. -/
def hovers (ts : List Finger) : Nat := ts.countP fun t => t.st == .hovering

theorem begin_count (nfake : Nat) : ∀ (ts : List Finger) (i : Nat) (a : Acc), (a.done = false → a.n < nfake) →
    (each (beginOne nfake) i a ts).1.n = if a.done then a.n else min nfake (a.n + hovers ts)
  | [], i, a, h => by
    rw [each_nil]
    cases hd : a.done
    · have := h hd; simp [hovers]; omega
    · simp
  | t :: ts, i, a, h => by
    rw [each_cons]
    cases hd : a.done
    · have hlt := h hd
      by_cases hs : t.st = .hovering
      · have e : (beginOne nfake i a t).1 = { a with n := a.n + 1, done := decide (a.n + 1 ≥ nfake) } := by
          simp [beginOne, hd, hs, beginTouch]
        rw [begin_count nfake ts (i + 1) _ (by rw [e]; intro h; simpa using h)]
        rw [e]
        have hh : hovers (t :: ts) = hovers ts + 1 := by simp [hovers, hs]
        rw [hh]
        by_cases hg : a.n + 1 ≥ nfake
        · simp only [hg, decide_true, if_true, Bool.false_eq_true, if_false]; omega
        · simp only [hg, decide_false, Bool.false_eq_true, if_false]; omega
      · have e : (beginOne nfake i a t).1 = a := by simp [beginOne, hd, hs]
        rw [begin_count nfake ts (i + 1) _ (by rw [e]; exact h)]
        rw [e, hd]
        simp [hovers, hs]
    · have e : (beginOne nfake i a t).1 = a := by simp [beginOne, hd]
      rw [begin_count nfake ts (i + 1) _ (by rw [e]; exact h)]
      rw [e, hd]
      simp

theorem end_count (all : Bool) (nfake : Nat) : ∀ (ts : List Finger) (i : Nat) (a : Acc), downs ts ≤ a.n →
    (all = false → a.done = false → nfake < a.n) → (all = true → a.done = false) → (a.done = true → a.n = nfake) →
    (each (endOne all nfake) i a ts).1.n =
      if all then a.n - downs ts else if a.done then nfake else max nfake (a.n - downs ts)
  | [], i, a, h0, h1, h2, h3 => by
    rw [each_nil]
    simp only [downs, List.countP_nil, Nat.sub_zero]
    cases all
    · cases hd : a.done
      · have := h1 rfl hd; simp; omega
      · have := h3 hd; simpa using this
    · simp
  | t :: ts, i, a, h0, h1, h2, h3 => by
    rw [each_cons]
    rw [downs_cons] at h0
    by_cases hd : a.done = true
    · have e : (endOne all nfake i a t).1 = a := by simp [endOne, hd]
      rw [end_count all nfake ts (i + 1) _ (by rw [e]; omega) (by rw [e]; exact h1) (by rw [e]; exact h2) (by rw [e]; exact h3)]
      rw [e, hd]
      cases all
      · simp
      · exact absurd (h2 rfl) (by simp [hd])
    · have hd' : a.done = false := by simpa using hd
      by_cases hz : t.st = .hovering ∨ t.st = .none
      · have e : (endOne all nfake i a t).1 = a := by
          rcases hz with hz | hz <;> simp [endOne, hz]
        have hdn : dn t = 0 := by rcases hz with hz | hz <;> simp [dn, Finger.down, hz]
        rw [end_count all nfake ts (i + 1) _ (by rw [e]; omega) (by rw [e]; exact h1) (by rw [e]; exact h2) (by rw [e]; exact h3)]
        rw [e, downs_cons, hdn]
        simp
      · have e : (endOne all nfake i a t).1.n = a.n - dn t ∧
            (endOne all nfake i a t).1.done = (!all && (a.n - dn t == nfake)) := by
          unfold endOne
          rw [hd']
          cases hs : t.st <;> simp_all [maybeEndTouch, dn, Finger.down]
        rw [end_count all nfake ts (i + 1) _ (by rw [e.1]; omega)
          (by
            intro ha hdn
            rw [e.2, ha] at hdn
            rw [e.1]
            have := h1 ha hd'
            have hne : a.n - dn t ≠ nfake := by simpa using hdn
            have : dn t ≤ 1 := by unfold dn; split <;> omega
            omega)
          (by intro ha; rw [e.2, ha]; rfl)
          (by
            intro hdn
            rw [e.2] at hdn
            rw [e.1]
            simp at hdn; exact hdn.2)]
        rw [e.1, e.2, hd', downs_cons]
        cases all
        · have := h1 rfl hd'
          have hle : dn t ≤ 1 := by unfold dn; split <;> omega
          simp only [Bool.not_false, Bool.true_and, beq_iff_eq, Bool.false_eq_true, if_false]
          split <;> omega
        · simp; omega

theorem present_split (ts : List Finger) : ts.countP present = hovers ts + downs ts := by
  induction ts with
  | nil => rfl
  | cons t ts ih =>
    simp only [List.countP_cons, hovers, downs] at *
    rw [ih]
    cases hs : t.st <;> simp [present, Finger.down, hs] <;> omega

/-- How many touches are down when it is decided by the buttons. -/
theorem unhoverFake_count {ds : List Bool} {s : Pad} (h : Between ds s) (hc : s.fake.count ≠ 128) :
    s.unhoverFake.acc.n = if s.fake.touch then min s.fake.count (s.touches.countP present) else 0 := by
  have hn : s.acc.n = downs s.touches := h.counted
  have hp := present_split s.touches
  unfold Pad.unhoverFake
  by_cases h1 : s.fake.any = false ∧ s.fingers = 0
  · rw [if_pos h1]
    have : s.fake.touch = false := by
      have := h1.1; unfold Fake.any at this; cases ht : s.fake.touch
      · rfl
      · rw [ht] at this; simp at this
    rw [this]; exact h1.2
  · rw [if_neg h1, if_neg hc]
    by_cases h2 : s.fingers = s.fake.count ∧ ((s.fingers = 0 ∧ s.fake.touch = false) ∨ (s.fingers > 0 ∧ s.fake.touch = true))
    · rw [if_pos h2]
      have hf : s.acc.n = s.fake.count := h2.1
      rcases h2.2 with ⟨h3, h4⟩ | ⟨h3, h4⟩
      · rw [h4]; exact h3
      · rw [h4, if_pos rfl]; omega
    · rw [if_neg h2]
      dsimp only
      · skip
        by_cases hb : s.fake.touch = true ∧ s.fingers < s.fake.count
        · rw [if_pos hb]
          have e : (s.loop (beginOne s.fake.count)).acc.n = min s.fake.count (s.acc.n + hovers s.touches) := by
            have := begin_count s.fake.count s.touches 0 { s.acc with done := false } (fun _ => hb.2)
            simp only [Bool.false_eq_true, if_false] at this
            exact this
          rw [if_neg]
          · rw [e, hb.1, if_pos rfl, hn, hp]; omega
          · simp only [Pad.fingers, e, hb.1]; simp; omega
        · rw [if_neg hb]
          have h0 : downs s.touches.reverse ≤ s.acc.n := by rw [downs_reverse, hn]; exact Nat.le_refl _
          by_cases ht : s.fake.touch = true
          · rw [ht, if_pos rfl]
            have hge : s.fake.count ≤ s.acc.n := by
              have : ¬ (s.acc.n < s.fake.count) := fun hlt => hb ⟨ht, hlt⟩
              omega
            by_cases hgt : s.fingers > s.fake.count
            · rw [if_pos (Or.inl hgt)]
              have := end_count false s.fake.count s.touches.reverse 0 { s.acc with done := false } h0
                (fun _ _ => hgt) (by simp) (by simp)
              simp only [Pad.loopBack, Bool.not_true]
              rw [this]
              simp only [downs_reverse]
              have : s.fake.count < s.acc.n := hgt
              simp; omega
            · rw [if_neg (by rintro (h | h) <;> simp_all)]
              have : ¬ s.acc.n > s.fake.count := hgt
              omega
          · have hf : s.fake.touch = false := by simpa using ht
            rw [hf, if_pos (Or.inr rfl)]
            have := end_count true s.fake.count s.touches.reverse 0 { s.acc with done := false } h0 (by simp) (by simp) (by simp)
            simp only [Pad.loopBack, Bool.not_false]
            rw [this]
            simp only [downs_reverse]
            simp; omega

theorem each_n (f : Nat → Acc → Finger → Acc × Finger) (hf : ∀ i a t, (f i a t).1.n = a.n) :
    ∀ (ts : List Finger) (i : Nat) (a : Acc), (each f i a ts).1.n = a.n
  | [], _, _ => rfl
  | t :: ts, i, a => by rw [each_cons]; exact (each_n f hf ts _ _).trans (hf i a t)

theorem handle_n (s : Pad) : s.handle.1.acc.n = s.processFake.unhover.acc.n := by
  rw [handle_eq, (post_loop _).2.1]
  have h1 : s.preProcess.acc.n = s.processFake.unhover.acc.n :=
    each_n endEnding (fun i a t => by unfold endEnding endTouch; cases t.st <;> simp) _ _ _
  have h2 : s.preProcess.positionFake.acc.n = s.preProcess.acc.n := by
    unfold Pad.positionFake
    split
    · rfl
    · split
      · rfl
      · exact each_n _ (fun i a t => by unfold positionOne; rw [apply_ite Prod.fst]; exact ite_self _ ▸ rfl) _ _ _
  rw [h2, h1]

/-- How many touches are there before it is decided which of them are down, and after the frame. -/
theorem handle_present {e : Nat → Bool} {ds : List Bool} {s : Pad} (hb : Between ds s) (hsyn : s.cfg.synaptics = false)
    (h : ∀ (j : Nat) t, s.touches[j]? = some t → Ended (e j) t) :
    s.processFake.touches.countP present = s.handle.1.touches.countP fun t => t.st != .none := by
  apply countP_idx
  · have h4 : Same s.processFake s.handle.1 := by
      rw [handle_eq]
      exact (((unhover_same _).trans (loop_same _ _)).trans (positionFake_same _)).trans (postProcess_same _)
    exact h4.len.symm
  · intro j t u ht hu
    have h1 := processFake_ended hb hsyn h j t ht
    have h2 := handle_ended hb hsyn h j u hu
    have h3 := (processFake_between hb).1.ev.mem t (List.mem_of_getElem? ht)
    obtain ⟨d, hd⟩ := h3
    have h4 := hd.notEnd
    have h5 := hd.notBegin
    have h6 := h2.2
    have h7 := h1.2
    have h8 := h2.1.2
    cases hst : t.st <;> cases hsu : u.st <;> simp_all [present, Finger.down]

end Libinput.Touch
