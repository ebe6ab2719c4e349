import Verif.Touch.Life
/-
The touches and the kernel's slots.
-/
namespace Libinput.Touch
open Spec

/-! What a frame leaves alone. -/

/-- Nothing but touches and counters changed. -/
structure Same (s s' : Pad) : Prop where
  active : s'.active = s.active
  cfg : s'.cfg = s.cfg
  slot : s'.slot = s.slot
  fake : s'.fake = s.fake
  num : s'.num = s.num
  len : s'.touches.length = s.touches.length

theorem Same.refl (s : Pad) : Same s s := ⟨rfl, rfl, rfl, rfl, rfl, rfl⟩
theorem Same.trans {a b c : Pad} (h : Same a b) (h' : Same b c) : Same a c :=
  ⟨h'.active.trans h.active, h'.cfg.trans h.cfg, h'.slot.trans h.slot, h'.fake.trans h.fake, h'.num.trans h.num,
    h'.len.trans h.len⟩

theorem loop_same (s : Pad) (f : Nat → Acc → Finger → Acc × Finger) : Same s (s.loop f) :=
  ⟨rfl, rfl, rfl, rfl, rfl, each_length _ _ _ _⟩
theorem loopBack_same (s : Pad) (f : Nat → Acc → Finger → Acc × Finger) : Same s (s.loopBack f) :=
  ⟨rfl, rfl, rfl, rfl, rfl, by simp [Pad.loopBack, each_length]⟩

theorem restore_same (s : Pad) : Same s s.restore := by
  unfold Pad.restore
  split
  · exact Same.refl s
  · split
    · exact Same.refl s
    · exact loop_same s _

theorem Same.ite {s a b : Pad} {c : Prop} [Decidable c] (ha : Same s a) (hb : Same s b) : Same s (if c then a else b) := by
  split
  · exact ha
  · exact hb

theorem unhover_same (s : Pad) : Same s s.unhover := by
  unfold Pad.unhover
  split
  · rw [unhoverPressure_eq]
    dsimp only
    refine Same.ite (loop_same s _) ?_
    have h : ∀ {s1 : Pad} {c : Prop} [Decidable c] (n : Nat), Same s1 (if c then s1.loop (beginOne n) else s1) :=
      fun n => Same.ite (loop_same _ _) (Same.refl _)
    exact (loop_same s _).trans (Same.ite ((h _).trans (loopBack_same _ _)) (h _))
  · exact loop_same s _
  · unfold Pad.unhoverFake
    dsimp only
    have h : ∀ {s1 : Pad} {c : Prop} [Decidable c] (n : Nat), Same s1 (if c then s1.loop (beginOne n) else s1) :=
      fun n => Same.ite (loop_same _ _) (Same.refl _)
    exact Same.ite (Same.refl s) (Same.ite (Same.refl s) (Same.ite (Same.refl s)
      (Same.ite ((h _).trans (loopBack_same _ _)) (h _))))

theorem positionFake_same (s : Pad) : Same s s.positionFake := by
  unfold Pad.positionFake
  split
  · exact Same.refl s
  · split
    · exact ⟨rfl, rfl, rfl, rfl, rfl, rfl⟩
    · exact loop_same s _

theorem postProcess_same (s : Pad) : Same s s.postProcess := by
  have h := loop_same s (fun _ a t => (a, t.settle))
  exact ⟨h.active, h.cfg, h.slot, h.fake, h.num, h.len⟩

/-- The number of slots a frame leaves. -/
theorem handle_same (s : Pad) : s.handle.1.active = s.active ∧ s.handle.1.cfg = s.cfg ∧ s.handle.1.slot = s.slot ∧
    s.handle.1.fake = s.fake ∧ s.handle.1.num ≤ s.num ∧ (s.cfg.alps = false → s.handle.1.num = s.num) ∧
    s.handle.1.touches.length = s.touches.length := by
  have h2 : ∀ s : Pad, s.fewerSlots.active = s.active ∧ s.fewerSlots.cfg = s.cfg ∧ s.fewerSlots.slot = s.slot ∧
      s.fewerSlots.fake = s.fake ∧ s.fewerSlots.num ≤ s.num ∧ (s.cfg.alps = false → s.fewerSlots.num = s.num) ∧
      s.fewerSlots.touches.length = s.touches.length := by
    intro s
    unfold Pad.fewerSlots
    split
    · rename_i h
      refine ⟨rfl, rfl, rfl, rfl, by dsimp only; omega, ?_, rfl⟩
      intro ha; rw [ha] at h; simp at h
    · simp
  have h3 : s.processFake.active = s.active ∧ s.processFake.cfg = s.cfg ∧ s.processFake.slot = s.slot ∧
      s.processFake.fake = s.fake ∧ s.processFake.num ≤ s.num ∧ (s.cfg.alps = false → s.processFake.num = s.num) ∧
      s.processFake.touches.length = s.touches.length := by
    rw [processFake_eq]
    split
    · simp
    · have h0 : Same s (if s.cfg.synaptics then s.restore else s) := by
        split
        · exact restore_same s
        · exact Same.refl s
      have h1 := h2 (if s.cfg.synaptics then s.restore else s)
      have h4 := loop_same s.beforeFake (fakeOne s.beforeFake.firstFake s.beforeFake.fake.count)
      rw [h4.active, h4.cfg, h4.slot, h4.fake, h4.num, h4.len]
      unfold Pad.beforeFake
      rw [h1.1, h1.2.1, h1.2.2.1, h1.2.2.2.1, h1.2.2.2.2.2.2, h0.active, h0.cfg, h0.slot, h0.fake, h0.len]
      have h5 := h1.2.2.2.2.1
      have h6 := h1.2.2.2.2.2.1
      rw [h0.num] at h5 h6
      rw [h0.cfg] at h6
      exact ⟨rfl, rfl, rfl, rfl, h5, h6, rfl⟩
  have h4 : Same s.processFake s.handle.1 := by
    rw [handle_eq]
    exact (((unhover_same _).trans (loop_same _ _)).trans (positionFake_same _)).trans (postProcess_same _)
  rw [h4.active, h4.cfg, h4.slot, h4.fake, h4.num, h4.len]
  exact h3

theorem clear_same (s : Pad) : s.clear.1.active = s.active ∧ s.clear.1.cfg = s.cfg ∧ s.clear.1.slot = s.slot ∧
    s.clear.1.num ≤ s.num ∧ (s.cfg.alps = false → s.clear.1.num = s.num) ∧
    s.clear.1.touches.length = s.touches.length := by
  rw [clear_eq]
  have h := handle_same s.lifting
  refine ⟨h.1, h.2.1, h.2.2.1, h.2.2.2.2.1, h.2.2.2.2.2.1, ?_⟩
  rw [h.2.2.2.2.2.2]
  exact (loop_same s _).len

/-! The number of active slots. -/

/-- How many of the first `n` slots have a sequence going on. -/
def ons (f : Nat → Bool) (n : Nat) : Nat := (List.range n).countP f

theorem ons_succ (f : Nat → Bool) (n : Nat) : ons f (n + 1) = ons f n + if f n then 1 else 0 := by
  simp [ons, List.range_succ, List.countP_append, List.countP_cons]

theorem ons_put_le (f : Nat → Bool) (i n : Nat) : ons (put f i true) n ≤ ons f n + 1 ∧ (n ≤ i → ons (put f i true) n = ons f n) := by
  induction n with
  | zero => simp [ons]
  | succ n ih =>
    rw [ons_succ, ons_succ]
    by_cases h : n = i
    · subst h
      have := ih.2 (Nat.le_refl n)
      rw [this]
      refine ⟨?_, fun h => by omega⟩
      simp only [put, if_true]; omega
    · simp only [put, h, if_false]
      refine ⟨by omega, fun hl => ?_⟩
      rw [ih.2 (by omega)]

theorem ons_put_false (f : Nat → Bool) (i n : Nat) : ons (put f i false) n + (if i < n ∧ f i then 1 else 0) = ons f n := by
  induction n with
  | zero => simp [ons]
  | succ n ih =>
    rw [ons_succ, ons_succ]
    by_cases h : n = i
    · subst h
      simp only [put, if_true, Nat.lt_irrefl, false_and, if_false] at ih ⊢
      simp only [Nat.lt_succ_self, true_and]
      simp; omega
    · simp only [put, h, if_false]
      have hc : (i < n + 1 ∧ f i = true) ↔ (i < n ∧ f i = true) := by
        constructor
        · rintro ⟨a, b⟩; exact ⟨by omega, b⟩
        · rintro ⟨a, b⟩; exact ⟨by omega, b⟩
      simp only [hc]; omega

theorem ons_going (ks : List Slot) : ∀ n, ons (going ks) n = (ks.take n).countP Slot.active := by
  intro n
  induction n with
  | zero => simp [ons]
  | succ n ih =>
    rw [ons_succ, ih, List.take_add_one, List.countP_append]
    congr 1
    unfold going
    cases h : ks[n]? <;> simp [List.countP_cons]

/-- The counter of slots is never too small. -/
structure Enough (num : Nat) (s : Pad) (k : Kernel) : Prop where
  alps : s.cfg.alps = false
  slots : s.num = num
  slot : k.slot < num
  active : s.cfg.hasMt = true → ons k.on num ≤ s.active
  fine : s.acc.aborted = false

theorem enough_step {num : Nat} {ds : List Bool} {s : Pad} {k : Kernel} (hb : Between ds s) (h : Enough num s k) (op : Op)
    (hv : Valid num k [op]) : Enough num (step s op).1 (k.follow op) := by
  have hv := hv.1
  cases op with
  | slot v =>
    simp only [step]
    split <;> exact ⟨h.alps, h.slots, hv, h.active, h.fine⟩
  | tracking b =>
    simp only [step]
    split
    · rename_i hm
      unfold Pad.tracking
      cases b with
      | true =>
        have h1 := onCurrent_between (s := { s with active := s.active + 1 }) (between_of hb rfl rfl) newTouch (fun a t _ => by simp)
        refine ⟨h.alps, h.slots, h.slot, fun _ => ?_, h1.2.1.trans h.fine⟩
        have := (ons_put_le k.on k.slot num).1
        have := h.active hm
        simp only [Kernel.follow, if_true, Pad.onCurrent, Pad.loop]
        omega
      | false =>
        have hon : k.on k.slot = true := hv
        have h1 := onCurrent_between (s := { s with active := s.active - 1, acc := { s.acc with aborted := s.acc.aborted || s.active == 0 } }) (between_of hb rfl rfl) endSequence (fun a t _ => by simp)
        have h2 := ons_put_false k.on k.slot num
        rw [if_pos ⟨h.slot, hon⟩] at h2
        have h3 := h.active hm
        refine ⟨h.alps, h.slots, h.slot, fun _ => ?_, h1.2.1.trans ?_⟩
        · simp only [Kernel.follow, Pad.onCurrent, Pad.loop]
          simp; omega
        · simp only [h.fine, Bool.false_or, beq_eq_false_iff_ne]; omega
    · rename_i hm
      exact ⟨h.alps, h.slots, h.slot, fun h' => absurd h' hm, h.fine⟩
  | axis ax v =>
    simp only [step]
    split
    · have h1 := onCurrent_between hb (fun a t => (a, t.setAxis ax v)) (fun a t _ =>
        Or.inr (Or.inr (Or.inr (Or.inr ⟨ax, v, rfl⟩))))
      exact ⟨h.alps, h.slots, h.slot, h.active, h1.2.1.trans h.fine⟩
    · exact ⟨h.alps, h.slots, h.slot, h.active, h.fine⟩
  | key k' p => exact ⟨h.alps, h.slots, h.slot, h.active, h.fine⟩
  | syn =>
    have h1 := handle_between hb
    have h2 := handle_same s
    simp only [step]
    exact ⟨by rw [h2.2.1]; exact h.alps, by rw [h2.2.2.2.2.2.1 h.alps]; exact h.slots, h.slot,
      by rw [h2.2.1, h2.1]; exact h.active, h1.2.1.1.trans h.fine⟩
  | clear =>
    have h1 := clear_between hb
    have h2 := clear_same s
    simp only [step]
    exact ⟨by rw [h2.2.1]; exact h.alps, by rw [h2.2.2.2.2.1 h.alps]; exact h.slots, h.slot,
      by rw [h2.2.1, h2.1]; exact h.active, h1.2.1.1.trans h.fine⟩
  | sync v ks =>
    have h1 := sync_between hb ks
    simp only [step]
    refine ⟨h.alps, h.slots, hv.2.1, fun _ => ?_, h1.2.1.trans h.fine⟩
    have : num ≥ 1 := by have := hv.2.1; omega
    simp only [Kernel.follow, ons_going, Pad.sync, h.slots]
    rw [show max num 1 = num by omega]
    omega

theorem valid_cons (num : Nat) (k : Kernel) (op : Op) (ops : List Op) :
    Valid num k (op :: ops) ↔ Valid num k [op] ∧ Valid num (k.follow op) ops := by
  simp only [Valid, and_true]

theorem enough_run {num : Nat} {ds : List Bool} {s : Pad} {k : Kernel} (hb : Between ds s) (h : Enough num s k) (ops : List Op)
    (hv : Valid num k ops) : Enough num (run s ops).1 (k.after ops) := by
  induction ops generalizing ds s k with
  | nil => exact h
  | cons op ops ih =>
    rw [valid_cons] at hv
    rw [run_cons]
    exact ih (step_between hb op).1 (enough_step hb h op hv.1) hv.2

/-! Which touches are there. -/

/-- Between frames: `b`, the sequence of the touch has ended. -/
def Ended (b : Bool) (t : Finger) : Prop :=
  t.hasEnded = b ∧ (b = true ↔ (t.st = .none ∨ t.st = .maybeEnd))

/-- While a frame is worked out. -/
def Ends (b : Bool) (t : Finger) : Prop :=
  t.hasEnded = b ∧ (t.st = .none → b = true) ∧ (t.st = .hovering ∨ t.st = .begin ∨ t.st = .update → b = false)

theorem Ended.ends {b : Bool} {t : Finger} (h : Ended b t) : Ends b t := by
  obtain ⟨h1, h2⟩ := h
  refine ⟨h1, fun hs => h2.mpr (Or.inl hs), fun hs => ?_⟩
  cases b with
  | false => rfl
  | true => have := h2.mp rfl; rcases hs with hs | hs | hs <;> simp [hs] at this

theorem newTouch_ended {b : Bool} {t : Finger} (a : Acc) (h : Ended b t) (hn : t.st ≠ .end_) : Ended false (newTouch a t).2 := by
  unfold Ended at *
  unfold newTouch
  cases hs : t.st <;> cases b <;> simp_all

theorem endSequence_ended {b : Bool} {t : Finger} (a : Acc) (h : Ended b t) (hn : t.st ≠ .end_) : Ended true (endSequence a t).2 := by
  unfold Ended at *
  unfold endSequence maybeEndTouch
  cases hs : t.st <;> cases b <;> simp_all

theorem loop_idx {R Q : Nat → Finger → Prop} {f : Nat → Acc → Finger → Acc × Finger}
    (hf : ∀ i a t, R i t → Q i (f i a t).2) {s : Pad} (h : ∀ (j : Nat) t, s.touches[j]? = some t → R j t) :
    ∀ (j : Nat) t, (s.loop f).touches[j]? = some t → Q j t := by
  intro j t ht
  obtain ⟨a', t0, h0, e⟩ := each_get _ _ _ _ _ _ ht
  rw [Nat.zero_add] at e
  rw [e]
  exact hf j a' t0 (h j t0 h0)

theorem loopBack_idx {R Q : Nat → Finger → Prop} {f : Nat → Acc → Finger → Acc × Finger}
    (hf : ∀ i a j t, R j t → Q j (f i a t).2) {s : Pad} (h : ∀ (j : Nat) t, s.touches[j]? = some t → R j t) :
    ∀ (j : Nat) t, (s.loopBack f).touches[j]? = some t → Q j t := by
  intro j t ht
  have hl : j < s.touches.length := by
    have := (List.getElem?_eq_some_iff.mp ht).1
    rw [(loopBack_same s f).len] at this; exact this
  simp only [Pad.loopBack] at ht
  rw [List.getElem?_reverse (by rw [each_length]; simpa using hl)] at ht
  obtain ⟨a', t0, h0, e⟩ := each_get _ _ _ _ _ _ ht
  rw [each_length, List.length_reverse, List.getElem?_reverse (by omega)] at h0
  rw [show s.touches.length - 1 - (s.touches.length - 1 - j) = j by omega] at h0
  rw [e]
  exact hf _ a' j t0 (h j t0 h0)

theorem begin_ends {b : Bool} {t : Finger} (a : Acc) (h : Ends b t) (hs : t.st = .hovering) : Ends b (beginTouch a t).2 := by
  obtain ⟨h1, h2, h3⟩ := h
  have := h3 (Or.inl hs)
  simp [beginTouch, Ends, h1, this]

theorem maybeEnd_ends {b : Bool} {t : Finger} (a : Acc) (h : Ends b t) (hs : t.st ≠ .hovering) :
    Ends b (maybeEndTouch a t).2 := by
  unfold Ends at *
  unfold maybeEndTouch
  cases hs' : t.st <;> simp_all

theorem pressOne_ends (low high : Int) (num nfake i : Nat) (a : Acc) {b : Bool} {t : Finger} (h : Ends b t) :
    Ends b (pressOne low high num nfake i a t).2 := by
  unfold pressOne
  split
  · cases hs : t.st
    case none => exact h
    case hovering => dsimp only; split
                     · exact begin_ends a h hs
                     · exact h
    all_goals
      dsimp only
      split
      · exact maybeEnd_ends a h (by simp [hs])
      · exact h
  · exact h

theorem sizeOne_ends (low high : Int) (num i : Nat) (a : Acc) {b : Bool} {t : Finger} (h : Ends b t) :
    Ends b (sizeOne low high num i a t).2 := by
  unfold sizeOne
  split
  · cases hs : t.st
    case none => exact h
    case hovering => dsimp only; split
                     · exact begin_ends a h hs
                     · exact h
    all_goals
      dsimp only
      split
      · exact maybeEnd_ends a h (by simp [hs])
      · exact h
  · exact h

theorem beginOne_ends (nfake i : Nat) (a : Acc) {b : Bool} {t : Finger} (h : Ends b t) : Ends b (beginOne nfake i a t).2 := by
  rcases beginOne_cases nfake i a t with e | ⟨hs, e, _⟩
  · rw [e]; exact h
  · rw [e]; exact begin_ends a h hs

theorem endOne_ends (all : Bool) (nfake i : Nat) (a : Acc) {b : Bool} {t : Finger} (h : Ends b t) :
    Ends b (endOne all nfake i a t).2 := by
  rcases endOne_cases all nfake i a t with e | ⟨hs, _, e, _⟩
  · rw [e]; exact h
  · rw [e]; exact maybeEnd_ends a h hs

/-- `e` says which sequences have ended. -/
def AllEnds (e : Nat → Bool) (s : Pad) : Prop := ∀ (j : Nat) t, s.touches[j]? = some t → Ends (e j) t

theorem unhover_ends {e : Nat → Bool} {s : Pad} (h : AllEnds e s) : AllEnds e s.unhover := by
  have hl : ∀ {s : Pad} (f : Nat → Acc → Finger → Acc × Finger), (∀ i a b t, Ends b t → Ends b (f i a t).2) →
      AllEnds e s → AllEnds e (s.loop f) :=
    fun f hf h => loop_idx (R := fun j t => Ends (e j) t) (Q := fun j t => Ends (e j) t) (fun i a t ht => hf i a _ t ht) h
  have hr : ∀ {s : Pad} (f : Nat → Acc → Finger → Acc × Finger), (∀ i a b t, Ends b t → Ends b (f i a t).2) →
      AllEnds e s → AllEnds e (s.loopBack f) :=
    fun f hf h => loopBack_idx (R := fun j t => Ends (e j) t) (Q := fun j t => Ends (e j) t) (fun i a j t ht => hf i a _ t ht) h
  have hi : ∀ {a b : Pad} {c : Prop} [Decidable c], AllEnds e a → AllEnds e b → AllEnds e (if c then a else b) := by
    intro a b c _ ha hb
    split
    · exact ha
    · exact hb
  unfold Pad.unhover
  split
  · rename_i low high _
    rw [unhoverPressure_eq]
    have h1 : AllEnds e (s.loop (pressOne low high s.num s.fakeOrNone)) :=
      hl _ (fun i a b t ht => pressOne_ends low high _ _ i a ht) h
    dsimp only
    exact hi h1 (hi (hr _ (fun i a b t ht => endOne_ends _ _ i a ht) (hi (hl _ (fun i a b t ht => beginOne_ends _ i a ht) h1) h1))
      (hi (hl _ (fun i a b t ht => beginOne_ends _ i a ht) h1) h1))
  · rename_i low high _
    exact hl _ (fun i a b t ht => sizeOne_ends low high _ i a ht) h
  · unfold Pad.unhoverFake
    dsimp only
    exact hi h (hi h (hi h (hi (hr _ (fun i a b t ht => endOne_ends _ _ i a ht) (hi (hl _ (fun i a b t ht => beginOne_ends _ i a ht) h) h))
      (hi (hl _ (fun i a b t ht => beginOne_ends _ i a ht) h) h))))

theorem positionOne_ends (start : Nat) (c : Finger) (i : Nat) (a : Acc) {b : Bool} {t : Finger} (h : Ends b t) :
    Ends b (positionOne start c i a t).2 := by
  unfold positionOne
  split
  · exact h
  · exact h

theorem settle_ended {b : Bool} {t : Finger} {d : Bool} (h : Ends b t) (hs : Shown d t) : Ended b t.settle ∧ t.settle.st ≠ .maybeEnd := by
  obtain ⟨h1, h2, h3⟩ := h
  unfold Shown at hs
  unfold Ended
  have hh : t.settle.hasEnded = t.hasEnded := by
    unfold Finger.settle; split
    · cases hs' : t.st <;> rfl
    · rfl
  rw [hh, settle_st]
  cases hs' : t.st <;> cases b <;> simp_all

theorem get_all2 {α : Type} {R : α → Finger → Prop} : ∀ {ds : List α} {ts : List Finger}, All2 R ds ts →
    ∀ (j : Nat) t, ts[j]? = some t → ∃ d, ds[j]? = some d ∧ R d t
  | [], [], _, j, t, h => by simp at h
  | d :: ds, u :: ts, h, 0, t, ht => by
    simp only [List.getElem?_cons_zero, Option.some.injEq] at ht
    exact ⟨d, by simp, ht ▸ h.1⟩
  | d :: ds, u :: ts, h, j + 1, t, ht => by
    simp only [List.getElem?_cons_succ] at ht
    obtain ⟨d', h1, h2⟩ := get_all2 h.2 j t ht
    exact ⟨d', by simpa using h1, h2⟩

/-- Which sequences have ended after the buttons were taken into account. -/
def endedBy (s : Pad) (e : Nat → Bool) (i : Nat) : Bool :=
  if s.fake.count = 128 ∨ i < s.fewerSlots.firstFake then e i else decide (s.fake.count ≤ i)

theorem processFake_ended {e : Nat → Bool} {ds : List Bool} {s : Pad} (hb : Between ds s) (hsyn : s.cfg.synaptics = false)
    (h : ∀ (j : Nat) t, s.touches[j]? = some t → Ended (e j) t) :
    ∀ (j : Nat) t, s.processFake.touches[j]? = some t → Ended (endedBy s e j) t := by
  rw [processFake_eq]
  unfold endedBy
  split
  · rename_i hc; simpa [hc] using h
  · rename_i hc
    have e1 : s.beforeFake = s.fewerSlots := by simp [Pad.beforeFake, hsyn]
    rw [e1]
    have e2 := fewerSlots_same s
    rw [e2.1]
    simp only [hc, false_or]
    refine loop_idx (R := fun j t => Ended (e j) t ∧ t.st ≠ .end_)
      (Q := fun j t => Ended (if j < s.fewerSlots.firstFake then e j else decide (s.fake.count ≤ j)) t) ?_ ?_
    · intro i a t ht
      unfold fakeOne
      by_cases h1 : i < s.fewerSlots.firstFake
      · simp only [if_pos h1]; exact ht.1
      · simp only [if_neg h1]
        by_cases h2 : i < s.fake.count
        · simp only [if_pos h2]
          rw [show decide (s.fake.count ≤ i) = false by simp; omega]
          exact newTouch_ended a ht.1 ht.2
        · simp only [if_neg h2]
          rw [show decide (s.fake.count ≤ i) = true by simp; omega]
          exact endSequence_ended a ht.1 ht.2
    · rw [e2.2.2.1]
      intro j t ht
      exact ⟨h j t ht, hb.notEnd t (List.mem_of_getElem? ht)⟩

theorem handle_ended {e : Nat → Bool} {ds : List Bool} {s : Pad} (hb : Between ds s) (hsyn : s.cfg.synaptics = false)
    (h : ∀ (j : Nat) t, s.touches[j]? = some t → Ended (e j) t) :
    ∀ (j : Nat) t, s.handle.1.touches[j]? = some t → Ended (endedBy s e j) t ∧ t.st ≠ .maybeEnd := by
  obtain ⟨e', he⟩ : ∃ x, x = endedBy s e := ⟨_, rfl⟩
  have h1 : AllEnds e' s.processFake := fun j t ht => by rw [he]; exact (processFake_ended hb hsyn h j t ht).ends
  have h2 : AllEnds e' s.preProcess :=
    loop_idx (R := fun j t => Ends (e' j) t) (Q := fun j t => Ends (e' j) t) (f := endEnding) (fun i a t ht => by
      unfold Ends at *
      unfold endEnding endTouch
      cases hs : t.st <;> simp_all) (unhover_ends h1)
  have h3 : AllEnds e' s.preProcess.positionFake := by
    unfold Pad.positionFake
    split
    · exact h2
    · split
      · exact h2
      · exact loop_idx (R := fun j t => Ends (e' j) t) (Q := fun j t => Ends (e' j) t)
          (fun i a t ht => positionOne_ends _ _ i a ht) h2
  rw [handle_eq, (post_loop _).1]
  intro j t ht
  rw [List.getElem?_map, Option.map_eq_some_iff] at ht
  obtain ⟨t0, h0, e0⟩ := ht
  have hs := (positionFake_showing (preProcess_showing hb).1).1.shown
  obtain ⟨d, _, hd⟩ := get_all2 hs j t0 h0
  rw [← e0, ← he]
  exact settle_ended (h3 j t0 h0) hd

end Libinput.Touch
