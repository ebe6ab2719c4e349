import Verif.Touch.Count
/-
Where the touches are, and how they are told apart from hovering ones.
-/
namespace Libinput.Touch
open Spec

/-- The value of an axis of a touch. -/
def Finger.axis (t : Finger) : Axis → Int
  | .y => t.y
  | .pressure => t.pressure
  | .touchMajor => t.touchMajor
  | .touchMinor => t.touchMinor
  | .other => 0

/-- `t'` is where `t` is. -/
def At (t t' : Finger) : Prop := ∀ ax, t'.axis ax = t.axis ax

theorem At.refl (t : Finger) : At t t := fun _ => rfl
theorem At.trans {a b c : Finger} (h : At a b) (h' : At b c) : At a c := fun ax => (h' ax).trans (h ax)

theorem at_of {t t' : Finger} (h1 : t'.y = t.y) (h2 : t'.pressure = t.pressure) (h3 : t'.touchMajor = t.touchMajor)
    (h4 : t'.touchMinor = t.touchMinor) : At t t' := by
  intro ax; cases ax <;> simp [Finger.axis, h1, h2, h3, h4]

theorem newTouch_at (a : Acc) (t : Finger) : At t (newTouch a t).2 := by
  unfold newTouch; cases t.st <;> exact at_of rfl rfl rfl rfl
theorem beginTouch_at (a : Acc) (t : Finger) : At t (beginTouch a t).2 := at_of rfl rfl rfl rfl
theorem recoverTouch_at (a : Acc) (t : Finger) : At t (recoverTouch a t).2 := at_of rfl rfl rfl rfl
theorem maybeEndTouch_at (a : Acc) (t : Finger) : At t (maybeEndTouch a t).2 := by
  unfold maybeEndTouch; cases t.st <;> exact at_of rfl rfl rfl rfl
theorem endSequence_at (a : Acc) (t : Finger) : At t (endSequence a t).2 :=
  (at_of rfl rfl rfl rfl : At t { t with hasEnded := true }).trans (maybeEndTouch_at _ _)
theorem endTouch_at (a : Acc) (t : Finger) : At t (endTouch a t).2 := by
  unfold endTouch; cases t.st <;> exact at_of rfl rfl rfl rfl
theorem settle_at (t : Finger) : At t t.settle := by
  unfold Finger.settle; split
  · cases t.st <;> exact at_of rfl rfl rfl rfl
  · exact At.refl t

theorem endEnding_at (i : Nat) (a : Acc) (t : Finger) : At t (endEnding i a t).2 := by
  unfold endEnding; split
  · exact endTouch_at a t
  · exact At.refl t

theorem fakeOne_at (first n i : Nat) (a : Acc) (t : Finger) : At t (fakeOne first n i a t).2 := by
  unfold fakeOne; split
  · exact At.refl t
  · split
    · exact newTouch_at a t
    · exact endSequence_at a t

theorem beginOne_at (n i : Nat) (a : Acc) (t : Finger) : At t (beginOne n i a t).2 := by
  rcases beginOne_cases n i a t with e | ⟨_, e, _⟩
  · rw [e]; exact At.refl t
  · rw [e]; exact beginTouch_at a t

theorem endOne_at (all : Bool) (n i : Nat) (a : Acc) (t : Finger) : At t (endOne all n i a t).2 := by
  rcases endOne_cases all n i a t with e | ⟨_, _, e, _⟩
  · rw [e]; exact At.refl t
  · rw [e]; exact maybeEndTouch_at a t

theorem pressOne_at (low high : Int) (num n i : Nat) (a : Acc) (t : Finger) : At t (pressOne low high num n i a t).2 := by
  unfold pressOne
  split
  · cases t.st <;> dsimp only <;> (try split) <;>
      first | exact At.refl t | exact beginTouch_at a t | exact maybeEndTouch_at a t
  · exact At.refl t

theorem sizeOne_at (low high : Int) (num i : Nat) (a : Acc) (t : Finger) : At t (sizeOne low high num i a t).2 := by
  unfold sizeOne
  split
  · cases t.st <;> dsimp only <;> (try split) <;>
      first | exact At.refl t | exact beginTouch_at a t | exact maybeEndTouch_at a t
  · exact At.refl t

/-- The touches that `p` selects stay where they are. -/
def Stay (p : Nat → Prop) (s s' : Pad) : Prop :=
  ∀ (j : Nat) t, p j → s'.touches[j]? = some t → ∃ t0, s.touches[j]? = some t0 ∧ At t0 t

theorem Stay.refl (p : Nat → Prop) (s : Pad) : Stay p s s := fun _ t _ h => ⟨t, h, At.refl t⟩
theorem Stay.trans {p : Nat → Prop} {a b c : Pad} (h : Stay p a b) (h' : Stay p b c) : Stay p a c := by
  intro j t hp ht
  obtain ⟨t1, h1, e1⟩ := h' j t hp ht
  obtain ⟨t0, h0, e0⟩ := h j t1 hp h1
  exact ⟨t0, h0, e0.trans e1⟩
theorem Stay.ite {p : Nat → Prop} {s a b : Pad} {c : Prop} [Decidable c] (ha : Stay p s a) (hb : Stay p s b) :
    Stay p s (if c then a else b) := by
  split
  · exact ha
  · exact hb

theorem loop_stay {p : Nat → Prop} (s : Pad) (f : Nat → Acc → Finger → Acc × Finger) (hf : ∀ i a t, p i → At t (f i a t).2) :
    Stay p s (s.loop f) := by
  intro j t hp ht
  obtain ⟨a', t0, h0, e⟩ := each_get _ _ _ _ _ _ ht
  rw [Nat.zero_add] at e
  exact ⟨t0, h0, by rw [e]; exact hf j a' t0 hp⟩

theorem loopBack_stay {p : Nat → Prop} (s : Pad) (f : Nat → Acc → Finger → Acc × Finger) (hf : ∀ i a t, At t (f i a t).2) :
    Stay p s (s.loopBack f) := by
  intro j t _ ht
  have := loopBack_idx (R := fun j t => ∃ t0, s.touches[j]? = some t0 ∧ At t0 t)
    (Q := fun j t => ∃ t0, s.touches[j]? = some t0 ∧ At t0 t) (f := f)
    (fun i a j t ⟨t0, h0, e⟩ => ⟨t0, h0, e.trans (hf i a t)⟩) (s := s) (fun j t h => ⟨t, h, At.refl t⟩)
  exact this j t ht

theorem restore_stay (p : Nat → Prop) (s : Pad) : Stay p s s.restore := by
  unfold Pad.restore
  refine Stay.ite (Stay.refl p s) (Stay.ite (Stay.refl p s) (loop_stay s _ fun i a t _ => ?_))
  split
  · exact recoverTouch_at a t
  · exact At.refl t

theorem stay_of_touches {p : Nat → Prop} {s s' : Pad} (h : s'.touches = s.touches) : Stay p s s' := by
  intro j t _ ht; exact ⟨t, by rw [← h]; exact ht, At.refl t⟩

theorem processFake_stay (p : Nat → Prop) (s : Pad) : Stay p s s.processFake := by
  rw [processFake_eq]
  refine Stay.ite (Stay.refl p s) (Stay.trans (b := s.beforeFake) ?_ (loop_stay _ _ fun i a t _ => fakeOne_at _ _ i a t))
  unfold Pad.beforeFake
  exact Stay.trans (Stay.ite (restore_stay p s) (Stay.refl p s)) (stay_of_touches (fewerSlots_same _).2.2.1)

theorem unhover_stay (p : Nat → Prop) (s : Pad) : Stay p s s.unhover := by
  unfold Pad.unhover
  split
  · rename_i low high _
    rw [unhoverPressure_eq]
    dsimp only
    have h1 : Stay p s (s.loop (pressOne low high s.num s.fakeOrNone)) := loop_stay _ _ fun i a t _ => pressOne_at _ _ _ _ i a t
    refine Stay.ite h1 (Stay.trans h1 ?_)
    refine Stay.ite (Stay.trans ?_ (loopBack_stay _ _ fun i a t => endOne_at _ _ i a t)) ?_ <;>
      exact Stay.ite (loop_stay _ _ fun i a t _ => beginOne_at _ i a t) (Stay.refl p _)
  · exact loop_stay _ _ fun i a t _ => sizeOne_at _ _ _ i a t
  · unfold Pad.unhoverFake
    refine Stay.ite (Stay.refl p s) (Stay.ite (Stay.refl p s) (Stay.ite (Stay.refl p s) ?_))
    dsimp only
    refine Stay.ite (Stay.trans ?_ (loopBack_stay _ _ fun i a t => endOne_at _ _ i a t)) ?_ <;>
      exact Stay.ite (loop_stay _ _ fun i a t _ => beginOne_at _ i a t) (Stay.refl p _)

theorem positionFake_stay (s : Pad) (hm : s.cfg.hasMt = true) : Stay (· < s.num) s s.positionFake := by
  unfold Pad.positionFake
  refine Stay.ite (Stay.refl _ s) ?_
  split
  · exact stay_of_touches rfl
  · refine loop_stay _ _ fun i a t hi => ?_
    rw [hm, if_pos rfl]
    unfold positionOne
    rw [if_pos (Or.inl hi)]
    exact At.refl t

theorem postProcess_stay (p : Nat → Prop) (s : Pad) : Stay p s s.postProcess :=
  Stay.trans (b := s.loop (fun _ a t => (a, t.settle))) (loop_stay _ _ fun _ _ t _ => settle_at t) (stay_of_touches rfl)

theorem preProcess_same (s : Pad) : Same s.processFake s.preProcess := (unhover_same _).trans (loop_same _ _)

theorem handle_stay (s : Pad) (hm : s.cfg.hasMt = true) : Stay (· < s.handle.1.num) s s.handle.1 := by
  have hn : s.preProcess.num = s.handle.1.num := by
    rw [handle_eq]
    exact ((positionFake_same _).trans (postProcess_same _)).num.symm
  have hc : s.preProcess.cfg.hasMt = true := by
    have h1 := (handle_same s).2.1
    rw [handle_eq] at h1
    have h2 := ((positionFake_same s.preProcess).trans (postProcess_same _)).cfg
    rw [← h2, h1]; exact hm
  rw [← hn]
  exact Stay.trans (processFake_stay _ s) (Stay.trans (unhover_stay _ _)
    (Stay.trans (loop_stay _ endEnding fun i a t _ => endEnding_at i a t)
      (Stay.trans (positionFake_stay _ hc) (postProcess_stay _ _))))

theorem settle_clean (t : Finger) : t.settle.dirty = false := by
  unfold Finger.settle
  split
  · cases t.st <;> rfl
  · rename_i h; simpa using h

theorem handle_clean (s : Pad) : ∀ (j : Nat) t, s.handle.1.touches[j]? = some t → t.dirty = false := by
  intro j t ht
  rw [handle_eq, (post_loop _).1, List.getElem?_map] at ht
  cases h : (s.preProcess.positionFake.touches)[j]? with
  | none => rw [h] at ht; simp at ht
  | some t0 =>
    rw [h] at ht
    simp only [Option.map_some, Option.some.injEq] at ht
    rw [← ht]; exact settle_clean t0

/-! What was heard. -/

/-- The touches are as they were reported. -/
structure Agrees (num : Nat) (s : Pad) (h : Heard) : Prop where
  mt : s.cfg.hasMt = true
  len : num ≤ s.touches.length
  le : s.num ≤ num
  slot : s.slot = h.slot
  range : h.slot < num
  value : ∀ (j : Nat) t, j < s.num → s.touches[j]? = some t → (∀ ax, ax ≠ .other → t.axis ax = h.value ax j) ∧
    (h.moved j = true → t.dirty = true) ∧ (t.dirty = true → h.any j = true)

/-- The slots as the kernel and the listener know them are the same. -/
def Tied (k : Kernel) (h : Heard) : Prop := h.slot = k.slot

theorem tied_follow {k : Kernel} {h : Heard} (ht : Tied k h) (op : Op) : Tied (k.follow op) (h.follow op) := by
  cases op <;> simp_all [Tied, Kernel.follow, Heard.follow]

theorem setAxis_axis (t : Finger) (ax : Axis) (v : Int) (ax' : Axis) (h : ax' ≠ .other) :
    (t.setAxis ax v).axis ax' = if ax' = ax then v else t.axis ax' := by
  cases ax <;> cases ax' <;> simp_all [Finger.setAxis, Finger.axis]

theorem current_slot {num : Nat} {s : Pad} {h : Heard} (ha : Agrees num s h) : s.current = h.slot := by
  unfold Pad.current
  rw [ha.slot]
  have := ha.len; have := ha.range
  omega

theorem agrees_current {num : Nat} {s : Pad} {h h' : Heard} (ha : Agrees num s h) (s0 : Pad) (e1 : s0.touches = s.touches)
    (e2 : s0.slot = s.slot) (e3 : s0.cfg = s.cfg) (e4 : s0.num = s.num) (f : Acc → Finger → Acc × Finger) (hs : h'.slot = h.slot)
    (hf : ∀ a t, ((∀ ax, ax ≠ .other → t.axis ax = h.value ax h.slot) ∧
      (h.moved h.slot = true → t.dirty = true) ∧ (t.dirty = true → h.any h.slot = true)) →
      (∀ ax, ax ≠ .other → (f a t).2.axis ax = h'.value ax h.slot) ∧
      (h'.moved h.slot = true → (f a t).2.dirty = true) ∧ ((f a t).2.dirty = true → h'.any h.slot = true))
    (ho : ∀ j, j ≠ h.slot → (∀ ax, h'.value ax j = h.value ax j) ∧ h'.moved j = h.moved j ∧ h'.any j = h.any j) :
    Agrees num (s0.onCurrent f) h' := by
  have hcur : s0.current = h.slot := by rw [← current_slot ha]; simp [Pad.current, e1, e2]
  refine ⟨by show s0.cfg.hasMt = true; rw [e3]; exact ha.mt, by rw [Pad.onCurrent, (loop_same _ _).len, e1]; exact ha.len,
    by show s0.num ≤ num; rw [e4]; exact ha.le, by show s0.slot = _; rw [e2, hs]; exact ha.slot, by rw [hs]; exact ha.range, ?_⟩
  intro j t hj ht
  have hj : j < s.num := by
    have : j < s0.num := hj
    rwa [e4] at this
  obtain ⟨a', t0, h0, e⟩ := each_get _ _ _ _ _ _ ht
  rw [e1] at h0
  have hv := ha.value j t0 hj h0
  rw [Nat.zero_add, hcur] at e
  by_cases hi : j = h.slot
  · rw [if_pos hi] at e
    subst hi
    rw [e]
    exact hf a' t0 hv
  · rw [if_neg hi] at e
    rw [e]
    obtain ⟨o1, o2, o3⟩ := ho j hi
    rw [o2, o3]
    exact ⟨fun ax hx => by rw [o1]; exact hv.1 ax hx, hv.2⟩

theorem newTouch_dirty (a : Acc) (t : Finger) (h : t.dirty = true) : (newTouch a t).2.dirty = true := by
  unfold newTouch; cases t.st <;> simp [h]
theorem endSequence_dirty (a : Acc) (t : Finger) (h : t.dirty = true) : (endSequence a t).2.dirty = true := by
  unfold endSequence maybeEndTouch; cases t.st <;> simp [h]

theorem sync_value (n : Nat) (ks : List Slot) (j : Nat) (a : Acc) (t : Finger) (hj : j < n) (hl : j < ks.length) :
    ∀ ax, ax ≠ .other → (syncOne n ks j a t).2.axis ax = asked ks ax j := by
  intro ax hx
  unfold syncOne asked
  rw [if_pos hj, List.getElem?_eq_getElem hl]
  cases ax <;> first | rfl | contradiction

theorem agrees_step {num : Nat} {s : Pad} {h : Heard} {k : Kernel} (ha : Agrees num s h) (ht : Tied k h) (op : Op)
    (hv : Valid num k [op]) (hs : SameSlot k [op]) : Agrees num (step s op).1 (h.follow op) := by
  have hv := hv.1
  have hs := hs.1
  cases op with
  | slot v =>
    simp only [step, ha.mt, if_true]
    exact ⟨ha.mt, ha.len, ha.le, rfl, hv, ha.value⟩
  | tracking b =>
    simp only [step, ha.mt, if_true]
    unfold Pad.tracking
    split
    · refine agrees_current ha { s with active := s.active + 1 } rfl rfl rfl rfl newTouch rfl (fun a t hh => ?_) (fun j hj => by simp [Heard.follow, put, hj])
      refine ⟨fun ax hx => ?_, fun hm => newTouch_dirty a t (hh.2.1 hm), fun _ => by simp [Heard.follow, put]⟩
      rw [newTouch_at a t ax]; exact hh.1 ax hx
    · refine agrees_current ha { s with active := s.active - 1, acc := { s.acc with aborted := s.acc.aborted || s.active == 0 } } rfl rfl rfl rfl endSequence rfl (fun a t hh => ?_) (fun j hj => by simp [Heard.follow, put, hj])
      refine ⟨fun ax hx => ?_, fun hm => endSequence_dirty a t (hh.2.1 hm), fun _ => by simp [Heard.follow, put]⟩
      rw [endSequence_at a t ax]; exact hh.1 ax hx
  | axis ax v =>
    simp only [step, ha.mt, Bool.true_or, if_true]
    refine agrees_current ha s rfl rfl rfl rfl _ rfl (fun a t hh => ?_) (fun j hj => by simp [Heard.follow, put, hj])
    refine ⟨fun ax' hx => ?_, fun _ => setAxis_dirty t ax v, fun _ => by simp [Heard.follow, put]⟩
    show (t.setAxis ax v).axis ax' = _
    rw [setAxis_axis t ax v ax' hx]
    simp only [Heard.follow, and_true]
    split
    · rfl
    · exact hh.1 ax' hx
  | key k' p => exact ⟨ha.mt, ha.len, ha.le, ha.slot, ha.range, ha.value⟩
  | syn =>
    have h3 := handle_same s
    simp only [step]
    refine ⟨by rw [h3.2.1]; exact ha.mt, by rw [h3.2.2.2.2.2.2]; exact ha.len,
      Nat.le_trans h3.2.2.2.2.1 ha.le, by rw [h3.2.2.1]; exact ha.slot, ha.range, fun j t hj htj => ?_⟩
    obtain ⟨t0, h0, e⟩ := handle_stay s ha.mt j t hj htj
    have := ha.value j t0 (Nat.lt_of_lt_of_le hj h3.2.2.2.2.1) h0
    have hc := handle_clean s j t htj
    exact ⟨fun ax hx => (e ax).trans (this.1 ax hx), by simp [Heard.follow], by simp [hc]⟩
  | clear =>
    have h3 := clear_same s
    simp only [step]
    refine ⟨by rw [h3.2.1]; exact ha.mt, by rw [h3.2.2.2.2.2]; exact ha.len,
      Nat.le_trans h3.2.2.2.1 ha.le, by rw [h3.2.2.1]; exact ha.slot, ha.range, fun j t hj htj => ?_⟩
    rw [clear_eq] at hj htj
    have hm : s.lifting.cfg.hasMt = true := ha.mt
    have h4 : Stay (· < s.lifting.handle.1.num) s s.lifting.handle.1 :=
      Stay.trans (b := s.lifting)
        (Stay.trans (b := s.loop (fun _ => endSequence)) (loop_stay _ _ fun _ a t _ => endSequence_at a t) (stay_of_touches rfl))
        (handle_stay s.lifting hm)
    obtain ⟨t0, h0, e⟩ := h4 j t hj htj
    have hle : s.clear.1.num ≤ s.num := h3.2.2.2.1
    rw [clear_eq] at hle
    have := ha.value j t0 (Nat.lt_of_lt_of_le hj hle) h0
    have hc := handle_clean s.lifting j t htj
    exact ⟨fun ax hx => (e ax).trans (this.1 ax hx), by simp [Heard.follow], by simp [hc]⟩
  | sync v ks =>
    simp only [step]
    have hv' : v = k.slot := hs
    refine ⟨ha.mt, ?_, ha.le, ?_, ?_, fun j t hj htj => ?_⟩
    · show num ≤ (s.sync ks).touches.length
      exact Nat.le_trans ha.len (Nat.le_of_eq (loop_same s (syncOne (max s.num 1) ks)).len.symm)
    · show s.slot = v
      rw [hv', ← ht]; exact ha.slot
    · exact hv.2.1
    · have hj : j < s.num := hj
      obtain ⟨a', t0, h0, e⟩ := each_get _ _ _ _ _ _ htj
      rw [Nat.zero_add] at e
      have := ha.value j t0 hj h0
      have h1 := sync_value (max s.num 1) ks j a' t0 (by omega) (by have := ha.le; have := hv.2.2; omega)
      have h2 := (syncOne_same (max s.num 1) ks j a' t0).2.2.1
      rw [e]
      refine ⟨fun ax hx => h1 ax hx, ?_, ?_⟩
      · rw [h2]; exact this.2.1
      · rw [h2]; exact this.2.2

theorem agrees_run {num : Nat} {s : Pad} {h : Heard} {k : Kernel} (ha : Agrees num s h) (ht : Tied k h) (ops : List Op)
    (hv : Valid num k ops) (hs : SameSlot k ops) : Agrees num (run s ops).1 (h.after ops) := by
  induction ops generalizing s h k with
  | nil => exact ha
  | cons op ops ih =>
    rw [valid_cons] at hv
    rw [sameSlot_cons] at hs
    rw [run_cons]
    exact ih (agrees_step ha ht op hv.1 hs.1) (tied_follow ht op) hv.2 hs.2

theorem init_agrees (cfg : Config) (num n slot : Nat) (ks : List Slot) (finger : Bool) (hm : cfg.hasMt = true)
    (hn : num ≤ n) (hsl : slot < num) (hk : ks.length = num) :
    Agrees num (init cfg num n slot ks finger) (Heard.start slot ks) := by
  have h := loop_same { cfg := cfg, touches := List.replicate n {}, slot := slot, num := num : Pad } (syncOne (max num 1) ks)
  have h2 : (init cfg num n slot ks finger).touches.length = n := h.len.trans (List.length_replicate ..)
  refine ⟨hm, by omega, Nat.le_refl _, rfl, hsl, fun j t hj ht => ?_⟩
  obtain ⟨a', t0, h0, e⟩ := each_get _ _ _ _ _ _ ht
  have : t0 = {} := (List.mem_replicate.mp (List.mem_of_getElem? h0)).2
  rw [Nat.zero_add] at e
  rw [e]
  have hj : j < num := hj
  have h3 := (syncOne_same (max num 1) ks j a' t0).2.2.1
  refine ⟨fun ax hx => sync_value (max num 1) ks j a' t0 (by omega) (by omega) ax hx, by simp [Heard.start], ?_⟩
  show (syncOne (max num 1) ks j a' t0).2.dirty = true → _
  rw [h3, this]; simp

/-! How touches are told apart. -/

/-- A touch in a slot is shown to be what the deciding function `f` made of it. -/
theorem handle_view (s : Pad) (hm : s.cfg.hasMt = true) (hsyn : s.cfg.synaptics = false)
    (f : Nat → Acc → Finger → Acc × Finger) (hu : s.processFake.unhover = s.processFake.loop f) (j : Nat) (v : St × Bool)
    (hj : j < s.handle.1.num) (hv : s.handle.2[j]? = some v) :
    ∃ a t, s.touches[j]? = some t ∧ v = ((endEnding j a (f j a t).2).2.st, (endEnding j a (f j a t).2).2.dirty) := by
  have hn : s.preProcess.num = s.handle.1.num := by
    rw [handle_eq]
    exact ((positionFake_same _).trans (postProcess_same _)).num.symm
  have hc : s.preProcess.cfg.hasMt = true := by
    have h1 := (handle_same s).2.1
    rw [handle_eq] at h1
    have h2 := ((positionFake_same s.preProcess).trans (postProcess_same _)).cfg
    rw [← h2, h1]; exact hm
  have h1 : ∃ t, s.preProcess.touches[j]? = some t ∧ v = (t.st, t.dirty) := by
    rw [handle_eq] at hv
    simp only [Pad.views, List.getElem?_map] at hv
    cases h : (s.preProcess.positionFake.touches)[j]? with
    | none => rw [h] at hv; simp at hv
    | some t =>
      rw [h] at hv
      simp only [Option.map_some, Option.some.injEq] at hv
      refine ⟨t, ?_, hv.symm⟩
      rw [← h]
      unfold Pad.positionFake
      split
      · rfl
      · split
        · rfl
        · rename_i b _
          unfold Pad.positionFake at h
          cases hp : (s.preProcess.loop (positionOne s.preProcess.num b)).touches[j]? with
          | none =>
            have hlen := (loop_same s.preProcess (positionOne s.preProcess.num b)).len
            rw [List.getElem?_eq_none_iff] at hp ⊢
            omega
          | some t1 =>
            obtain ⟨a', t0, h0, e⟩ := each_get _ _ _ _ _ _ hp
            rw [Nat.zero_add, positionOne, if_pos (Or.inl (by omega))] at e
            rw [h0, e]
  obtain ⟨t, ht, hv⟩ := h1
  have ht : (s.processFake.unhover.loop endEnding).touches[j]? = some t := ht
  obtain ⟨a1, t1, h1, e1⟩ := each_get _ _ _ _ _ _ ht
  rw [hu] at h1
  obtain ⟨a2, t2, h2, e2⟩ := each_get _ _ _ _ _ _ h1
  rw [Nat.zero_add] at e1 e2
  have h3 : s.touches[j]? = some t2 := by
    rw [processFake_eq] at h2
    have hnum := handle_num s hsyn
    by_cases hc128 : s.fake.count = 128
    · rwa [if_pos hc128] at h2
    · rw [if_neg hc128] at h2
      have e1 : s.beforeFake = s.fewerSlots := by simp [Pad.beforeFake, hsyn]
      rw [e1] at h2
      obtain ⟨a3, t3, h3, e3⟩ := each_get _ _ _ _ _ _ h2
      have hff : s.fewerSlots.firstFake = s.fewerSlots.num := by
        unfold Pad.firstFake; rw [(fewerSlots_same s).2.1, hm]; simp
      rw [if_neg hc128] at hnum
      rw [Nat.zero_add, fakeOne, if_pos (by omega)] at e3
      rw [e3, ← h3, (fewerSlots_same s).2.2.1]
  refine ⟨a2, t2, h3, ?_⟩
  rw [hv, e1, e2]
  unfold endEnding
  split
  · unfold endTouch; cases (f j a2 t2).2.st <;> rfl
  · rfl

end Libinput.Touch
