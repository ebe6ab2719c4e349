import Verif.Touch.Lemmas
import Verif.Touch.Spec
/-
What holds along histories.
-/
namespace Libinput.Touch
open Spec

theorem shown_fits {ds : List Bool} : ∀ {ts : List Finger}, All2 Shown ds ts →
    fitsAll ds (ts.map fun t => (t.st, t.dirty)) = true := by
  induction ds with
  | nil => intro ts h; cases ts with
    | nil => rfl
    | cons t ts => exact h.elim
  | cons d ds ih => intro ts h; cases ts with
    | nil => exact h.elim
    | cons t ts =>
      simp only [List.map_cons, fitsAll, ih h.2, Bool.and_true]
      have := h.1
      unfold Shown at this
      unfold fits
      cases hs : t.st <;> simp_all

/-! Clearing. -/

/-- A touch that is being lifted for good. -/
def Going (d : Bool) (t : Finger) : Prop :=
  ((d = false ∧ t.st = .none) ∨ (d = true ∧ t.st = .maybeEnd ∧ t.dirty = true)) ∧ t.hasEnded = true

/-- A touch that is shown while it is lifted for good. -/
def Gone (d : Bool) (t : Finger) : Prop :=
  ((d = false ∧ t.st = .none) ∨ (d = true ∧ t.st = .end_ ∧ t.dirty = true)) ∧ t.hasEnded = true

theorem endSequence_going {d : Bool} {t : Finger} (a : Acc) (h : Ev d t) : Going d (endSequence a t).2 := by
  unfold Ev at h
  unfold Going endSequence maybeEndTouch
  cases hs : t.st <;> simp_all

theorem going_endSequence {d : Bool} {t : Finger} (a : Acc) (h : Going d t) : Going d (endSequence a t).2 := by
  unfold Going at h ⊢
  unfold endSequence maybeEndTouch
  rcases h with ⟨⟨h1, h2⟩ | ⟨h1, h2, h3⟩, h4⟩ <;> simp_all

theorem going_downs {ds : List Bool} : ∀ {ts : List Finger}, All2 Going ds ts → downs ts = 0 := by
  induction ds with
  | nil => intro ts h; cases ts with
    | nil => rfl
    | cons t ts => exact h.elim
  | cons d ds ih => intro ts h; cases ts with
    | nil => exact h.elim
    | cons t ts =>
      rw [downs_cons, ih h.2]
      rcases h.1 with ⟨⟨_, h2⟩ | ⟨_, h2, _⟩, _⟩ <;> simp [dn, Finger.down, h2]

/-- The state in which the lifting starts. -/
def Pad.lifting (s : Pad) : Pad := { s.loop (fun _ => endSequence) with fake := {} }

theorem clear_eq (s : Pad) : s.clear = s.lifting.handle := rfl

theorem lifting_between {ds : List Bool} {s : Pad} (h : Between ds s) :
    Between ds s.lifting ∧ Clean s s.lifting ∧ All2 Going ds s.lifting.touches := by
  have h1 := loop_between h (fun _ => endSequence) (fun i a t _ => by simp)
  exact ⟨between_of h1.1 rfl rfl, h1.2,
    loop_all2 (R := Ev) (Q := Going) (f := fun _ => endSequence) (fun i a d t ht => endSequence_going a ht) h.ev⟩

theorem going_pressOne (low high : Int) (num nfake i : Nat) (a : Acc) {d : Bool} {t : Finger} (h : Going d t) :
    Going d (pressOne low high num nfake i a t).2 := by
  have h' := h
  unfold Going at h'
  unfold pressOne
  split
  · rcases h' with ⟨⟨h1, h2⟩ | ⟨h1, h2, h3⟩, h4⟩
    · simp only [h2]; exact h
    · simp only [h2, maybeEndTouch]; split <;> exact h
  · exact h

theorem going_sizeOne (low high : Int) (num i : Nat) (a : Acc) {d : Bool} {t : Finger} (h : Going d t) :
    Going d (sizeOne low high num i a t).2 := by
  have h' := h
  unfold Going at h'
  unfold sizeOne
  split
  · rcases h' with ⟨⟨h1, h2⟩ | ⟨h1, h2, h3⟩, h4⟩
    · simp only [h2]; exact h
    · simp only [h2, maybeEndTouch]; split <;> exact h
  · exact h

theorem count_none : Fake.count {} = 0 := rfl

theorem going_processFake {ds : List Bool} {s : Pad} (h : All2 Going ds s.touches) (hf : s.fake = {}) :
    All2 Going ds s.processFake.touches ∧ s.processFake.fake = {} ∧ s.processFake.cfg = s.cfg := by
  rw [processFake_eq, if_neg (by rw [hf, count_none]; omega)]
  have hb : s.beforeFake = s := by
    unfold Pad.beforeFake
    have : (if s.cfg.synaptics then s.restore else s) = s := by
      split
      · unfold Pad.restore; rw [if_pos (by rw [hf, count_none]; omega)]
      · rfl
    rw [this]
    unfold Pad.fewerSlots
    rw [if_neg]; rw [hf, count_none]; omega
  rw [hb]
  refine ⟨loop_all2 (R := Going) (Q := Going) (fun i a d t ht => ?_) h, by rw [loop_fake, hf], rfl⟩
  unfold fakeOne
  split
  · exact ht
  · split
    · rename_i hlt; rw [hf, count_none] at hlt; omega
    · exact going_endSequence a ht

theorem going_unhover {ds : List Bool} {s : Pad} (h : All2 Going ds s.touches) (hf : s.fake = {}) (hc : Counted s) :
    All2 Going ds s.unhover.touches ∧ s.unhover.fake = {} := by
  unfold Pad.unhover
  split
  · rename_i low high _
    rw [unhoverPressure_eq]
    have h0 : s.fakeOrNone = 0 := by simp [Pad.fakeOrNone, hf, count_none]
    simp only [h0, Nat.zero_le, true_or, if_true]
    exact ⟨loop_all2 (R := Going) (Q := Going) (fun i a d t ht => going_pressOne low high _ _ i a ht) h, by rw [loop_fake, hf]⟩
  · rename_i low high _
    exact ⟨loop_all2 (R := Going) (Q := Going) (fun i a d t ht => going_sizeOne low high _ i a ht) h, hf⟩
  · have : s.fake.any = false ∧ s.fingers = 0 := by
      refine ⟨by rw [hf]; rfl, ?_⟩
      have hc' : s.acc.n = downs s.touches := hc
      rw [Pad.fingers, hc', going_downs h]
    unfold Pad.unhoverFake
    rw [if_pos this]
    exact ⟨h, hf⟩

theorem going_shown {ds : List Bool} {s : Pad} (h : All2 Going ds s.touches) (hb : Between ds s) (hf : s.fake = {}) :
    All2 Gone ds s.preProcess.positionFake.touches ∧ s.preProcess.positionFake = s.preProcess ∧ s.preProcess.fake = {} := by
  have h1 := going_processFake h hf
  have h2 := going_unhover h1.1 h1.2.1 (processFake_between hb).1.counted
  have h3 : All2 Gone ds s.preProcess.touches :=
    loop_all2 (R := Going) (Q := Gone) (f := endEnding) (fun i a d t ht => by
      unfold Going at ht
      unfold Gone endEnding endTouch
      rcases ht with ⟨⟨h1, h2⟩ | ⟨h1, h2, h3⟩, h4⟩ <;> simp_all) h2.1
  have hp : s.preProcess.fake = {} := h2.2
  have : s.preProcess.positionFake = s.preProcess := by
    unfold Pad.positionFake
    rw [if_pos (Or.inl (by rw [hp, count_none]; omega))]
  exact ⟨by rw [this]; exact h3, this, hp⟩

theorem gone_views {ds : List Bool} : ∀ {ts : List Finger}, All2 Gone ds ts →
    (ts.map fun t => (t.st, t.dirty)).all lifted = true ∧ (∀ t ∈ ts.map Finger.settle, t.st = .none ∧ t.hasEnded = true) := by
  induction ds with
  | nil => intro ts h; cases ts with
    | nil => simp
    | cons t ts => exact h.elim
  | cons d ds ih => intro ts h; cases ts with
    | nil => exact h.elim
    | cons t ts =>
      have h1 := ih h.2
      have h2 := h.1
      simp only [List.map_cons, List.all_cons, h1.1, Bool.and_true, List.mem_cons]
      refine ⟨?_, ?_⟩
      · rcases h2 with ⟨⟨_, h3⟩ | ⟨_, h3, _⟩, _⟩ <;> simp [lifted, h3]
      · rintro u (rfl | hu)
        · rcases h2 with ⟨⟨_, h3⟩ | ⟨_, h3, h5⟩, h4⟩ <;> simp [Finger.settle, h3, h4]
          · split <;> simp [h4, h3]
          · simp [h5, h4]
        · exact h1.2 u hu

/-- What clearing the state does. -/
theorem clear_between {ds : List Bool} {s : Pad} (h : Between ds s) :
    Between (s.clear.2.map downAfter) s.clear.1 ∧ Clean s s.clear.1 ∧ fitsAll ds s.clear.2 = true ∧
    s.clear.2.all lifted = true ∧ (∀ t ∈ s.clear.1.touches, t.st = .none ∧ t.hasEnded = true) ∧ s.clear.1.fake = {} := by
  have h1 := lifting_between h
  have h2 := handle_between h1.1
  have h3 := going_shown h1.2.2 h1.1 rfl
  have h4 := gone_views h3.1
  rw [clear_eq]
  refine ⟨h2.1, h1.2.1.trans h2.2.1, ?_, ?_, ?_, ?_⟩
  · obtain ⟨s', hs, e, _⟩ := h2.2.2
    rw [e]; exact shown_fits hs.shown
  · rw [handle_eq]; exact h4.1
  · rw [handle_eq, (post_loop _).1]; exact h4.2
  · rw [handle_eq, h3.2.1]; exact h3.2.2

/-! Histories. -/

/-- Which touches are down after something was shown. -/
def downsAfter (ds : List Bool) : List Out → List Bool
  | [] => ds
  | .frame vs :: os => downsAfter (vs.map downAfter) os
  | .cleared vs :: os => downsAfter (vs.map downAfter) os

theorem downsAfter_append (ds : List Bool) (a b : List Out) :
    downsAfter ds (a ++ b) = downsAfter (downsAfter ds a) b := by
  induction a generalizing ds with
  | nil => rfl
  | cons o a ih => cases o <;> simp [downsAfter, ih]

theorem lives_append (ds : List Bool) (a b : List Out) :
    Lives ds (a ++ b) ↔ Lives ds a ∧ Lives (downsAfter ds a) b := by
  induction a generalizing ds with
  | nil => simp [Lives, downsAfter]
  | cons o a ih => cases o <;> simp [Lives, downsAfter, ih, and_assoc]

theorem syncOne_same (n : Nat) (ks : List Slot) (i : Nat) (a : Acc) (t : Finger) :
    (syncOne n ks i a t).1 = a ∧ (syncOne n ks i a t).2.st = t.st ∧ (syncOne n ks i a t).2.dirty = t.dirty ∧
    (syncOne n ks i a t).2.hasEnded = t.hasEnded := by
  unfold syncOne
  split
  · split <;> simp
  · simp

theorem sync_between {ds : List Bool} {s : Pad} (h : Between ds s) (ks : List Slot) :
    Between ds (s.sync ks) ∧ Clean s (s.sync ks) := by
  have hk : Keeps (fun _ => True) (syncOne (max s.num 1) ks) := by
    intro i a t _ _
    obtain ⟨e1, e2, _⟩ := syncOne_same (max s.num 1) ks i a t
    rw [e1]; simp [dn, Finger.down, e2]
  have h1 := loop_keeps hk s (fun _ _ => trivial) h.counted
  refine ⟨⟨loop_all2 (R := Ev) (Q := Ev) (fun i a d t ht => ?_) h.ev, h1.1⟩, h1.2⟩
  obtain ⟨_, e2, e3, _⟩ := syncOne_same (max s.num 1) ks i a t
  simpa [Ev, e2, e3] using ht

theorem step_between {ds : List Bool} {s : Pad} (h : Between ds s) (op : Op) :
    Between (downsAfter ds (step s op).2) (step s op).1 ∧ (step s op).1.acc.bug = s.acc.bug ∧
    Lives ds (step s op).2 := by
  cases op with
  | slot v => simp only [step]; split <;> exact ⟨between_of h rfl rfl, rfl, trivial⟩
  | tracking b =>
    simp only [step]
    split
    · unfold Pad.tracking
      split
      · have h1 := onCurrent_between (s := { s with active := s.active + 1 }) (between_of h rfl rfl) newTouch (fun a t _ => by simp)
        exact ⟨h1.1, h1.2.2, trivial⟩
      · have h1 := onCurrent_between (s := { s with active := s.active - 1, acc := { s.acc with aborted := s.acc.aborted || s.active == 0 } }) (between_of h rfl rfl) endSequence (fun a t _ => by simp)
        exact ⟨h1.1, h1.2.2, trivial⟩
    · exact ⟨h, rfl, trivial⟩
  | axis ax v =>
    simp only [step]
    split
    · have h1 := onCurrent_between h (fun a t => (a, t.setAxis ax v)) (fun a t _ =>
        Or.inr (Or.inr (Or.inr (Or.inr ⟨ax, v, rfl⟩))))
      exact ⟨h1.1, h1.2.2, trivial⟩
    · exact ⟨h, rfl, trivial⟩
  | key k p => exact ⟨between_of h rfl rfl, rfl, trivial⟩
  | syn =>
    have h1 := handle_between h
    obtain ⟨s', hs, e, _⟩ := h1.2.2
    exact ⟨h1.1, h1.2.1.2, by rw [e]; exact shown_fits hs.shown, trivial⟩
  | clear =>
    have h1 := clear_between h
    exact ⟨h1.1, h1.2.1.2, ⟨h1.2.2.1, h1.2.2.2.1⟩, trivial⟩
  | sync v ks =>
    have h1 := sync_between h ks
    exact ⟨h1.1, h1.2.2, trivial⟩

theorem run_cons (s : Pad) (op : Op) (ops : List Op) :
    run s (op :: ops) = ((run (step s op).1 ops).1, (step s op).2 ++ (run (step s op).1 ops).2) := rfl

theorem run_append (s : Pad) (a b : List Op) :
    run s (a ++ b) = ((run (run s a).1 b).1, (run s a).2 ++ (run (run s a).1 b).2) := by
  induction a generalizing s with
  | nil => rfl
  | cons op a ih => rw [List.cons_append, run_cons, run_cons, ih]; simp

theorem run_between {ds : List Bool} {s : Pad} (h : Between ds s) (ops : List Op) :
    Between (downsAfter ds (run s ops).2) (run s ops).1 ∧ (run s ops).1.acc.bug = s.acc.bug ∧
    Lives ds (run s ops).2 := by
  induction ops generalizing s ds with
  | nil => exact ⟨h, rfl, trivial⟩
  | cons op ops ih =>
    have h1 := step_between h op
    have h2 := ih h1.1
    rw [run_cons]
    exact ⟨by rw [downsAfter_append]; exact h2.1, h2.2.1.trans h1.2.1, (lives_append _ _ _).mpr ⟨h1.2.2, h2.2.2⟩⟩

theorem fresh_between (cfg : Config) (num n slot : Nat) :
    Between (List.replicate n false) { cfg := cfg, touches := List.replicate n {}, slot := slot, num := num } := by
  have hd : ∀ n, downs (List.replicate n {}) = 0 := by
    intro n; simp [downs, List.countP_replicate, Finger.down]
  refine ⟨?_, (hd n).symm⟩
  induction n with
  | zero => exact trivial
  | succ n ih => exact ⟨rfl, ih⟩

theorem init_between (cfg : Config) (num n slot : Nat) (ks : List Slot) (finger : Bool) :
    Between (List.replicate n false) (init cfg num n slot ks finger) ∧ (init cfg num n slot ks finger).acc.bug = false ∧
    (init cfg num n slot ks finger).acc.aborted = false := by
  have h := sync_between (fresh_between cfg num n slot) ks
  exact ⟨between_of h.1 rfl rfl, h.2.2, h.2.1⟩

end Libinput.Touch
