import Verif.Touch.Spec
/-
Lemmas about the loops over the touches, and what holds between two frames.
-/
namespace Libinput.Touch
open Spec (downAfter)

/-- `R` relates the elements of two lists one by one. -/
def All2 {α : Type} (R : α → Finger → Prop) : List α → List Finger → Prop
  | [], [] => True
  | d :: ds, t :: ts => R d t ∧ All2 R ds ts
  | _, _ => False

theorem All2.length {α : Type} {R : α → Finger → Prop} : ∀ {ds : List α} {ts : List Finger}, All2 R ds ts →
    ds.length = ts.length
  | [], [], _ => rfl
  | _ :: _, _ :: _, h => by simp [All2.length h.2]

theorem All2.mono {α : Type} {R Q : α → Finger → Prop} (hr : ∀ d t, R d t → Q d t) :
    ∀ {ds : List α} {ts : List Finger}, All2 R ds ts → All2 Q ds ts
  | [], [], _ => trivial
  | _ :: _, _ :: _, h => ⟨hr _ _ h.1, All2.mono hr h.2⟩

theorem All2.mem {α : Type} {R : α → Finger → Prop} :
    ∀ {ds : List α} {ts : List Finger}, All2 R ds ts → ∀ t ∈ ts, ∃ d, R d t
  | [], [], _, t, ht => by simp at ht
  | d :: ds, u :: ts, h, t, ht => by
    simp only [List.mem_cons] at ht
    rcases ht with rfl | ht
    · exact ⟨d, h.1⟩
    · exact All2.mem h.2 t ht

theorem All2.and {α : Type} {R Q : α → Finger → Prop} : ∀ {ds : List α} {ts : List Finger}, All2 R ds ts →
    All2 Q ds ts → All2 (fun d t => R d t ∧ Q d t) ds ts
  | [], [], _, _ => trivial
  | _ :: _, _ :: _, h, h' => ⟨⟨h.1, h'.1⟩, All2.and h.2 h'.2⟩

theorem All2.of_forall {α : Type} {R : α → Finger → Prop} {Q : Finger → Prop} (hr : ∀ d t, Q t → R d t) :
    ∀ {ds : List α} {ts : List Finger}, ds.length = ts.length → (∀ t ∈ ts, Q t) → All2 R ds ts
  | [], [], _, _ => trivial
  | d :: ds, t :: ts, hl, h =>
    ⟨hr d t (h t (by simp)), All2.of_forall hr (by simpa using hl) (fun t ht => h t (by simp [ht]))⟩
  | [], _ :: _, hl, _ => by simp at hl
  | _ :: _, [], hl, _ => by simp at hl

theorem All2.append {α : Type} {R : α → Finger → Prop} : ∀ {ds es : List α} {ts us : List Finger},
    All2 R ds ts → All2 R es us → All2 R (ds ++ es) (ts ++ us)
  | [], _, [], _, _, h' => h'
  | _ :: _, _, _ :: _, _, h, h' => ⟨h.1, All2.append h.2 h'⟩

theorem All2.reverse {α : Type} {R : α → Finger → Prop} : ∀ {ds : List α} {ts : List Finger},
    All2 R ds ts → All2 R ds.reverse ts.reverse
  | [], [], _ => trivial
  | d :: ds, t :: ts, h => by
    simp only [List.reverse_cons]
    exact All2.append (All2.reverse h.2) ⟨h.1, trivial⟩

theorem All2.map {α : Type} {R Q : α → Finger → Prop} (g : Finger → Finger) (hr : ∀ d t, R d t → Q d (g t)) :
    ∀ {ds : List α} {ts : List Finger}, All2 R ds ts → All2 Q ds (ts.map g)
  | [], [], _ => trivial
  | _ :: _, _ :: _, h => ⟨hr _ _ h.1, All2.map g hr h.2⟩

/-- 1 for a touch that is down. -/
def dn (t : Finger) : Nat := if t.down then 1 else 0

theorem downs_cons (t : Finger) (ts : List Finger) : downs (t :: ts) = dn t + downs ts := by
  simp only [downs, List.countP_cons, dn]; omega

theorem downs_append (a b : List Finger) : downs (a ++ b) = downs a + downs b := by
  simp [downs, List.countP_append]

theorem downs_reverse (a : List Finger) : downs a.reverse = downs a := by
  simp [downs]

theorem each_nil (f : Nat → Acc → Finger → Acc × Finger) (i : Nat) (a : Acc) : each f i a [] = (a, []) := rfl

theorem each_cons (f : Nat → Acc → Finger → Acc × Finger) (i : Nat) (a : Acc) (t : Finger) (ts : List Finger) :
    each f i a (t :: ts) =
      ((each f (i + 1) (f i a t).1 ts).1, (f i a t).2 :: (each f (i + 1) (f i a t).1 ts).2) := rfl

theorem each_length (f : Nat → Acc → Finger → Acc × Finger) : ∀ (ts : List Finger) (i : Nat) (a : Acc),
    (each f i a ts).2.length = ts.length
  | [], _, _ => rfl
  | t :: ts, i, a => by simp [each_cons, each_length f ts]

/-- Every touch is changed by `f` and nothing else. -/
theorem each_get (f : Nat → Acc → Finger → Acc × Finger) : ∀ (ts : List Finger) (i : Nat) (a : Acc) (j : Nat) (t' : Finger),
    (each f i a ts).2[j]? = some t' → ∃ a' t, ts[j]? = some t ∧ t' = (f (i + j) a' t).2
  | [], _, _, j, t', h => by simp [each_nil] at h
  | t :: ts, i, a, 0, t', h => by
    simp only [each_cons, List.getElem?_cons_zero, Option.some.injEq] at h
    exact ⟨a, t, by simp, by simp [h]⟩
  | t :: ts, i, a, j + 1, t', h => by
    simp only [each_cons, List.getElem?_cons_succ] at h
    obtain ⟨a', t, h1, h2⟩ := each_get f ts (i + 1) _ j t' h
    exact ⟨a', t, by simpa using h1, by rw [h2, show i + 1 + j = i + (j + 1) by omega]⟩

theorem each_all2 {α : Type} {R Q : α → Finger → Prop} (f : Nat → Acc → Finger → Acc × Finger)
    (hf : ∀ i a d t, R d t → Q d (f i a t).2) : ∀ (ts : List Finger) (ds : List α) (i : Nat) (a : Acc),
    All2 R ds ts → All2 Q ds (each f i a ts).2
  | [], [], _, _, _ => trivial
  | t :: ts, d :: ds, i, a, h => ⟨hf i a d t h.1, each_all2 f hf ts ds (i + 1) _ h.2⟩
  | [], _ :: _, _, _, h => h.elim
  | _ :: _, [], _, _, h => h.elim

/-- `f` keeps the counter right and does nothing wrong, for touches with `P`. -/
def Keeps (P : Finger → Prop) (f : Nat → Acc → Finger → Acc × Finger) : Prop :=
  ∀ i a t, P t → dn t ≤ a.n →
    (f i a t).1.n + dn t = a.n + dn (f i a t).2 ∧ (f i a t).1.aborted = a.aborted ∧ (f i a t).1.bug = a.bug

theorem each_keeps {P : Finger → Prop} {f : Nat → Acc → Finger → Acc × Finger} (hf : Keeps P f) :
    ∀ (ts : List Finger) (i : Nat) (a : Acc), (∀ t ∈ ts, P t) → downs ts ≤ a.n →
      (each f i a ts).1.n + downs ts = a.n + downs (each f i a ts).2 ∧
      (each f i a ts).1.aborted = a.aborted ∧ (each f i a ts).1.bug = a.bug
  | [], i, a, _, _ => by simp [each_nil]
  | t :: ts, i, a, hp, hn => by
    rw [downs_cons] at hn
    have h1 := hf i a t (hp t (by simp)) (by omega)
    have h2 := each_keeps hf ts (i + 1) (f i a t).1 (fun u hu => hp u (by simp [hu])) (by omega)
    rw [each_cons]
    simp only [downs_cons]
    exact ⟨by omega, h2.2.1.trans h1.2.1, h2.2.2.trans h1.2.2⟩

/-- The counter is right. -/
def Counted (s : Pad) : Prop := s.acc.n = downs s.touches

/-- `s'` is reached from `s` without anything going wrong. -/
def Clean (s s' : Pad) : Prop := s'.acc.aborted = s.acc.aborted ∧ s'.acc.bug = s.acc.bug

theorem Clean.refl (s : Pad) : Clean s s := ⟨rfl, rfl⟩
theorem Clean.trans {a b c : Pad} (h : Clean a b) (h' : Clean b c) : Clean a c := ⟨h'.1.trans h.1, h'.2.trans h.2⟩

theorem loop_keeps {P : Finger → Prop} {f : Nat → Acc → Finger → Acc × Finger} (hf : Keeps P f) (s : Pad)
    (hp : ∀ t ∈ s.touches, P t) (hc : Counted s) : Counted (s.loop f) ∧ Clean s (s.loop f) := by
  have h := each_keeps hf s.touches 0 { s.acc with done := false } hp (Nat.le_of_eq hc.symm)
  have hc' : s.acc.n = downs s.touches := hc
  exact ⟨by simp only [Counted, Pad.loop]; simp only at h; omega, h.2⟩

theorem loopBack_keeps {P : Finger → Prop} {f : Nat → Acc → Finger → Acc × Finger} (hf : Keeps P f) (s : Pad)
    (hp : ∀ t ∈ s.touches, P t) (hc : Counted s) : Counted (s.loopBack f) ∧ Clean s (s.loopBack f) := by
  have h := each_keeps hf s.touches.reverse 0 { s.acc with done := false } (by simpa using hp)
    (by rw [downs_reverse]; exact Nat.le_of_eq hc.symm)
  have hc' : s.acc.n = downs s.touches := hc
  rw [downs_reverse] at h
  exact ⟨by simp only [Counted, Pad.loopBack, downs_reverse]; simp only at h; omega, h.2⟩

theorem loop_all2 {α : Type} {R Q : α → Finger → Prop} {f : Nat → Acc → Finger → Acc × Finger}
    (hf : ∀ i a d t, R d t → Q d (f i a t).2) {s : Pad} {ds : List α} (h : All2 R ds s.touches) :
    All2 Q ds (s.loop f).touches := each_all2 f hf _ _ _ _ h

theorem loopBack_all2 {α : Type} {R Q : α → Finger → Prop} {f : Nat → Acc → Finger → Acc × Finger}
    (hf : ∀ i a d t, R d t → Q d (f i a t).2) {s : Pad} {ds : List α} (h : All2 R ds s.touches) :
    All2 Q ds (s.loopBack f).touches := by
  have := (each_all2 f hf _ _ 0 { s.acc with done := false } h.reverse).reverse
  simpa [Pad.loopBack] using this

/-! What a touch may be between frames, while a frame is being worked out, and when it is shown to the rest of the
code; `d`: it was down after the last frame. -/

/-- Between frames. -/
def Ev (d : Bool) (t : Finger) : Prop :=
  match t.st with
  | .none | .hovering => d = false
  | .update => d = true
  | .maybeEnd => d = true ∧ t.dirty = true
  | .begin | .end_ => False

/-- While it is decided which touches are down. -/
def Mid (d : Bool) (t : Finger) : Prop :=
  match t.st with
  | .none | .hovering => d = false
  | .update => d = true
  | .maybeEnd => d = true ∧ t.dirty = true
  | .begin => d = false ∧ t.dirty = true
  | .end_ => False

/-- When it is shown. -/
def Shown (d : Bool) (t : Finger) : Prop :=
  match t.st with
  | .none | .hovering => d = false
  | .update => d = true
  | .begin => d = false ∧ t.dirty = true
  | .end_ => d = true ∧ t.dirty = true
  | .maybeEnd => False

theorem Ev.mid {d : Bool} {t : Finger} (h : Ev d t) : Mid d t := by
  unfold Ev at h; unfold Mid; split at h <;> simp_all

theorem Ev.notEnd {d : Bool} {t : Finger} (h : Ev d t) : t.st ≠ .end_ := by
  intro he; simp [Ev, he] at h

theorem Mid.notEnd {d : Bool} {t : Finger} (h : Mid d t) : t.st ≠ .end_ := by
  intro he; simp [Mid, he] at h

theorem Ev.notBegin {d : Bool} {t : Finger} (h : Ev d t) : t.st ≠ .begin := by
  intro he; simp [Ev, he] at h

/-! The single changes. -/

theorem newTouch_ev {d : Bool} {t : Finger} (a : Acc) (h : Ev d t) : Ev d (newTouch a t).2 := by
  unfold newTouch
  cases hs : t.st <;> simp_all [Ev]

theorem newTouch_keeps : Keeps (fun t => t.st ≠ .end_) (fun _ => newTouch) := by
  intro i a t hp hn
  unfold newTouch
  cases hs : t.st <;> simp_all [dn, Finger.down]

theorem maybeEnd_ev {d : Bool} {t : Finger} (a : Acc) (h : Ev d t) : Ev d (maybeEndTouch a t).2 := by
  unfold maybeEndTouch
  cases hs : t.st <;> simp_all [Ev]

theorem maybeEnd_keeps : Keeps (fun t => t.st ≠ .end_) (fun _ => maybeEndTouch) := by
  intro i a t hp hn
  unfold maybeEndTouch
  cases hs : t.st <;> simp_all [dn, Finger.down] <;> omega

theorem endSequence_ev {d : Bool} {t : Finger} (a : Acc) (h : Ev d t) : Ev d (endSequence a t).2 := by
  unfold endSequence
  exact maybeEnd_ev a (by simpa [Ev] using h)

theorem endSequence_keeps : Keeps (fun t => t.st ≠ .end_) (fun _ => endSequence) := by
  intro i a t hp hn
  exact maybeEnd_keeps i a { t with hasEnded := true } hp hn

theorem recover_keeps : Keeps (fun t => t.st = .maybeEnd) (fun _ => recoverTouch) := by
  intro i a t hp hn
  simp [recoverTouch, dn, Finger.down, hp]

theorem begin_keeps : Keeps (fun t => t.st = .hovering) (fun _ => beginTouch) := by
  intro i a t hp hn
  simp [beginTouch, dn, Finger.down, hp]

theorem keeps_id {P : Finger → Prop} : Keeps P (fun _ a t => (a, t)) := by
  intro i a t _ _; simp

theorem setAxis_st (t : Finger) (ax : Axis) (v : Int) : (t.setAxis ax v).st = t.st := by
  cases ax <;> rfl

theorem setAxis_hasEnded (t : Finger) (ax : Axis) (v : Int) : (t.setAxis ax v).hasEnded = t.hasEnded := by
  cases ax <;> rfl

theorem setAxis_dirty (t : Finger) (ax : Axis) (v : Int) : (t.setAxis ax v).dirty = true := by
  cases ax <;> rfl

/-! The loops. -/

/-- What holds between frames: `ds` says which touches were down after the last one. -/
structure Between (ds : List Bool) (s : Pad) : Prop where
  ev : All2 Ev ds s.touches
  counted : Counted s

theorem Between.notEnd {ds : List Bool} {s : Pad} (h : Between ds s) : ∀ t ∈ s.touches, t.st ≠ .end_ := by
  intro t ht
  obtain ⟨d, hd⟩ := h.ev.mem t ht
  exact hd.notEnd

/-- A loop that only starts and ends sequences. -/
theorem loop_between {ds : List Bool} {s : Pad} (h : Between ds s) (f : Nat → Acc → Finger → Acc × Finger)
    (hf : ∀ i a t, t.st ≠ .end_ →
      f i a t = newTouch a t ∨ f i a t = endSequence a t ∨ f i a t = (a, t) ∨
      (t.st = .maybeEnd ∧ f i a t = recoverTouch a t) ∨ (∃ ax v, f i a t = (a, t.setAxis ax v))) :
    Between ds (s.loop f) ∧ Clean s (s.loop f) := by
  have hk : Keeps (fun t => t.st ≠ .end_) f := by
    intro i a t hp hn
    rcases hf i a t hp with e | e | e | ⟨hm, e⟩ | ⟨ax, v, e⟩
    · rw [e]; exact newTouch_keeps i a t hp hn
    · rw [e]; exact endSequence_keeps i a t hp hn
    · rw [e]; simp
    · rw [e]; exact recover_keeps i a t hm hn
    · rw [e]; simp [dn, Finger.down, setAxis_st]
  have he : ∀ i a d t, Ev d t → Ev d (f i a t).2 := by
    intro i a d t ht
    rcases hf i a t ht.notEnd with e | e | e | ⟨hm, e⟩ | ⟨ax, v, e⟩
    · rw [e]; exact newTouch_ev a ht
    · rw [e]; exact endSequence_ev a ht
    · rw [e]; exact ht
    · rw [e]; simp only [Ev, hm] at ht; simp [recoverTouch, Ev, ht.1]
    · rw [e]; simp only [Ev, setAxis_st, setAxis_dirty] at ht ⊢; split at ht <;> simp_all
  have h1 := loop_keeps hk s h.notEnd h.counted
  exact ⟨⟨loop_all2 he h.ev, h1.1⟩, h1.2⟩

theorem onCurrent_between {ds : List Bool} {s : Pad} (h : Between ds s) (f : Acc → Finger → Acc × Finger)
    (hf : ∀ a t, t.st ≠ .end_ → f a t = newTouch a t ∨ f a t = endSequence a t ∨ f a t = (a, t) ∨
      (t.st = .maybeEnd ∧ f a t = recoverTouch a t) ∨ (∃ ax v, f a t = (a, t.setAxis ax v))) :
    Between ds (s.onCurrent f) ∧ Clean s (s.onCurrent f) := by
  apply loop_between h
  intro i a t ht
  by_cases hc : i = s.current
  · simp only [hc, if_true]; exact hf a t ht
  · simp [hc]

theorem between_of {ds : List Bool} {s s' : Pad} (h : Between ds s) (ht : s'.touches = s.touches)
    (hn : s'.acc.n = s.acc.n) : Between ds s' :=
  ⟨by rw [ht]; exact h.ev, by simp only [Counted, ht, hn]; exact h.counted⟩

theorem restore_between {ds : List Bool} {s : Pad} (h : Between ds s) :
    Between ds s.restore ∧ Clean s s.restore := by
  unfold Pad.restore
  split
  · exact ⟨h, Clean.refl s⟩
  · split
    · exact ⟨h, Clean.refl s⟩
    · apply loop_between h
      intro i a t ht
      by_cases hc : i < s.num ∧ t.st = .maybeEnd
      · rw [if_pos hc]; exact Or.inr (Or.inr (Or.inr (Or.inl ⟨hc.2, rfl⟩)))
      · simp [hc]

theorem fewerSlots_between {ds : List Bool} {s : Pad} (h : Between ds s) :
    Between ds s.fewerSlots ∧ Clean s s.fewerSlots := by
  unfold Pad.fewerSlots
  split
  · exact ⟨between_of h rfl rfl, Clean.refl s⟩
  · exact ⟨h, Clean.refl s⟩

/-- The state after the slots of a Synaptics or ALPS touchpad were put right. -/
def Pad.beforeFake (s : Pad) : Pad := (if s.cfg.synaptics then s.restore else s).fewerSlots

/-- The loop of `tp_process_fake_touches`. -/
def fakeOne (first nfake : Nat) (i : Nat) (a : Acc) (t : Finger) : Acc × Finger :=
  if i < first then (a, t) else if i < nfake then newTouch a t else endSequence a t

theorem processFake_eq (s : Pad) : s.processFake =
    if s.fake.count = 128 then s
    else s.beforeFake.loop (fakeOne s.beforeFake.firstFake s.beforeFake.fake.count) := rfl

theorem beforeFake_between {ds : List Bool} {s : Pad} (h : Between ds s) :
    Between ds s.beforeFake ∧ Clean s s.beforeFake := by
  unfold Pad.beforeFake
  have h1 : Between ds (if s.cfg.synaptics then s.restore else s) ∧
      Clean s (if s.cfg.synaptics then s.restore else s) := by
    split
    · exact restore_between h
    · exact ⟨h, Clean.refl s⟩
  have h2 := fewerSlots_between h1.1
  exact ⟨h2.1, h1.2.trans h2.2⟩

theorem processFake_between {ds : List Bool} {s : Pad} (h : Between ds s) :
    Between ds s.processFake ∧ Clean s s.processFake := by
  rw [processFake_eq]
  split
  · exact ⟨h, Clean.refl s⟩
  · have h1 := beforeFake_between h
    have h2 := loop_between h1.1 (fakeOne s.beforeFake.firstFake s.beforeFake.fake.count) (by
      intro i a t ht
      unfold fakeOne
      by_cases h1 : i < s.beforeFake.firstFake
      · simp [h1]
      · by_cases h2 : i < s.beforeFake.fake.count <;> simp [h1, h2])
    exact ⟨h2.1, h1.2.trans h2.2⟩

/-! Which touches are down. -/

/-- While it is decided which touches are down. -/
structure During (ds : List Bool) (s : Pad) : Prop where
  mid : All2 Mid ds s.touches
  counted : Counted s

theorem During.notEnd {ds : List Bool} {s : Pad} (h : During ds s) : ∀ t ∈ s.touches, t.st ≠ .end_ := by
  intro t ht
  obtain ⟨d, hd⟩ := h.mid.mem t ht
  exact hd.notEnd

theorem Between.during {ds : List Bool} {s : Pad} (h : Between ds s) : During ds s :=
  ⟨h.ev.mono fun _ _ => Ev.mid, h.counted⟩

theorem begin_mid {d : Bool} {t : Finger} (a : Acc) (h : Mid d t) (hs : t.st = .hovering) : Mid d (beginTouch a t).2 := by
  simp only [Mid, hs] at h
  simp [beginTouch, Mid, h]

theorem maybeEnd_mid {d : Bool} {t : Finger} (a : Acc) (h : Mid d t) (hs : t.st = .update ∨ t.st = .maybeEnd) :
    Mid d (maybeEndTouch a t).2 := by
  rcases hs with hs | hs <;> simp only [Mid, hs] at h <;> simp [maybeEndTouch, Mid, hs, h]

/-- A loop that begins hovering touches and ends those that were down, starting from what holds between frames. -/
theorem loop_during {ds : List Bool} {s : Pad} (h : Between ds s) (f : Nat → Acc → Finger → Acc × Finger)
    (hf : ∀ i a t, t.st ≠ .end_ → t.st ≠ .begin →
      f i a t = (a, t) ∨ (t.st = .hovering ∧ f i a t = beginTouch a t) ∨
      ((t.st = .update ∨ t.st = .maybeEnd) ∧ f i a t = maybeEndTouch a t)) :
    During ds (s.loop f) ∧ Clean s (s.loop f) := by
  have hk : Keeps (fun t => t.st ≠ .end_ ∧ t.st ≠ .begin) f := by
    intro i a t hp hn
    rcases hf i a t hp.1 hp.2 with e | ⟨hs, e⟩ | ⟨_, e⟩
    · rw [e]; simp
    · rw [e]; exact begin_keeps i a t hs hn
    · rw [e]; exact maybeEnd_keeps i a t hp.1 hn
  have he : ∀ i a d t, Ev d t → Mid d (f i a t).2 := by
    intro i a d t ht
    rcases hf i a t ht.notEnd ht.notBegin with e | ⟨hs, e⟩ | ⟨hs, e⟩
    · rw [e]; exact ht.mid
    · rw [e]; exact begin_mid a ht.mid hs
    · rw [e]; exact maybeEnd_mid a ht.mid hs
  have h1 := loop_keeps hk s (fun t ht => by
    obtain ⟨d, hd⟩ := h.ev.mem t ht
    exact ⟨hd.notEnd, hd.notBegin⟩) h.counted
  exact ⟨⟨loop_all2 he h.ev, h1.1⟩, h1.2⟩

theorem beginOne_cases (nfake i : Nat) (a : Acc) (t : Finger) :
    beginOne nfake i a t = (a, t) ∨
    (t.st = .hovering ∧ (beginOne nfake i a t).2 = (beginTouch a t).2 ∧
      (beginOne nfake i a t).1.n = a.n + 1 ∧ (beginOne nfake i a t).1.aborted = a.aborted ∧
      (beginOne nfake i a t).1.bug = a.bug) := by
  unfold beginOne
  by_cases hd : a.done
  · simp [hd]
  · by_cases hs : t.st = .hovering
    · right; simp [hd, hs, beginTouch]
    · simp [hd, hs]

theorem beginOne_keeps (nfake : Nat) : Keeps (fun _ => True) (beginOne nfake) := by
  intro i a t _ hn
  rcases beginOne_cases nfake i a t with e | ⟨hs, e1, e2, e3, e4⟩
  · rw [e]; simp
  · rw [e1, e2]; exact ⟨by simp [beginTouch, dn, Finger.down, hs], e3, e4⟩

theorem beginOne_mid (nfake i : Nat) (a : Acc) {d : Bool} {t : Finger} (h : Mid d t) :
    Mid d (beginOne nfake i a t).2 := by
  rcases beginOne_cases nfake i a t with e | ⟨hs, e1, _⟩
  · rw [e]; exact h
  · rw [e1]; exact begin_mid a h hs

theorem begin_loop {ds : List Bool} {s : Pad} (h : During ds s) (nfake : Nat) :
    During ds (s.loop (beginOne nfake)) ∧ Clean s (s.loop (beginOne nfake)) := by
  have h1 := loop_keeps (beginOne_keeps nfake) s (fun _ _ => trivial) h.counted
  exact ⟨⟨loop_all2 (R := Mid) (Q := Mid) (f := beginOne nfake) (fun i a d t ht => beginOne_mid nfake i a ht) h.mid, h1.1⟩, h1.2⟩

/-- The loop stops when there are enough touches. -/
theorem begin_enough (nfake : Nat) : ∀ (ts : List Finger) (i : Nat) (a : Acc), (a.done = true → a.n ≤ nfake) →
    (a.done = false → a.n < nfake) → (each (beginOne nfake) i a ts).1.n ≤ nfake
  | [], i, a, h1, h2 => by
    rw [each_nil]; cases hd : a.done
    · exact Nat.le_of_lt (h2 hd)
    · exact h1 hd
  | t :: ts, i, a, h1, h2 => by
    rw [each_cons]
    apply begin_enough nfake ts
    · intro hd
      by_cases hx : a.done
      · simp only [beginOne, hx, if_true]; exact h1 hx
      · by_cases hs : t.st = .hovering
        · have := h2 (by simpa using hx)
          simp only [beginOne, hx, hs, if_true, beginTouch]; simp; omega
        · have := h2 (by simpa using hx)
          simp only [beginOne, hx, hs, if_false]; simp; omega
    · intro hd
      by_cases hx : a.done
      · simp only [beginOne, hx, if_true] at hd; simp at hd
      · by_cases hs : t.st = .hovering
        · simp only [beginOne, hx, hs, if_true, beginTouch] at hd ⊢; simpa using hd
        · have := h2 (by simpa using hx)
          simp only [beginOne, hx, hs, if_false]; simpa using this

theorem endOne_cases (all : Bool) (nfake i : Nat) (a : Acc) (t : Finger) :
    endOne all nfake i a t = (a, t) ∨
    (t.st ≠ .hovering ∧ t.st ≠ .none ∧ (endOne all nfake i a t).2 = (maybeEndTouch a t).2 ∧
      (endOne all nfake i a t).1.n = (maybeEndTouch a t).1.n ∧
      (endOne all nfake i a t).1.aborted = (maybeEndTouch a t).1.aborted ∧
      (endOne all nfake i a t).1.bug = (maybeEndTouch a t).1.bug) := by
  unfold endOne
  by_cases hd : a.done
  · simp [hd]
  · cases hs : t.st <;> simp [hd]

theorem endOne_keeps (all : Bool) (nfake : Nat) : Keeps (fun t => t.st ≠ .end_) (endOne all nfake) := by
  intro i a t hp hn
  rcases endOne_cases all nfake i a t with e | ⟨_, _, e1, e2, e3, e4⟩
  · rw [e]; simp
  · rw [e1, e2, e3, e4]; exact maybeEnd_keeps i a t hp hn

/-- The ending loop, when no touch has just begun. -/
theorem end_loop {ds : List Bool} {s : Pad} (h : Between ds s) (all : Bool) (nfake : Nat) :
    During ds (s.loopBack (endOne all nfake)) ∧ Clean s (s.loopBack (endOne all nfake)) := by
  have h1 := loopBack_keeps (endOne_keeps all nfake) s h.notEnd h.counted
  refine ⟨⟨loopBack_all2 (fun i a d t ht => ?_) h.ev, h1.1⟩, h1.2⟩
  rcases endOne_cases all nfake i a t with e | ⟨hh, hn, e1, _⟩
  · rw [e]; exact ht.mid
  · rw [e1]
    refine maybeEnd_mid a ht.mid ?_
    have h1 := ht.notEnd
    have h2 := ht.notBegin
    cases hs : t.st <;> simp_all

theorem unhoverFake_during {ds : List Bool} {s : Pad} (h : Between ds s) :
    During ds s.unhoverFake ∧ Clean s s.unhoverFake := by
  unfold Pad.unhoverFake
  split
  · exact ⟨h.during, Clean.refl s⟩
  split
  · exact ⟨h.during, Clean.refl s⟩
  split
  · exact ⟨h.during, Clean.refl s⟩
  · by_cases hb : s.fake.touch = true ∧ s.fingers < s.fake.count
    · have h1 := begin_loop h.during s.fake.count
      have h2 : (s.loop (beginOne s.fake.count)).acc.n ≤ s.fake.count :=
        begin_enough s.fake.count s.touches 0 { s.acc with done := false } (fun hd => by simp at hd)
          (fun _ => hb.2)
      have h3 : ¬ ((s.loop (beginOne s.fake.count)).fingers > s.fake.count ∨ s.fake.touch = false) := by
        simp only [Pad.fingers, hb.1]; simp; omega
      simp only [if_pos hb, if_neg h3]
      exact h1
    · simp only [if_neg hb]
      split
      · exact end_loop h _ _
      · exact ⟨h.during, Clean.refl s⟩

theorem sizeOne_cases (low high : Int) (num i : Nat) (a : Acc) (t : Finger) :
    t.st ≠ .end_ → t.st ≠ .begin →
      sizeOne low high num i a t = (a, t) ∨ (t.st = .hovering ∧ sizeOne low high num i a t = beginTouch a t) ∨
      ((t.st = .update ∨ t.st = .maybeEnd) ∧ sizeOne low high num i a t = maybeEndTouch a t) := by
  intro h1 h2
  unfold sizeOne
  by_cases hc : i < num ∧ t.dirty
  · rw [if_pos hc]
    cases hs : t.st
    case none => exact Or.inl rfl
    case begin => exact absurd hs h2
    case end_ => exact absurd hs h1
    case hovering =>
      dsimp only
      split
      · exact Or.inr (Or.inl ⟨rfl, rfl⟩)
      · exact Or.inl rfl
    all_goals
      dsimp only
      split
      · exact Or.inr (Or.inr ⟨by simp, rfl⟩)
      · exact Or.inl rfl
  · exact Or.inl (if_neg hc)

theorem pressOne_cases (low high : Int) (num nfake i : Nat) (a : Acc) (t : Finger) :
    t.st ≠ .end_ → t.st ≠ .begin →
      pressOne low high num nfake i a t = (a, t) ∨
      (t.st = .hovering ∧ pressOne low high num nfake i a t = beginTouch a t) ∨
      ((t.st = .update ∨ t.st = .maybeEnd) ∧ pressOne low high num nfake i a t = maybeEndTouch a t) := by
  intro h1 h2
  unfold pressOne
  by_cases hc : i < num ∧ t.dirty
  · rw [if_pos hc]
    cases hs : t.st
    case none => exact Or.inl rfl
    case begin => exact absurd hs h2
    case end_ => exact absurd hs h1
    case hovering =>
      dsimp only
      split
      · exact Or.inr (Or.inl ⟨rfl, rfl⟩)
      · exact Or.inl rfl
    all_goals
      dsimp only
      split
      · exact Or.inr (Or.inr ⟨by simp, rfl⟩)
      · exact Or.inl rfl
  · exact Or.inl (if_neg hc)

theorem unhoverSize_during {ds : List Bool} {s : Pad} (h : Between ds s) (low high : Int) :
    During ds (s.unhoverSize low high) ∧ Clean s (s.unhoverSize low high) :=
  loop_during h _ fun i a t => sizeOne_cases low high s.num i a t

/-! By pressure: there are never more touches than the buttons say, if they say more than there are slots. -/

/-- A touch that hovers or is down. -/
def present (t : Finger) : Bool := t.st == .hovering || t.down

theorem downs_le_present (ts : List Finger) : downs ts ≤ ts.countP present := by
  apply List.countP_mono_left
  intro t _ h
  simp [present, h]

theorem each_present (f : Nat → Acc → Finger → Acc × Finger)
    (hf : ∀ i a t, present (f i a t).2 = true → present t = true) :
    ∀ (ts : List Finger) (i : Nat) (a : Acc), (each f i a ts).2.countP present ≤ ts.countP present
  | [], _, _ => by simp [each_nil]
  | t :: ts, i, a => by
    have ih := each_present f hf ts (i + 1) (f i a t).1
    rw [each_cons]
    simp only [List.countP_cons]
    have := hf i a t
    by_cases h1 : present (f i a t).2 = true
    · simp only [h1, this h1, if_true]; omega
    · simp only [h1]; simp; omega

theorem beginOne_present (nfake i : Nat) (a : Acc) (t : Finger)
    (h : present (beginOne nfake i a t).2 = true) : present t = true := by
  rcases beginOne_cases nfake i a t with e | ⟨hs, _⟩
  · rw [e] at h; exact h
  · simp [present, hs]

theorem pressOne_present (low high : Int) (num nfake i : Nat) (a : Acc) (t : Finger)
    (h : present (pressOne low high num nfake i a t).2 = true) : present t = true := by
  unfold pressOne at h
  split at h
  · cases hs : t.st <;> simp only [hs] at h
    case none => exact h
    case hovering => simp [present, hs]
    case begin => simp [present, hs, Finger.down]
    case update => simp [present, hs, Finger.down]
    all_goals
      split at h
      · simpa [maybeEndTouch, hs] using h
      · exact h
  · exact h

/-- If there are more fingers than slots, there are at most as many touches as fingers. -/
def Few (s : Pad) : Prop :=
  s.fake.count ≠ 128 → s.num < s.fake.count → s.touches.countP present ≤ s.fake.count

theorem mem_of_drop {ts : List Finger} {k : Nat} {t : Finger} (h : t ∈ ts.drop k) :
    ∃ j, k ≤ j ∧ ts[j]? = some t := by
  obtain ⟨j, hj, e⟩ := List.getElem_of_mem h
  refine ⟨k + j, by omega, ?_⟩
  rw [List.getElem_drop] at e
  rw [← e, List.getElem?_eq_getElem]

theorem count_of_rest (ts : List Finger) (k : Nat) (h : ∀ j, k ≤ j → ∀ t, ts[j]? = some t → present t = false) :
    ts.countP present ≤ k := by
  have h1 : ts.countP present = (ts.take k).countP present + (ts.drop k).countP present := by
    rw [← List.countP_append, List.take_append_drop]
  have h2 : (ts.drop k).countP present = 0 := by
    rw [List.countP_eq_zero]
    intro t ht
    obtain ⟨j, hj, e⟩ := mem_of_drop ht
    simp [h j hj t e]
  have h3 : (ts.take k).countP present ≤ (ts.take k).length := List.countP_le_length
  simp only [List.length_take] at h3
  omega

theorem loop_num (s : Pad) (f : Nat → Acc → Finger → Acc × Finger) : (s.loop f).num = s.num := rfl
theorem loop_fake (s : Pad) (f : Nat → Acc → Finger → Acc × Finger) : (s.loop f).fake = s.fake := rfl
theorem loop_cfg (s : Pad) (f : Nat → Acc → Finger → Acc × Finger) : (s.loop f).cfg = s.cfg := rfl

theorem restore_fake (s : Pad) : s.restore.fake = s.fake ∧ s.restore.cfg = s.cfg ∧ s.restore.num = s.num ∧
    s.restore.active = s.active := by
  unfold Pad.restore
  split
  · simp
  · split <;> simp [Pad.loop]

theorem fewerSlots_same (s : Pad) : s.fewerSlots.fake = s.fake ∧ s.fewerSlots.cfg = s.cfg ∧
    s.fewerSlots.touches = s.touches ∧ s.fewerSlots.acc = s.acc := by
  unfold Pad.fewerSlots
  split <;> simp

theorem beforeFake_same (s : Pad) : s.beforeFake.fake = s.fake ∧ s.beforeFake.cfg = s.cfg := by
  unfold Pad.beforeFake
  rw [(fewerSlots_same _).1, (fewerSlots_same _).2.1]
  split
  · exact ⟨(restore_fake s).1, (restore_fake s).2.1⟩
  · simp

theorem firstFake_le (s : Pad) : s.firstFake ≤ s.num := by
  unfold Pad.firstFake; split <;> omega

theorem processFake_few (s : Pad) {ds : List Bool} (h : Between ds s) : Few s.processFake := by
  rw [processFake_eq]
  split
  · rename_i ho; intro h1 _; exact absurd ho h1
  · intro _ h2
    rw [loop_num, loop_fake] at h2
    rw [loop_fake]
    apply count_of_rest
    intro j hj t ht
    obtain ⟨a', t0, h0, e⟩ := each_get _ _ _ _ _ _ ht
    have hb := beforeFake_between h
    have hm : t0 ∈ s.beforeFake.touches := List.mem_of_getElem? h0
    obtain ⟨d, hd⟩ := hb.1.ev.mem t0 hm
    have hf := firstFake_le s.beforeFake
    have h3 : ¬ (0 + j < s.beforeFake.firstFake) := by omega
    have h4 : ¬ (0 + j < s.beforeFake.fake.count) := by omega
    rw [e]
    simp only [fakeOne, if_neg h3, if_neg h4, endSequence, maybeEndTouch]
    have h5 := hd.notEnd
    cases hs : t0.st <;> simp_all [present, Finger.down]

theorem between_of_during {ds : List Bool} {s : Pad} (h : During ds s) (hb : ∀ t ∈ s.touches, t.st ≠ .begin) :
    Between ds s := by
  refine ⟨?_, h.counted⟩
  have h1 : All2 (fun _ t => t.st ≠ .begin) ds s.touches :=
    All2.of_forall (fun _ _ h => h) h.mid.length hb
  exact (h.mid.and h1).mono fun d t ht => by
    have h2 := ht.1
    have h3 := ht.2
    unfold Mid at h2; unfold Ev
    split at h2 <;> simp_all

theorem unhoverPressure_eq (s : Pad) (low high : Int) : s.unhoverPressure low high =
    (let s1 := s.loop (pressOne low high s.num s.fakeOrNone)
     let real := downs (s1.touches.take s1.num)
     if s.fakeOrNone ≤ s1.num ∨ s1.fingers = 0 then s1
     else
       let s2 := if real > 0 then s1.loop (beginOne s.fakeOrNone) else s1
       if s2.fingers > s.fakeOrNone ∨ real = 0 then s2.loopBack (endOne (decide (real = 0)) s.fakeOrNone) else s2) := rfl

theorem unhoverPressure_during {ds : List Bool} {s : Pad} (h : Between ds s) (hw : Few s) (low high : Int) :
    During ds (s.unhoverPressure low high) ∧ Clean s (s.unhoverPressure low high) := by
  rw [unhoverPressure_eq]
  obtain ⟨s1, e1⟩ : ∃ x, x = s.loop (pressOne low high s.num s.fakeOrNone) := ⟨_, rfl⟩
  have h1 : During ds s1 ∧ Clean s s1 := by
    rw [e1]; exact loop_during h _ fun i a t => pressOne_cases low high s.num s.fakeOrNone i a t
  have hn : s1.num = s.num := by rw [e1, loop_num]
  simp only [← e1]
  split
  · exact h1
  · rename_i hc
    have hne : s.fake.count ≠ 128 := by
      intro ho; apply hc; left; simp [Pad.fakeOrNone, ho]
    have hfo : s.fakeOrNone = s.fake.count := by simp [Pad.fakeOrNone, hne]
    have hlt : s.num < s.fake.count := by
      have : ¬ (s.fakeOrNone ≤ s1.num) := fun h => hc (Or.inl h)
      omega
    have hp : s1.touches.countP present ≤ s.fakeOrNone := by
      rw [e1]
      refine Nat.le_trans ?_ (Nat.le_of_eq hfo.symm)
      exact Nat.le_trans (each_present _ (pressOne_present low high s.num s.fakeOrNone) s.touches 0 _) (hw hne hlt)
    by_cases hr : downs (s1.touches.take s1.num) > 0
    · rw [if_pos hr]
      have h2 := begin_loop h1.1 s.fakeOrNone
      have h3 : (s1.loop (beginOne s.fakeOrNone)).touches.countP present ≤ s.fakeOrNone :=
        Nat.le_trans (each_present _ (beginOne_present s.fakeOrNone) s1.touches 0 _) hp
      have h4 := downs_le_present (s1.loop (beginOne s.fakeOrNone)).touches
      have h5 : (s1.loop (beginOne s.fakeOrNone)).acc.n = _ := h2.1.counted
      rw [if_neg]
      · exact ⟨h2.1, h1.2.trans h2.2⟩
      · simp only [Pad.fingers]; omega
    · rw [if_neg hr, if_pos (Or.inr (by omega))]
      have hb : Between ds s1 := by
        apply between_of_during h1.1
        intro t ht hbeg
        obtain ⟨j, hj, e⟩ := List.getElem_of_mem ht
        have hg : s1.touches[j]? = some t := by rw [← e, List.getElem?_eq_getElem]
        by_cases hjn : j < s1.num
        · have hm : t ∈ s1.touches.take s1.num := by
            rw [← e]; exact List.mem_take_iff_getElem.mpr ⟨j, by omega, rfl⟩
          have : 0 < downs (s1.touches.take s1.num) :=
            List.countP_pos_iff.mpr ⟨t, hm, by simp [Finger.down, hbeg]⟩
          omega
        · rw [e1] at hg
          obtain ⟨a', t0, h0, e'⟩ := each_get _ _ _ _ _ _ hg
          have : ¬ (0 + j < s.num ∧ t0.dirty = true) := by omega
          rw [pressOne, if_neg this] at e'
          obtain ⟨d, hd⟩ := h.ev.mem t0 (List.mem_of_getElem? h0)
          exact hd.notBegin (by rw [e'] at hbeg; exact hbeg)
      have h2 := end_loop hb (decide (downs (s1.touches.take s1.num) = 0)) s.fakeOrNone
      exact ⟨h2.1, h1.2.trans h2.2⟩

theorem unhover_during {ds : List Bool} {s : Pad} (h : Between ds s) (hw : Few s) :
    During ds s.unhover ∧ Clean s s.unhover := by
  unfold Pad.unhover
  split
  · exact unhoverPressure_during h hw _ _
  · exact unhoverSize_during h _ _
  · exact unhoverFake_during h

/-! The end of a frame. -/

/-- When the touches are shown to the rest of the code. -/
structure Showing (ds : List Bool) (s : Pad) : Prop where
  shown : All2 Shown ds s.touches
  counted : Counted s

theorem endEnding_keeps : Keeps (fun t => t.st ≠ .end_) endEnding := by
  intro i a t hp hn
  unfold endEnding endTouch
  cases hs : t.st <;> simp_all [dn, Finger.down]

theorem preProcess_showing {ds : List Bool} {s : Pad} (h : Between ds s) :
    Showing ds s.preProcess ∧ Clean s s.preProcess := by
  have h1 := processFake_between h
  have h2 := unhover_during h1.1 (processFake_few s h)
  have h3 := loop_keeps endEnding_keeps _ h2.1.notEnd h2.1.counted
  refine ⟨⟨loop_all2 (R := Mid) (Q := Shown) (f := endEnding) (fun i a d t ht => ?_) h2.1.mid, h3.1⟩, (h1.2.trans h2.2).trans h3.2⟩
  unfold endEnding endTouch
  unfold Mid at ht
  unfold Shown
  cases hs : t.st <;> simp_all

theorem positionOne_keeps (start : Nat) (b : Finger) : Keeps (fun _ => True) (positionOne start b) := by
  intro i a t _ _
  unfold positionOne
  split <;> simp [dn, Finger.down]

theorem positionOne_shown (start : Nat) (b : Finger) (i : Nat) (a : Acc) {d : Bool} {t : Finger} (ht : Shown d t) :
    Shown d (positionOne start b i a t).2 := by
  unfold positionOne
  split
  · exact ht
  · unfold Shown at ht ⊢
    cases hs : t.st <;> simp_all

theorem positionFake_showing {ds : List Bool} {s : Pad} (h : Showing ds s) :
    Showing ds s.positionFake ∧ Clean s s.positionFake := by
  unfold Pad.positionFake
  split
  · exact ⟨h, Clean.refl s⟩
  · split
    · exact ⟨⟨h.shown, h.counted⟩, rfl, rfl⟩
    · rename_i b _
      have h3 := loop_keeps (positionOne_keeps (if s.cfg.hasMt then s.num else 1) b) s (fun _ _ => trivial) h.counted
      exact ⟨⟨loop_all2 (R := Shown) (Q := Shown) (fun i a d t ht => positionOne_shown _ b i a ht) h.shown, h3.1⟩, h3.2⟩

theorem settle_st (t : Finger) : t.settle.st =
    if t.dirty then
      match t.st with
      | .end_ => if t.hasEnded then .none else .hovering
      | .begin => .update
      | x => x
    else t.st := by
  unfold Finger.settle
  split
  · cases hs : t.st <;> simp
  · rfl

theorem post_loop (s : Pad) : s.postProcess.touches = s.touches.map Finger.settle ∧ s.postProcess.acc.n = s.acc.n ∧
    s.postProcess.acc.aborted = s.acc.aborted ∧ s.postProcess.acc.bug = s.acc.bug := by
  have : ∀ (ts : List Finger) (i : Nat) (a : Acc), each (fun _ a t => (a, t.settle)) i a ts = (a, ts.map Finger.settle) := by
    intro ts
    induction ts with
    | nil => intro i a; rfl
    | cons t ts ih => intro i a; rw [each_cons, ih]; rfl
  simp [Pad.postProcess, Pad.loop, this]

theorem settle_ev {d : Bool} {t : Finger} (h : Shown d t) : Ev (downAfter (t.st, t.dirty)) t.settle := by
  unfold Shown at h
  unfold Ev
  rw [settle_st]
  cases hs : t.st <;> simp_all [downAfter]
  case end_ => cases t.hasEnded <;> simp

theorem settle_dn {d : Bool} {t : Finger} (h : Shown d t) : dn t.settle = dn t := by
  unfold Shown at h
  unfold dn Finger.down
  rw [settle_st]
  cases hs : t.st <;> simp_all
  case end_ => cases t.hasEnded <;> simp

theorem settle_all {ds : List Bool} : ∀ {ts : List Finger}, All2 Shown ds ts →
    All2 Ev (ts.map fun t => downAfter (t.st, t.dirty)) (ts.map Finger.settle) ∧ downs (ts.map Finger.settle) = downs ts := by
  induction ds with
  | nil => intro ts h; cases ts with
    | nil => exact ⟨trivial, rfl⟩
    | cons t ts => exact h.elim
  | cons d ds ih => intro ts h; cases ts with
    | nil => exact h.elim
    | cons t ts =>
      have h1 := ih h.2
      refine ⟨⟨settle_ev h.1, h1.1⟩, ?_⟩
      rw [List.map_cons, downs_cons, downs_cons, h1.2, settle_dn h.1]

theorem handle_eq (s : Pad) : s.handle = (s.preProcess.positionFake.postProcess, s.preProcess.positionFake.views) := rfl

/-- What a frame does. -/
theorem handle_between {ds : List Bool} {s : Pad} (h : Between ds s) :
    Between (s.handle.2.map downAfter) s.handle.1 ∧ Clean s s.handle.1 ∧
    (∃ s', Showing ds s' ∧ s.handle.2 = s'.views ∧ s'.acc.n = s.handle.1.acc.n) := by
  have h1 := preProcess_showing h
  have h2 := positionFake_showing h1.1
  have h3 := settle_all h2.1.shown
  have h4 := post_loop s.preProcess.positionFake
  rw [handle_eq]
  refine ⟨⟨?_, ?_⟩, ?_, _, h2.1, rfl, h4.2.1.symm⟩
  · rw [h4.1]
    simpa [Pad.views, Function.comp_def] using h3.1
  · have : s.preProcess.positionFake.acc.n = _ := h2.1.counted
    simp only [Counted, h4.1, h4.2.1, h3.2, this]
  · have := h1.2.trans h2.2
    exact ⟨h4.2.2.1.trans this.1, h4.2.2.2.trans this.2⟩

end Libinput.Touch
