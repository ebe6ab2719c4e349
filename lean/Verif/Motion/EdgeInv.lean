import Verif.Motion.Edge
/-
What is always true of a touch as far as edge scrolling goes, in histories that are careful.
-/
namespace Libinput.Motion
open Touch (St)

/-! ### One touch -/

/-- Nothing is known about an edge. -/
def Finger.noEdge (t : Finger) : Prop := t.edgeR = false ∧ t.edgeB = false
/-- The touch is not on an edge. -/
def Finger.off (t : Finger) : Prop := t.edgeSt = .none ∨ t.edgeSt = .area

/-- Between frames. -/
structure EI (m : Method) (t : Finger) : Prop where
  dir : ∀ a, t.dir = some a → t.edgeSt = .edge ∧ t.edgeAxis = some a
  bits : t.off → t.noEdge
  up : t.down = false → t.off
  method : m ≠ .edge → t.off

/-- In a frame, after the touches were judged: a touch that ended may still have to send a stop. -/
structure EM (m : Method) (t : Finger) : Prop where
  dir : ∀ a, t.dir = some a → (t.edgeSt = .edge ∧ t.edgeAxis = some a) ∨ (t.st = .end_ ∧ t.dirty = true)
  bits : t.off → t.noEdge
  up : t.down = false → t.off
  method : m ≠ .edge → t.off

theorem off_iff (t : Finger) : t.off ↔ t.edgeSt ≠ .new ∧ t.edgeSt ≠ .edge := by
  unfold Finger.off
  cases t.edgeSt <;> simp

theorem EI.dir_off {m : Method} {t : Finger} (h : EI m t) (k : t.off) : t.dir = none := by
  cases e : t.dir with
  | none => rfl
  | some a =>
    have := (h.dir a e).1
    rcases k with k | k <;> rw [k] at this <;> cases this

theorem ei_of_ecore {m : Method} {t u : Finger} (e : u.ecore = t.ecore) (h : EI m t) : EI m u := by
  simp only [Finger.ecore, ECore.mk.injEq] at e
  obtain ⟨_, e2, e3, e4, e5, e6, e7, _, _⟩ := e
  refine ⟨?_, ?_, ?_, ?_⟩
  · intro a ha; rw [e7] at ha; have := h.dir a ha; unfold Finger.edgeAxis at this ⊢; rw [e4, e5, e6]; exact this
  · intro k; unfold Finger.off at k; rw [e4] at k; have := h.bits k; unfold Finger.noEdge at this ⊢; rw [e5, e6]; exact this
  · intro k; unfold Finger.down at k; rw [e2] at k; have := h.up k; unfold Finger.off at this ⊢; rw [e4]; exact this
  · intro k; have := h.method k; unfold Finger.off at this ⊢; rw [e4]; exact this

/-- The touch as shown fits. -/
def Fit (t u : Finger) : Prop := Touch.Spec.fits t.down (u.st, u.dirty) = true

theorem setEdge_off (s : Pad) (t : Finger) (st : EdgeSt) (now : Nat) (h : st = .none ∨ st = .area) : (s.setEdge t st now).noEdge ∧ (s.setEdge t st now).edgeSt = st := by
  rcases h with rfl | rfl <;> exact ⟨⟨rfl, rfl⟩, rfl⟩

theorem setEdge_dir (s : Pad) (t : Finger) (st : EdgeSt) (now : Nat) : (s.setEdge t st now).dir = t.dir ∧ (s.setEdge t st now).edgeSt = st := by
  cases st <;> exact ⟨rfl, rfl⟩

theorem narrow_dir (s : Pad) (t : Finger) (now : Nat) : (s.narrow t now).dir = t.dir := by
  unfold Pad.narrow; simp only; split <;> rfl

/-- `narrow` leaves a touch on an edge, or takes it off. -/
theorem narrow_cases (s : Pad) (t : Finger) (now : Nat) :
    ((s.narrow t now).edgeSt = .area ∧ (s.narrow t now).noEdge) ∨ ((s.narrow t now).edgeSt = t.edgeSt ∧ ¬ (s.narrow t now).noEdge) := by
  unfold Pad.narrow
  simp only
  split
  · exact .inl ⟨rfl, rfl, rfl⟩
  · next h =>
    refine .inr ⟨rfl, ?_⟩
    unfold Finger.noEdge
    simp only
    intro k
    rw [k.1, k.2] at h
    exact h rfl

theorem on_method (s : Pad) (t : Finger) (h : s.method ≠ .edge) : s.onRight t = false ∧ s.onBottom t = false := by
  unfold Pad.onRight Pad.onBottom
  cases e : s.method
  · exact ⟨rfl, rfl⟩
  · exact ⟨rfl, rfl⟩
  · exact absurd e h

theorem edgeAxis_of_both {t : Finger} {a : Axis} (h : t.edgeAxis = some a) : (t.edgeR && t.edgeB) = false := by
  unfold Finger.edgeAxis at h
  cases hr : t.edgeR <;> cases hb : t.edgeB <;> simp_all

/-- Judging a touch. -/
theorem em_edgeState (s : Pad) (t u : Finger) (now : Nat) (h : EI s.method t) (e : u.ecore = { t.ecore with st := u.st, dirty := u.dirty }) (hf : Fit t u) :
    EM s.method (s.edgeState u now).1 ∧ (s.edgeState u now).1.dir = t.dir := by
  simp only [Finger.ecore, ECore.mk.injEq, true_and] at e
  obtain ⟨_, e4, e5, e6, e7, _, _⟩ := e
  have hd : ∀ a, u.dir = some a → u.edgeSt = .edge ∧ u.edgeAxis = some a := by
    intro a ha; rw [e7] at ha; have := h.dir a ha; unfold Finger.edgeAxis at this ⊢; rw [e4, e5, e6]; exact this
  have hb : u.off → u.noEdge := by
    intro k; unfold Finger.off at k; rw [e4] at k; have := h.bits k; unfold Finger.noEdge at this ⊢; rw [e5, e6]; exact this
  have hm : s.method ≠ .edge → u.off := by
    intro k; have := h.method k; unfold Finger.off at this ⊢; rw [e4]; exact this
  have hup : t.down = false → u.off ∧ u.dir = none := by
    intro k; have := h.up k
    refine ⟨?_, by rw [e7]; exact h.dir_off this⟩
    unfold Finger.off at this ⊢; rw [e4]; exact this
  unfold Fit at hf
  rw [← e7]
  clear h e4 e5 e6 e7
  unfold Pad.edgeState
  split
  · next hne =>
    have ho := hm hne
    have hn := hb ho
    have hdn : u.dir = none := by
      cases ed : u.dir with
      | none => rfl
      | some a =>
        have := (hd a ed).1
        rcases ho with k | k <;> rw [k] at this <;> cases this
    simp only
    split
    · exact ⟨⟨fun a ha => by simp [hdn] at ha, fun _ => hn, fun _ => .inr rfl, fun _ => .inr rfl⟩, rfl⟩
    · exact ⟨⟨fun a ha => by simp [hdn] at ha, fun _ => hn, fun _ => .inl rfl, fun _ => .inl rfl⟩, rfl⟩
    · exact ⟨⟨fun a ha => by simp [hdn] at ha, fun _ => hn, fun _ => ho, fun _ => ho⟩, rfl⟩
  · next hme =>
    have hme : s.method = .edge := by simpa using hme
    have same : u.st ≠ .begin → u.st ≠ .end_ → EM s.method u ∧ u.dir = u.dir := by
      intro _ h2
      refine ⟨⟨fun a ha => .inl (hd a ha), hb, ?_, hm⟩, rfl⟩
      intro hdown
      apply (hup ?_).1
      unfold Touch.Spec.fits at hf
      unfold Finger.down at hdown
      cases est : u.st <;> simp [est] at hf hdown h2 ⊢ <;> exact hf
    split
    · next hdirty =>
      apply same
      · intro k; simp [Touch.Spec.fits, k, hdirty] at hf
      · intro k; simp [Touch.Spec.fits, k, hdirty] at hf
    · next hdirty =>
      have hdirty : u.dirty = true := by simpa using hdirty
      split
      · next hst => apply same <;> rw [hst] <;> (intro k; cases k)
      · next hst => apply same <;> rw [hst] <;> (intro k; cases k)
      · -- begin
        next hst =>
        have hup' := hup (by unfold Touch.Spec.fits at hf; simp [hst] at hf; exact hf.1)
        have hn := hb hup'.1
        unfold Pad.edgeEvent
        rcases hup'.1 with k | k <;> simp only [k]
        · split
          · refine ⟨⟨fun a ha => ?_, fun ho => ?_, fun hdn => ?_, fun x => absurd hme x⟩, (setEdge_dir _ _ _ _).1⟩
            · rw [(setEdge_dir _ _ _ _).1, hup'.2] at ha; cases ha
            · unfold Finger.off at ho; rw [(setEdge_dir _ _ _ _).2] at ho; rcases ho with x | x <;> cases x
            · unfold Finger.down Pad.setEdge at hdn; simp [hst] at hdn
          · refine ⟨⟨fun a ha => ?_, fun ho => (setEdge_off s u .area now (.inr rfl)).1, fun hdn => .inr (setEdge_off s u .area now (.inr rfl)).2, fun x => absurd hme x⟩, (setEdge_dir _ _ _ _).1⟩
            rw [(setEdge_dir _ _ _ _).1, hup'.2] at ha; cases ha
        · exact ⟨⟨(fun a ha => by rw [hup'.2] at ha; cases ha), fun _ => hn, fun _ => .inr k, fun _ => .inr k⟩, trivial⟩
      · -- update
        next hst =>
        have hdn : ∀ x : Finger, x.st = u.st → x.down ≠ false := by
          intro x hx; unfold Finger.down; rw [hx, hst]; simp
        have base : EM s.method u ∧ True := ⟨(same (by rw [hst]; intro k; cases k) (by rw [hst]; intro k; cases k)).1, trivial⟩
        have nar : u.dir = none → EM s.method (s.narrow u now) ∧ (s.narrow u now).dir = u.dir := by
          intro hdir
          refine ⟨⟨fun a ha => ?_, fun ho => ?_, fun x => ?_, fun x => absurd hme x⟩, narrow_dir s u now⟩
          · rw [narrow_dir, hdir] at ha; cases ha
          · rcases narrow_cases s u now with k | k
            · exact k.2
            · exfalso
              unfold Finger.off at ho
              rw [k.1] at ho
              have hn := hb ho
              apply k.2
              unfold Pad.narrow
              simp only [hn.1, hn.2, Bool.false_and]
              exact ⟨rfl, rfl⟩
          · exact absurd x (hdn _ (congrArg Core.st (narrow_core s u now)))
        unfold Pad.edgeEvent
        cases k : u.edgeSt <;> simp only
        · exact base
        · apply nar
          cases ed : u.dir with
          | none => rfl
          | some a => have := (hd a ed).1; rw [k] at this; cases this
        · split
          · next hboth =>
            apply nar
            cases ed : u.dir with
            | none => rfl
            | some a => have := edgeAxis_of_both (hd a ed).2; rw [this] at hboth; cases hboth
          · exact ⟨base.1, rfl⟩
        · exact base
      · next hst => simp [Touch.Spec.fits, hst] at hf
      · -- end
        next hst =>
        have rel : EM s.method (s.setEdge u .none now) ∧ (s.setEdge u .none now).dir = u.dir := by
          refine ⟨⟨fun a ha => .inr ⟨?_, ?_⟩, fun _ => (setEdge_off s u .none now (.inl rfl)).1, fun _ => .inl (setEdge_off s u .none now (.inl rfl)).2, fun x => absurd hme x⟩, (setEdge_dir _ _ _ _).1⟩
          · exact (congrArg Core.st (setEdge_core s u .none now)).trans hst
          · exact (congrArg Core.dirty (setEdge_core s u .none now)).trans hdirty
        unfold Pad.edgeEvent
        cases k : u.edgeSt <;> simp only
        · refine ⟨⟨fun a ha => .inl (hd a ha), hb, fun _ => .inl k, hm⟩, trivial⟩
        · exact rel
        · exact rel
        · exact rel

/-- Stopping. -/
theorem em_edgeStop {m : Method} {t : Finger} (h : EM m t) : EM m t.edgeStop.1 ∧ t.edgeStop.1.dir = none ∧ Edged t.index t.dir t.edgeStop.2 none := by
  unfold Finger.edgeStop
  cases e : t.dir with
  | none => exact ⟨h, e, by rfl, by rfl⟩
  | some a =>
    refine ⟨⟨(fun b hb => by cases hb), fun _ => ⟨rfl, rfl⟩, fun _ => .inr rfl, fun _ => .inr rfl⟩, rfl, ?_, ?_⟩
    · simp [followEdge]
    · simp [scrollingFrom]

theorem EI.em {m : Method} {t : Finger} (h : EI m t) : EM m t := ⟨fun a ha => .inl (h.dir a ha), h.bits, h.up, h.method⟩
theorem EM.ei {m : Method} {t : Finger} (h : EM m t) (k : t.st = .end_ → t.dir = none) : EI m t :=
  ⟨(fun a ha => (h.dir a ha).elim id fun ⟨x, _⟩ => by rw [k x] at ha; cases ha), h.bits, h.up, h.method⟩

theorem ei_edgeStop {m : Method} {t : Finger} (h : EI m t) : EI m t.edgeStop.1 ∧ t.edgeStop.1.dir = none ∧ Edged t.index t.dir t.edgeStop.2 none := by
  obtain ⟨h1, h2, h3⟩ := em_edgeStop h.em
  exact ⟨h1.ei fun _ => h2, h2, h3⟩

/-- Sending the scroll events of a frame. -/
theorem em_edgePost (s : Pad) (t : Finger) (now : Nat) (h : EM s.method t) :
    EM s.method (s.edgePost t now).1 ∧ Edged t.index t.dir (s.edgePost t now).2 (s.edgePost t now).1.dir ∧
      (t.st = .end_ → t.palm = .none → s.thumbIgnored t = false → (s.edgePost t now).1.dir = none) ∧
      ((t.dirty = true → t.off ∨ t.palm ≠ .none) → t.dir = none → (s.edgePost t now).1.dir = none) := by
  have idle : Edged t.index t.dir [] t.dir := ⟨rfl, rfl⟩
  unfold Pad.edgePost
  split
  · next hd =>
    refine ⟨h, idle, fun hst _ _ => ?_, fun _ k => k⟩
    cases e : t.dir with
    | none => rfl
    | some a =>
      rcases h.dir a e with k | k
      · have := h.up (by unfold Finger.down; simp [hst])
        rcases this with x | x <;> rw [x] at k <;> cases k.1
      · rw [hd] at k; cases k.2
  split
  · next hp =>
    refine ⟨h, idle, fun _ k1 k2 => ?_, fun _ k => k⟩
    rcases hp with k | k
    · exact absurd k1 k
    · rw [k2] at k; cases k
  next hdirty hpalm =>
  have hdirty : t.dirty = true := by simpa using hdirty
  have endOff : t.st = .end_ → t.noEdge := fun hst => h.bits (h.up (by unfold Finger.down; simp [hst]))
  split
  · next hb =>
    refine ⟨h, idle, fun hst _ _ => ?_, fun _ k => k⟩
    have := endOff hst
    unfold Finger.noEdge at this
    simp [this.1, this.2] at hb
  split
  · next hb =>
    split
    · next hdir => exact ⟨h, by rw [hdir]; exact ⟨rfl, rfl⟩, fun _ _ _ => hdir, fun _ k => k⟩
    · next a hdir =>
      refine ⟨⟨(fun b hb => by cases hb), h.bits, h.up, h.method⟩, ?_, fun _ _ _ => rfl, fun _ _ => rfl⟩
      rw [hdir]
      refine ⟨?_, ?_⟩
      · simp [followEdge]
      · simp [scrollingFrom]
  next hbits =>
  have notoff : ¬ t.off := by
    intro k
    have := h.bits k
    simp [this.1, this.2] at hbits
  have hst : t.edgeSt = .new ∨ t.edgeSt = .edge := by
    unfold Finger.off at notoff
    cases e : t.edgeSt <;> simp [e] at notoff ⊢
  have notEnd : t.st ≠ .end_ := fun k => notoff (h.up (by unfold Finger.down; simp [k]))
  have npalm : ¬ (t.dirty = true → t.off ∨ t.palm ≠ .none) := by
    intro k
    rcases k hdirty with k | k
    · exact notoff k
    · exact hpalm (.inl k)
  split
  · exact ⟨h, idle, fun k => absurd k notEnd, fun k => absurd k npalm⟩
  · next a ha =>
    have hnobug : t.edgeBug = [] := by
      unfold Finger.edgeBug
      rcases hst with e | e <;> simp [e]
    unfold Pad.edgeScroll
    split
    · rw [hnobug]; exact ⟨h, idle, fun k => absurd k notEnd, fun k => absurd k npalm⟩
    · next hdelta =>
      have hr : (s.edgeEvent { t with dir := some a } .posted now).2 = [] := by
        unfold Pad.edgeEvent
        rcases hst with e | e <;> simp [e]
      have hr1 : (s.edgeEvent { t with dir := some a } .posted now).1 = { t with dir := some a, edgeSt := .edge, edgeTimer := if t.edgeSt = .new then none else t.edgeTimer } := by
        unfold Pad.edgeEvent
        rcases hst with e | e <;> simp [e, Pad.setEdge]
      simp only
      rw [hr, hr1, hnobug]
      have hcur : t.dir = none ∨ t.dir = some a := by
        cases e : t.dir with
        | none => exact .inl rfl
        | some b =>
          rcases h.dir b e with k | k
          · rw [ha] at k; exact .inr k.2.symm
          · exact absurd k.1 notEnd
      refine ⟨⟨fun b hb => ?_, fun ho => ?_, fun hdn => ?_, fun hm => ?_⟩, ⟨?_, ?_⟩, fun k => absurd k notEnd, fun k => absurd k npalm⟩
      · cases hb; exact .inl ⟨rfl, ha⟩
      · rcases ho with x | x <;> cases x
      · exact absurd (h.up hdn) notoff
      · exact absurd (h.method hm) notoff
      · rcases hcur with e | e <;> simp [followEdge, e, hdelta]
      · simp [scrollingFrom]

/-- After the frame. -/
theorem ei_settle {m : Method} {t : Finger} (h : EI m t) (b : Bool) : EI m (t.settle b) ∧ (t.settle b).dir = t.dir := by
  unfold Finger.settle
  split
  · refine ⟨⟨h.dir, h.bits, fun k => ?_, h.method⟩, rfl⟩
    apply h.up
    unfold Finger.down at k ⊢
    cases e : t.st <;> simp [e] at k ⊢
  · exact ⟨h, rfl⟩

end Libinput.Motion
