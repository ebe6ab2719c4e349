import Verif.Pairing.Gone
/-!
Why a touchpad is off.
-/
namespace Libinput.Pairing
open Spec

/-- A touchpad is off for a reason, and reasons have a cause. -/
structure Right (m : Dyn) : Prop where
  sus : m.suspended = (m.forLid || m.forTablet || m.forMode)
  lid : m.forLid = true → m.lid ≠ none
  tab : m.tablet = none → m.forTablet = false
  mode : m.forMode = m.disabled

/-- The touchpad is off for the switch that it follows just when the switch is on, other than for the switch `e`. -/
def TabOk (e : Option Nat) (s : St) (t : Nat) : Prop := ∀ x, e ≠ some x → (s.mem t).tablet = some x → (s.mem t).forTablet = (s.mem x).on
/-- The touchpad is off for its lid only while the lid is reported closed, other than for the lid `e`. -/
def LidOk (e : Option Nat) (s : St) (t : Nat) : Prop := ∀ x, e ≠ some x → (s.mem t).lid = some x → (s.mem t).forLid = true → (s.mem x).client = true

/-- What nobody else changes. -/
def Own (m m' : Dyn) : Prop := m'.on = m.on ∧ m'.client = m.client ∧ m'.disabled = m.disabled ∧ m'.closed = m.closed

structure Fair (s s' : St) (t : Nat) : Prop where
  devs : s'.devs = s.devs
  same : ∀ y, Own (s.mem y) (s'.mem y)
  good : Right (s.mem t) → Right (s'.mem t)
  tab : ∀ e, Right (s.mem t) → TabOk e s t → TabOk e s' t
  lid : ∀ e, Right (s.mem t) → LidOk e s t → LidOk e s' t

theorem Own.refl (m : Dyn) : Own m m := ⟨rfl, rfl, rfl, rfl⟩
theorem Own.trans {a b c : Dyn} (h : Own a b) (k : Own b c) : Own a c :=
  ⟨k.1.trans h.1, k.2.1.trans h.2.1, k.2.2.1.trans h.2.2.1, k.2.2.2.trans h.2.2.2⟩

theorem Fair.refl (s : St) (t : Nat) : Fair s s t := ⟨rfl, fun _ => Own.refl _, id, fun _ _ => id, fun _ _ => id⟩
theorem Fair.trans {a b c : St} {t : Nat} (h : Fair a b t) (k : Fair b c t) : Fair a c t :=
  ⟨k.devs.trans h.devs, fun y => (h.same y).trans (k.same y), fun r => k.good (h.good r), fun e r p => k.tab e (h.good r) (h.tab e r p),
    fun e r p => k.lid e (h.good r) (h.lid e r p)⟩

/-- Nothing changes that matters. -/
structure Idle (m m' : Dyn) : Prop where
  sus : m'.suspended = m.suspended
  fl : m'.forLid = m.forLid
  ft : m'.forTablet = m.forTablet
  fm : m'.forMode = m.forMode
  lid : m'.lid = m.lid
  tablet : m'.tablet = m.tablet

theorem Fair.idle {s s' : St} {t : Nat} (e : s'.devs = s.devs) (h : ∀ y, Own (s.mem y) (s'.mem y)) (i : Idle (s.mem t) (s'.mem t)) :
    Fair s s' t := by
  refine ⟨e, h, ?_, ?_, ?_⟩
  · intro r
    exact ⟨by rw [i.sus, i.fl, i.ft, i.fm]; exact r.sus, by rw [i.fl, i.lid]; exact r.lid, by rw [i.tablet, i.ft]; exact r.tab,
      by rw [i.fm, (h t).2.2.1]; exact r.mode⟩
  · intro _ _ p x hne hx
    rw [i.tablet] at hx
    rw [i.ft, (h x).1]; exact p x hne hx
  · intro _ _ p x hne hx hf
    rw [i.lid] at hx
    rw [i.fl] at hf
    rw [(h x).2.1]; exact p x hne hx hf

theorem Fair.of_mem {s s' : St} {t : Nat} (e : s'.devs = s.devs) (h : s'.mem = s.mem) : Fair s s' t :=
  Fair.idle e (fun y => by rw [h]; exact Own.refl _) (by rw [h]; exact ⟨rfl, rfl, rfl, rfl, rfl, rfl⟩)

theorem Fair.upd (s : St) (t i : Nat) (f : Dyn → Dyn) (ho : ∀ m, Own m (f m)) (hi : t = i → ∀ m, Idle m (f m)) : Fair s (s.upd i f) t := by
  refine Fair.idle rfl ?_ ?_
  · intro y
    by_cases e : y = i
    · subst e; rw [upd_self]; exact ho _
    · rw [upd_ne _ _ e]; exact Own.refl _
  · by_cases e : t = i
    · rw [e, upd_self]; exact hi e _
    · rw [upd_ne _ _ e]; exact ⟨rfl, rfl, rfl, rfl, rfl, rfl⟩

/-! ## Suspending and resuming a touchpad -/

/-- Only what totems hold on to changes. -/
def Touch (s s' : St) : Prop := s'.devs = s.devs ∧ ∀ y, ∃ u, s'.mem y = { s.mem y with touch := u }

theorem Touch.refl (s : St) : Touch s s := ⟨rfl, fun y => ⟨(s.mem y).touch, rfl⟩⟩
theorem Touch.trans {a b c : St} (h : Touch a b) (k : Touch b c) : Touch a c := by
  refine ⟨k.1.trans h.1, fun y => ?_⟩
  obtain ⟨u, hu⟩ := h.2 y
  obtain ⟨v, hv⟩ := k.2 y
  exact ⟨v, by rw [hv, hu]⟩

theorem Touch.upd (s : St) (i : Nat) (u : Option Nat) : Touch s (s.upd i fun m => { m with touch := u }) := by
  refine ⟨rfl, fun y => ?_⟩
  by_cases e : y = i
  · subst e; exact ⟨u, upd_self _ _ _⟩
  · exact ⟨(s.mem y).touch, upd_ne _ _ e⟩

theorem totemRemoved_touch (s : St) (d x : Info) : Touch s (totemRemoved s d x) := by
  unfold totemRemoved; split
  · exact Touch.upd _ _ _
  · exact Touch.refl _

theorem totemAdded_touch (s : St) (d x : Info) : Touch s (totemAdded s d x) := by
  unfold totemAdded; (repeat' (split; exact Touch.refl _))
  exact Touch.upd _ _ _

theorem fold_touch {f : St → Info → St} (hf : ∀ s d, Touch s (f s d)) : ∀ (ds : List Info) (s : St), Touch s (ds.foldl f s) := by
  intro ds
  induction ds with
  | nil => intro s; exact Touch.refl _
  | cons d ds ih => intro s; exact (hf s d).trans (ih _)

theorem tpOff_mem (s : St) (t : Info) : (tpOff s t).devs = s.devs ∧ ∀ y, ∃ u, (tpOff s t).mem y =
    { s.mem y with touch := u, suspended := if y = t.id then true else (s.mem y).suspended } := by
  unfold tpOff
  split
  · rename_i c
    refine ⟨rfl, fun y => ⟨(s.mem y).touch, ?_⟩⟩
    split
    · rename_i e; rw [e]; cases h : s.mem t.id; rw [h] at c; simp_all
    · rfl
  · have h := fold_touch (f := fun s d => if d.kind = .totem then totemRemoved s d t else s)
      (by intro s d; split; exact totemRemoved_touch _ _ _; exact Touch.refl _) (s.others t.id) s
    revert h
    generalize (s.others t.id).foldl (fun s d => if d.kind = .totem then totemRemoved s d t else s) s = s1
    intro h
    refine ⟨h.1, fun y => ?_⟩
    obtain ⟨u, hu⟩ := h.2 y
    refine ⟨u, ?_⟩
    by_cases e : y = t.id
    · rw [if_pos e, ← e, upd_self, hu]
    · rw [if_neg e, upd_ne _ _ e, hu]

theorem tpOn_mem (s : St) (t : Info) : (tpOn s t).devs = s.devs ∧ ∀ y, ∃ u, (tpOn s t).mem y =
    { s.mem y with touch := u, suspended := if y = t.id then false else (s.mem y).suspended } := by
  unfold tpOn
  split
  · have h := fold_touch (f := fun s d => if d.kind = .totem then totemAdded s d t else s)
      (by intro s d; split; exact totemAdded_touch _ _ _; exact Touch.refl _) (s.others t.id) s
    revert h
    generalize (s.others t.id).foldl (fun s d => if d.kind = .totem then totemAdded s d t else s) s = s1
    intro h
    refine ⟨h.1, fun y => ?_⟩
    obtain ⟨u, hu⟩ := h.2 y
    refine ⟨u, ?_⟩
    by_cases e : y = t.id
    · rw [if_pos e, ← e, upd_self, hu]
    · rw [if_neg e, upd_ne _ _ e, hu]
  · rename_i c
    refine ⟨rfl, fun y => ⟨(s.mem y).touch, ?_⟩⟩
    split
    · rename_i e; rw [e]; cases h : s.mem t.id; rw [h] at c; simp_all
    · rfl

theorem tpSuspend_mem (s : St) (t : Info) (w : Why) : (tpSuspend s t w).devs = s.devs ∧
    (∀ y, y ≠ t.id → ∃ u, (tpSuspend s t w).mem y = { s.mem y with touch := u }) ∧
    ((s.mem t.id).suspended = (s.mem t.id).any →
      ∃ u, (tpSuspend s t w).mem t.id = { (s.mem t.id).why true w with touch := u, suspended := true }) ∧
    Own (s.mem t.id) ((tpSuspend s t w).mem t.id) := by
  unfold tpSuspend
  split
  · rename_i c
    refine ⟨rfl, fun y _ => ⟨(s.mem y).touch, rfl⟩, fun h => ⟨(s.mem t.id).touch, ?_⟩, Own.refl _⟩
    cases hm : s.mem t.id
    rw [hm] at c h
    cases w <;> simp_all [Dyn.has, Dyn.any, Dyn.why]
  · split
    · rename_i c
      refine ⟨rfl, fun y hy => ⟨(s.mem y).touch, upd_ne _ _ hy⟩, fun h => ⟨(s.mem t.id).touch, ?_⟩, ?_⟩
      · rw [upd_self]
        rw [c] at h
        cases hm : s.mem t.id
        rw [hm] at h
        cases w <;> simp_all [Dyn.why]
      · rw [upd_self]; cases w <;> exact Own.refl _
    · obtain ⟨e, a⟩ := tpOff_mem s t
      refine ⟨e, fun y hy => ?_, fun h => ?_, ?_⟩
      · obtain ⟨u, hu⟩ := a y
        exact ⟨u, by rw [upd_ne _ _ hy, hu, if_neg hy]⟩
      · obtain ⟨u, hu⟩ := a t.id
        refine ⟨u, ?_⟩
        rw [upd_self, hu, if_pos rfl]; cases w <;> rfl
      · obtain ⟨u, hu⟩ := a t.id
        rw [upd_self, hu]; cases w <;> exact Own.refl _

theorem tpResume_mem (s : St) (t : Info) (w : Why) : (tpResume s t w).devs = s.devs ∧
    (∀ y, y ≠ t.id → ∃ u, (tpResume s t w).mem y = { s.mem y with touch := u }) ∧
    ((s.mem t.id).suspended = (s.mem t.id).any →
      ∃ u, (tpResume s t w).mem t.id =
        { (s.mem t.id).why false w with touch := u, suspended := ((s.mem t.id).why false w).any }) ∧
    Own (s.mem t.id) ((tpResume s t w).mem t.id) := by
  unfold tpResume
  dsimp only
  split
  · rename_i c
    rw [upd_self] at c
    refine ⟨rfl, fun y hy => ⟨(s.mem y).touch, upd_ne _ _ hy⟩, fun h => ⟨(s.mem t.id).touch, ?_⟩, ?_⟩
    · rw [upd_self, c]
      cases hm : s.mem t.id
      rw [hm] at h c
      cases w <;> simp_all [Dyn.why, Dyn.any] <;> grind
    · rw [upd_self]; cases w <;> exact Own.refl _
  · rename_i c
    rw [upd_self] at c
    obtain ⟨e, a⟩ := tpOn_mem (s.upd t.id fun m => m.why false w) t
    refine ⟨e, fun y hy => ?_, fun h => ?_, ?_⟩
    · obtain ⟨u, hu⟩ := a y
      exact ⟨u, by rw [hu, if_neg hy, upd_ne _ _ hy]⟩
    · obtain ⟨u, hu⟩ := a t.id
      refine ⟨u, ?_⟩
      rw [hu, if_pos rfl, upd_self]
      simp only [Bool.not_eq_true] at c
      rw [c]
    · obtain ⟨u, hu⟩ := a t.id
      rw [hu, upd_self]; cases w <;> exact Own.refl _

theorem tpSuspend_own (s : St) (t : Info) (w : Why) (y : Nat) : Own (s.mem y) ((tpSuspend s t w).mem y) := by
  by_cases e : y = t.id
  · rw [e]; exact (tpSuspend_mem s t w).2.2.2
  · obtain ⟨u, hu⟩ := (tpSuspend_mem s t w).2.1 y e
    rw [hu]; exact Own.refl _

theorem tpResume_own (s : St) (t : Info) (w : Why) (y : Nat) : Own (s.mem y) ((tpResume s t w).mem y) := by
  by_cases e : y = t.id
  · rw [e]; exact (tpResume_mem s t w).2.2.2
  · obtain ⟨u, hu⟩ := (tpResume_mem s t w).2.1 y e
    rw [hu]; exact Own.refl _

theorem tpSuspend_fair (s : St) (o : Info) (w : Why) {t : Nat} (n : t ≠ o.id) : Fair s (tpSuspend s o w) t := by
  refine Fair.idle (tpSuspend_mem s o w).1 (tpSuspend_own s o w) ?_
  obtain ⟨u, hu⟩ := (tpSuspend_mem s o w).2.1 t n
  rw [hu]; exact ⟨rfl, rfl, rfl, rfl, rfl, rfl⟩

theorem tpResume_fair (s : St) (o : Info) (w : Why) {t : Nat} (n : t ≠ o.id) : Fair s (tpResume s o w) t := by
  refine Fair.idle (tpResume_mem s o w).1 (tpResume_own s o w) ?_
  obtain ⟨u, hu⟩ := (tpResume_mem s o w).2.1 t n
  rw [hu]; exact ⟨rfl, rfl, rfl, rfl, rfl, rfl⟩

/-! ## Pairing -/

theorem pairStick_fair (s : St) (d x : Info) (t : Nat) : Fair s (pairStick s d x) t := by
  unfold pairStick
  dsimp only
  split
  · exact Fair.refl _ _
  · split
    · refine Fair.trans (b := s.upd d.id fun m => { m with stick := some x.id })
        (Fair.upd _ _ _ _ (fun _ => ⟨rfl, rfl, rfl, rfl⟩) (fun _ _ => ⟨rfl, rfl, rfl, rfl, rfl, rfl⟩)) ?_
      split
      · exact Fair.of_mem (listen_devs _ _) (listen_mem _ _)
      · exact Fair.refl _ _
    · exact Fair.refl _ _

theorem pairTyping_fair (s : St) (d x : Info) (t : Nat) : Fair s (pairTyping s d x) t := by
  unfold pairTyping
  dsimp only
  split
  · exact Fair.refl _ _
  · split
    · exact Fair.refl _ _
    · exact Fair.trans (Fair.of_mem (s := s) (s' := { s with ser := s.ser + 1, heap := s.ser :: s.heap }) rfl rfl)
        (Fair.trans (Fair.of_mem (listen_devs _ { src := x.id, owner := d.id, role := .typing, ser := s.ser }) (listen_mem _ _))
        (Fair.upd _ _ _ (fun m => { m with kbds := (s.ser, x.id) :: m.kbds }) (fun _ => ⟨rfl, rfl, rfl, rfl⟩)
          (fun _ _ => ⟨rfl, rfl, rfl, rfl, rfl, rfl⟩)))

theorem lidPair_fair (s : St) (d x : Info) (t : Nat) : Fair s (lidPair s d x) t := by
  unfold lidPair
  dsimp only
  split
  · exact Fair.refl _ _
  · split
    · exact Fair.refl _ _
    · refine Fair.trans (Fair.of_mem (s := s) (s' := { s with ser := s.ser + 1, heap := s.ser :: s.heap }) rfl rfl)
        (Fair.trans (Fair.upd _ t d.id (fun m => { m with kbds := (s.ser, x.id) :: m.kbds }) (fun _ => ⟨rfl, rfl, rfl, rfl⟩)
          (fun _ _ => ⟨rfl, rfl, rfl, rfl, rfl, rfl⟩)) ?_)
      split
      · exact Fair.of_mem (listen_devs _ _) (listen_mem _ _)
      · exact Fair.refl _ _

theorem pairPen_fair (s : St) (d x : Info) (t : Nat) : Fair s (pairPen s d x) t := by
  unfold pairPen; (repeat' (split; exact Fair.refl _ _))
  exact Fair.upd _ _ _ _ (fun _ => ⟨rfl, rfl, rfl, rfl⟩) (fun _ _ => ⟨rfl, rfl, rfl, rfl, rfl, rfl⟩)

theorem pairLid_fair (s : St) (d x : Info) (t : Nat) : Fair s (pairLid s d x) t := by
  unfold pairLid
  split
  · exact Fair.refl _ _
  · split
    · exact Fair.refl _ _
    · split
      · rename_i c
        refine Fair.trans (Fair.of_mem (listen_devs s { src := x.id, owner := d.id, role := .lid }) (listen_mem _ _)) ?_
        have cm : (((s.listen { src := x.id, owner := d.id, role := .lid }).mem d.id).lid = none) := by rw [listen_mem]; exact c
        revert cm
        generalize s.listen { src := x.id, owner := d.id, role := .lid } = s1
        intro c
        by_cases e : t = d.id
        · subst e
          refine ⟨rfl, ?_, ?_, ?_, ?_⟩
          · intro y
            by_cases e : y = d.id
            · rw [e, upd_self]; exact ⟨rfl, rfl, rfl, rfl⟩
            · rw [upd_ne _ _ e]; exact Own.refl _
          · intro r
            rw [upd_self]
            exact ⟨r.sus, fun _ => by simp, r.tab, r.mode⟩
          · intro ex r p y hne hy
            rw [upd_self] at hy ⊢
            by_cases e : y = d.id
            · subst e; rw [upd_self]; exact p _ hne hy
            · rw [upd_ne _ _ e]; exact p y hne hy
          · intro ex r p y hne hy hf
            rw [upd_self] at hf
            exact absurd c (r.lid hf)
        · exact Fair.upd _ _ _ _ (fun _ => ⟨rfl, rfl, rfl, rfl⟩) (fun h => absurd h e)
      · exact Fair.refl _ _

theorem pairTablet_fair (s : St) (d x : Info) (t : Nat) (n : x.id ≠ d.id) : Fair s (pairTablet s d x) t := by
  unfold pairTablet
  dsimp only
  split
  · exact Fair.refl _ _
  · split
    · exact Fair.refl _ _
    · rename_i c
      split
      · exact Fair.refl _ _
      · split
        · exact Fair.refl _ _
        · refine Fair.trans (Fair.of_mem (listen_devs s { src := x.id, owner := d.id, role := .tablet }) (listen_mem _ _)) ?_
          have cm : (((s.listen { src := x.id, owner := d.id, role := .tablet }).mem d.id).tablet = none) := by
            rw [listen_mem]; simpa using c
          revert cm
          generalize s.listen { src := x.id, owner := d.id, role := .tablet } = s1
          intro c
          by_cases e : t = d.id
          · subst e
            rw [upd_ne _ _ n]
            split
            · rename_i on
              obtain ⟨m1, m2, m3, m4⟩ := tpSuspend_mem (s1.upd d.id fun m => { m with tablet := some x.id }) d .tablet
              have own : ∀ y, Own (s1.mem y) ((tpSuspend (s1.upd d.id fun m => { m with tablet := some x.id }) d .tablet).mem y) := by
                intro y
                refine Own.trans ?_ (tpSuspend_own _ d .tablet y)
                by_cases e : y = d.id
                · rw [e, upd_self]; exact ⟨rfl, rfl, rfl, rfl⟩
                · rw [upd_ne _ _ e]; exact Own.refl _
              have key : Right (s1.mem d.id) → ∃ u, (tpSuspend (s1.upd d.id fun m => { m with tablet := some x.id }) d .tablet).mem d.id =
                  { s1.mem d.id with tablet := some x.id, forTablet := true, touch := u, suspended := true } := by
                intro r
                obtain ⟨u, hu⟩ := m3 (by rw [upd_self]; exact r.sus)
                exact ⟨u, by rw [hu, upd_self]; rfl⟩
              refine ⟨m1, own, ?_, ?_, ?_⟩
              · intro r
                obtain ⟨u, hu⟩ := key r
                rw [hu]
                exact ⟨by simp, r.lid, fun h => absurd h (by simp), r.mode⟩
              · intro ex r p y hne hy
                obtain ⟨u, hu⟩ := key r
                rw [hu] at hy
                have : x.id = y := by simpa using hy
                subst this
                rw [hu, (own x.id).1, on]
              · intro ex r p y hne hy hf
                obtain ⟨u, hu⟩ := key r
                rw [hu] at hy hf
                rw [(own y).2.1]
                exact p y hne hy hf
            · rename_i on
              refine ⟨rfl, ?_, ?_, ?_, ?_⟩
              · intro y
                by_cases e : y = d.id
                · rw [e, upd_self]; exact ⟨rfl, rfl, rfl, rfl⟩
                · rw [upd_ne _ _ e]; exact Own.refl _
              · intro r
                rw [upd_self]
                exact ⟨r.sus, r.lid, fun h => absurd h (by simp), r.mode⟩
              · intro ex r p y hne hy
                rw [upd_self] at hy ⊢
                have : x.id = y := by simpa using hy
                subst this
                rw [upd_ne _ _ n]
                have := r.tab c
                simp only [Bool.not_eq_true] at on
                rw [on]; exact this
              · intro ex r p y hne hy hf
                rw [upd_self] at hy hf
                by_cases e : y = d.id
                · subst e; rw [upd_self]; exact p _ hne hy hf
                · rw [upd_ne _ _ e]; exact p y hne hy hf
          · refine Fair.trans (b := s1.upd d.id fun m => { m with tablet := some x.id })
              (Fair.upd _ _ _ _ (fun _ => ⟨rfl, rfl, rfl, rfl⟩) (fun h => absurd h e)) ?_
            split
            · exact tpSuspend_fair _ _ _ e
            · exact Fair.refl _ _

theorem tpAdded_fair (s : St) (d x : Info) (t : Nat) (n : x.id ≠ d.id) : Fair s (tpAdded s d x) t :=
  (pairStick_fair s d x t).trans ((pairTyping_fair _ d x t).trans ((pairLid_fair _ d x t).trans ((pairTablet_fair _ d x t n).trans
    (pairPen_fair _ d x t))))

/-! ## Parting -/

theorem tpNoStick_fair (s : St) (d x : Info) (t : Nat) : Fair s (tpNoStick s d x) t := by
  unfold tpNoStick
  split
  · refine Fair.trans (b := if d.monitor = true then s.unlisten d.id .stick 0 else s) ?_
      (Fair.upd _ _ _ _ (fun _ => ⟨rfl, rfl, rfl, rfl⟩) (fun _ _ => ⟨rfl, rfl, rfl, rfl, rfl, rfl⟩))
    split
    · exact Fair.of_mem (unlisten_devs _ _ _ _) (unlisten_mem _ _ _ _)
    · exact Fair.refl _ _
  · exact Fair.refl _ _

theorem fold_fair {α : Type} {f : St → α → St} {t : Nat} (hf : ∀ s k, Fair s (f s k) t) :
    ∀ (ks : List α) (s : St), Fair s (ks.foldl f s) t := by
  intro ks
  induction ks with
  | nil => intro s; exact Fair.refl _ _
  | cons k ks ih => intro s; exact (hf s k).trans (ih _)

theorem tpNoTyping_fair (s : St) (d x : Info) (t : Nat) : Fair s (tpNoTyping s d x) t := by
  unfold tpNoTyping
  dsimp only
  exact Fair.trans (fold_fair (f := fun s (k : Nat × Nat) => { s.unlisten d.id .typing k.1 with heap := s.heap.filter fun n => n != k.1 })
    (fun s k => Fair.of_mem (unlisten_devs s d.id .typing k.1) (unlisten_mem s d.id .typing k.1)) _ _)
    (Fair.upd _ _ _ (fun m => { m with kbds := m.kbds.filter fun k => k.2 != x.id }) (fun _ => ⟨rfl, rfl, rfl, rfl⟩) (fun _ _ => ⟨rfl, rfl, rfl, rfl, rfl, rfl⟩))

theorem fbNoKey_fair (s : St) (d x : Info) (t : Nat) : Fair s (fbNoKey s d x) t := by
  unfold fbNoKey
  dsimp only
  exact Fair.trans (fold_fair (f := fun s (k : Nat × Nat) => { s.drop d.id .lidKey k.1 with heap := s.heap.filter fun n => n != k.1 })
    (fun s k => Fair.of_mem rfl rfl) _ _)
    (Fair.upd _ _ _ (fun m => { m with kbds := m.kbds.filter fun k => k.2 != x.id }) (fun _ => ⟨rfl, rfl, rfl, rfl⟩) (fun _ _ => ⟨rfl, rfl, rfl, rfl, rfl, rfl⟩))

theorem fbNoTablet_fair (s : St) (d x : Info) (t : Nat) (n : t ≠ d.id) : Fair s (fbNoTablet s d x) t := by
  unfold fbNoTablet
  split
  · exact Fair.trans (b := s.drop d.id .tablet 0) (Fair.of_mem rfl rfl)
      (Fair.upd _ _ _ _ (fun _ => ⟨rfl, rfl, rfl, rfl⟩) (fun h => absurd h n))
  · exact Fair.refl _ _

theorem tpNoPen_fair (s : St) (d x : Info) (t : Nat) : Fair s (tpNoPen s d x) t := by
  unfold tpNoPen
  split
  · exact Fair.upd _ _ _ _ (fun _ => ⟨rfl, rfl, rfl, rfl⟩) (fun _ _ => ⟨rfl, rfl, rfl, rfl, rfl, rfl⟩)
  · exact Fair.refl _ _

theorem tpNoLid_fair (s : St) (d x : Info) (t : Nat) : Fair s (tpNoLid s d x) t := by
  unfold tpNoLid
  split
  · refine Fair.trans (Fair.of_mem (unlisten_devs s d.id .lid 0) (unlisten_mem _ _ _ _)) ?_
    generalize s.unlisten d.id .lid 0 = s1
    by_cases e : t = d.id
    · subst e
      obtain ⟨m1, m2, m3, m4⟩ := tpResume_mem (s1.upd d.id fun m => { m with lid := none }) d .lid
      have own : ∀ y, Own (s1.mem y) ((tpResume (s1.upd d.id fun m => { m with lid := none }) d .lid).mem y) := by
        intro y
        refine Own.trans ?_ (tpResume_own _ d .lid y)
        by_cases e : y = d.id
        · rw [e, upd_self]; exact ⟨rfl, rfl, rfl, rfl⟩
        · rw [upd_ne _ _ e]; exact Own.refl _
      have key : Right (s1.mem d.id) → ∃ u, (tpResume (s1.upd d.id fun m => { m with lid := none }) d .lid).mem d.id =
          { s1.mem d.id with lid := none, forLid := false, touch := u, suspended := (s1.mem d.id).forTablet || (s1.mem d.id).forMode } := by
        intro r
        obtain ⟨u, hu⟩ := m3 (by rw [upd_self]; exact r.sus)
        exact ⟨u, by rw [hu, upd_self]; simp [Dyn.why, Dyn.any]⟩
      refine ⟨m1, own, ?_, ?_, ?_⟩
      · intro r
        obtain ⟨u, hu⟩ := key r
        rw [hu]
        exact ⟨by simp, fun h => absurd h (by simp), r.tab, r.mode⟩
      · intro ex r p y hne hy
        obtain ⟨u, hu⟩ := key r
        rw [hu] at hy
        rw [hu, (own y).1]
        exact p y hne hy
      · intro ex r p y hne hy hf
        obtain ⟨u, hu⟩ := key r
        rw [hu] at hf
        exact absurd hf (by simp)
    · exact Fair.trans (Fair.upd _ _ _ (fun m => { m with lid := none }) (fun _ => ⟨rfl, rfl, rfl, rfl⟩) (fun h => absurd h e)) (tpResume_fair _ _ _ e)
  · exact Fair.refl _ _

theorem tpNoTablet_fair (s : St) (d x : Info) (t : Nat) : Fair s (tpNoTablet s d x) t := by
  unfold tpNoTablet
  split
  · refine Fair.trans (Fair.of_mem (unlisten_devs s d.id .tablet 0) (unlisten_mem _ _ _ _)) ?_
    generalize s.unlisten d.id .tablet 0 = s1
    by_cases e : t = d.id
    · subst e
      obtain ⟨m1, m2, m3, m4⟩ := tpResume_mem (s1.upd d.id fun m => { m with tablet := none }) d .tablet
      have own : ∀ y, Own (s1.mem y) ((tpResume (s1.upd d.id fun m => { m with tablet := none }) d .tablet).mem y) := by
        intro y
        refine Own.trans ?_ (tpResume_own _ d .tablet y)
        by_cases e : y = d.id
        · rw [e, upd_self]; exact ⟨rfl, rfl, rfl, rfl⟩
        · rw [upd_ne _ _ e]; exact Own.refl _
      have key : Right (s1.mem d.id) → ∃ u, (tpResume (s1.upd d.id fun m => { m with tablet := none }) d .tablet).mem d.id =
          { s1.mem d.id with tablet := none, forTablet := false, touch := u, suspended := (s1.mem d.id).forLid || (s1.mem d.id).forMode } := by
        intro r
        obtain ⟨u, hu⟩ := m3 (by rw [upd_self]; exact r.sus)
        exact ⟨u, by rw [hu, upd_self]; simp [Dyn.why, Dyn.any]⟩
      refine ⟨m1, own, ?_, ?_, ?_⟩
      · intro r
        obtain ⟨u, hu⟩ := key r
        rw [hu]
        exact ⟨by simp, r.lid, fun _ => rfl, r.mode⟩
      · intro ex r p y hne hy
        obtain ⟨u, hu⟩ := key r
        rw [hu] at hy
        exact absurd hy (by simp)
      · intro ex r p y hne hy hf
        obtain ⟨u, hu⟩ := key r
        rw [hu] at hy hf
        rw [(own y).2.1]
        exact p y hne hy hf
    · exact Fair.trans (Fair.upd _ _ _ (fun m => { m with tablet := none }) (fun _ => ⟨rfl, rfl, rfl, rfl⟩) (fun h => absurd h e)) (tpResume_fair _ _ _ e)
  · exact Fair.refl _ _

theorem tpRemoved_fair (s : St) (d x : Info) (t : Nat) : Fair s (tpRemoved s d x) t :=
  (tpNoStick_fair s d x t).trans ((tpNoTyping_fair _ d x t).trans ((tpNoLid_fair _ d x t).trans ((tpNoTablet_fair _ d x t).trans
    (tpNoPen_fair _ d x t))))

theorem Touch.fair {s s' : St} (h : Touch s s') (t : Nat) : Fair s s' t := by
  refine Fair.idle h.1 (fun y => ?_) ?_
  · obtain ⟨u, hu⟩ := h.2 y; rw [hu]; exact Own.refl _
  · obtain ⟨u, hu⟩ := h.2 t; rw [hu]; exact ⟨rfl, rfl, rfl, rfl, rfl, rfl⟩

theorem suspendedReact_fair (s : St) (d x : Info) (t : Nat) (hk : d.id = t → d.kind = .touchpad) : Fair s (suspendedReact s d x) t := by
  unfold suspendedReact
  split
  · rename_i k
    exact (fbNoKey_fair s d x t).trans (fbNoTablet_fair _ d x t fun e => absurd (hk e.symm) (by rw [k]; simp))
  · exact tpRemoved_fair _ _ _ _
  · exact (totemRemoved_touch _ _ _).fair _
  · exact Fair.refl _ _
  · exact Fair.refl _ _

/-- The touchpad is the one with this number. -/
def Uniq (s : St) (t : Nat) : Prop := ∀ d ∈ s.devs, d.id = t → d.kind = .touchpad

theorem loop_fair {f : St → Info → St} {t : Nat} {D : List Info} (hf : ∀ s d, d ∈ D → s.devs = D → Fair s (f s d) t) :
    ∀ (ds : List Info) (s : St), (∀ d ∈ ds, d ∈ D) → s.devs = D → Fair s (ds.foldl f s) t := by
  intro ds
  induction ds with
  | nil => intro s _ _; exact Fair.refl _ _
  | cons d ds ih =>
    intro s h e
    have a := hf s d (h d List.mem_cons_self) e
    exact a.trans (ih _ (fun d' h' => h d' (List.mem_cons_of_mem _ h')) (a.devs.trans e))

theorem suspendDev_fair (s : St) (f : Info) (t : Nat) (n : t ≠ f.id) (hu : Uniq s t) : Fair s (suspendDev s f) t := by
  unfold suspendDev
  split
  · exact Fair.refl _ _
  · exact Fair.trans (loop_fair (D := s.devs) (fun s' d hd _ => suspendedReact_fair s' d f t (hu d hd)) _ _
      (fun d hd => (others_mem.mp hd).1) rfl)
      (Fair.upd _ _ _ _ (fun _ => ⟨rfl, rfl, rfl, rfl⟩) (fun h => absurd h n))

theorem fbPairTablet_fair (s : St) (d x : Info) (t : Nat) (n : t ≠ d.id) (hu : Uniq s t) : Fair s (fbPairTablet s d x) t := by
  unfold fbPairTablet
  dsimp only
  have a : Fair s ((s.listen { src := x.id, owner := d.id, role := .tablet }).upd d.id fun m => { m with tablet := some x.id }) t :=
    Fair.trans (Fair.of_mem (listen_devs s { src := x.id, owner := d.id, role := .tablet }) (listen_mem _ _)) (Fair.upd _ _ _ (fun m => { m with tablet := some x.id }) (fun _ => ⟨rfl, rfl, rfl, rfl⟩) (fun h => absurd h n))
  have key : Fair s (if (((s.listen { src := x.id, owner := d.id, role := .tablet }).upd d.id fun m => { m with tablet := some x.id }).mem x.id).on
      then suspendDev ((s.listen { src := x.id, owner := d.id, role := .tablet }).upd d.id fun m => { m with tablet := some x.id }) d
      else (s.listen { src := x.id, owner := d.id, role := .tablet }).upd d.id fun m => { m with tablet := some x.id }) t := by
    split
    · exact a.trans (suspendDev_fair _ _ _ n (by intro d hd; exact hu d (by rw [a.devs] at hd; exact hd)))
    · exact a
  revert key
  generalize (if (((s.listen { src := x.id, owner := d.id, role := .tablet }).upd d.id fun m => { m with tablet := some x.id }).mem x.id).on
      then suspendDev ((s.listen { src := x.id, owner := d.id, role := .tablet }).upd d.id fun m => { m with tablet := some x.id }) d
      else (s.listen { src := x.id, owner := d.id, role := .tablet }).upd d.id fun m => { m with tablet := some x.id }) = r
  intro key
  repeat' split
  all_goals first | exact Fair.refl _ _ | exact key

theorem resumedReact_fair (s : St) (d x : Info) (t : Nat) (hd : d ∈ s.devs) (n : x.id ≠ d.id) (hu : Uniq s t) :
    Fair s (resumedReact s d x) t := by
  unfold resumedReact
  split
  · rename_i k
    have m : t ≠ d.id := fun e => absurd (hu d hd e.symm) (by rw [k]; simp)
    have a := lidPair_fair s d x t
    exact a.trans (fbPairTablet_fair _ d x t m (by intro d hd; exact hu d (a.devs ▸ hd)))
  · exact tpAdded_fair _ _ _ _ n
  · exact (totemAdded_touch _ _ _).fair _
  · exact Fair.refl _ _
  · exact Fair.refl _ _

theorem resumeDev_fair (s : St) (f : Info) (t : Nat) (n : t ≠ f.id) (hu : Uniq s t) : Fair s (resumeDev s f) t := by
  unfold resumeDev
  split
  · refine Fair.trans (b := (s.others f.id).foldl (fun s d => resumedReact s d f) s) ?_
      (Fair.upd _ _ _ _ (fun _ => ⟨rfl, rfl, rfl, rfl⟩) (fun h => absurd h n))
    have : ∀ (ds : List Info) (s' : St), (∀ d ∈ ds, d ∈ s.devs ∧ d.id ≠ f.id) → s'.devs = s.devs →
        Fair s' (ds.foldl (fun s d => resumedReact s d f) s') t := by
      intro ds
      induction ds with
      | nil => intro s' _ _; exact Fair.refl _ _
      | cons d ds ih =>
        intro s' h e
        obtain ⟨hd, nd⟩ := h d List.mem_cons_self
        have a := resumedReact_fair s' d f t (e ▸ hd) (fun c => nd c.symm) (by intro d hd; exact hu d (e ▸ hd))
        exact a.trans (ih _ (fun d' h' => h d' (List.mem_cons_of_mem _ h')) (a.devs.trans e))
    exact this _ _ (fun d hd => others_mem.mp hd) rfl
  · exact Fair.refl _ _

theorem tabletAdded_fair (s : St) (d x : Info) (t : Nat) : Fair s (tabletAdded s d x) t := by
  unfold tabletAdded
  dsimp only
  split
  · exact Fair.refl _ _
  · have a : Fair s (if (x.touchCap || (x.pointerCap && x.extTouchpad)) = true then s.upd d.id fun m => { m with touch := some x.id } else s) t := by
      split
      · exact (Touch.upd _ _ _).fair _
      · exact Fair.refl _ _
    revert a
    generalize (if (x.touchCap || (x.pointerCap && x.extTouchpad)) = true then s.upd d.id fun m => { m with touch := some x.id } else s) = s1
    intro a
    refine a.trans ?_
    · split
      · exact Fair.upd _ _ _ (fun m => { m with turned := some x.id }) (fun _ => ⟨rfl, rfl, rfl, rfl⟩) (fun _ _ => ⟨rfl, rfl, rfl, rfl, rfl, rfl⟩)
      · exact Fair.refl _ _

theorem tabletRemoved_fair (s : St) (d x : Info) (t : Nat) : Fair s (tabletRemoved s d x) t := by
  unfold tabletRemoved
  dsimp only
  have a : Fair s (if (s.mem d.id).touch = some x.id then s.upd d.id fun m => { m with touch := none } else s) t := by
    split
    · exact (Touch.upd _ _ _).fair _
    · exact Fair.refl _ _
  revert a
  generalize (if (s.mem d.id).touch = some x.id then s.upd d.id fun m => { m with touch := none } else s) = s1
  intro a
  refine a.trans ?_
  · split
    · exact Fair.upd _ _ _ (fun m => { m with turned := none }) (fun _ => ⟨rfl, rfl, rfl, rfl⟩) (fun _ _ => ⟨rfl, rfl, rfl, rfl, rfl, rfl⟩)
    · exact Fair.refl _ _

theorem addedReact_fair (s : St) (d x : Info) (t : Nat) (hd : d ∈ s.devs) (n : x.id ≠ d.id) (hu : Uniq s t) :
    Fair s (addedReact s d x) t := by
  unfold addedReact
  split
  · exact tabletAdded_fair _ _ _ _
  · exact resumedReact_fair _ _ _ _ hd n hu

theorem removedReact_fair (s : St) (d x : Info) (t : Nat) (hk : d.id = t → d.kind = .touchpad) : Fair s (removedReact s d x) t := by
  unfold removedReact
  split
  · exact tabletRemoved_fair _ _ _ _
  · exact suspendedReact_fair _ _ _ _ hk

end Libinput.Pairing
