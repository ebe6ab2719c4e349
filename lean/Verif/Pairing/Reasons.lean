import Verif.Pairing.Right
/-!
Touchpads are off for good reasons, after any history.
-/
namespace Libinput.Pairing
open Spec

/-- Whoever listens is called, if what it does stays. -/
theorem deliver_reach {call : St → Listener → St} {x : Nat} {I Q : St → Prop} {l : Listener}
    (hc : ∀ s l, I s → l ∈ s.lst → l.src = x → I (call s l) ∧ ∀ l' ∈ s.lst, l'.src = x → l' ∈ (call s l).lst)
    (hr : ∀ s, I s → l ∈ s.lst → Q (call s l))
    (hq : ∀ s l', I s → Q s → l' ∈ s.lst → l'.src = x → Q (call s l')) :
    ∀ (rest pre : List Listener) (s : St), I s → (∀ l ∈ pre, l.src = x → l ∈ s.lst) → (∀ l ∈ rest, l.src = x) →
      (l ∈ rest ∧ l ∈ pre ∨ Q s) → Q (deliver call pre s rest) := by
  intro rest
  induction rest with
  | nil =>
    intro pre s h _ _ hl
    rcases hl with hl | hl
    · cases hl.1
    · exact hl
  | cons a rest ih =>
    intro pre s h hp hs hl
    unfold deliver
    split
    · rename_i c
      refine ih pre s h hp (fun l' h' => hs l' (List.mem_cons_of_mem _ h')) ?_
      rcases hl with ⟨h1, h2⟩ | hl
      · rcases List.mem_cons.mp h1 with e | h1
        · subst e; simp at c; exact absurd h2 c
        · exact Or.inl ⟨h1, h2⟩
      · exact Or.inr hl
    · rename_i c
      have ha : a ∈ s.lst := hp a (by simpa using c) (hs a List.mem_cons_self)
      rw [if_neg (by simpa using ha)]
      have r := hc s a h ha (hs a List.mem_cons_self)
      refine ih s.lst _ r.1 r.2 (fun l' h' => hs l' (List.mem_cons_of_mem _ h')) ?_
      rcases hl with ⟨h1, h2⟩ | hl
      · rcases List.mem_cons.mp h1 with e | h1
        · subst e; exact Or.inr (hr s h ha)
        · exact Or.inl ⟨h1, hp l h2 (hs l (List.mem_cons_of_mem _ h1))⟩
      · exact Or.inr (hq s a h hl ha (hs a List.mem_cons_self))

/-- All touchpads, other than for the lid `el` and the switch `et`. -/
def FineX (el et : Option Nat) (s : St) : Prop :=
  ∀ t ∈ s.devs, t.kind = .touchpad → Right (s.mem t.id) ∧ TabOk et s t.id ∧ LidOk el s t.id

abbrev Fine (s : St) : Prop := FineX none none s

theorem FineX.fair {el et : Option Nat} {s s' : St} (h : FineX el et s) (e : s'.devs = s.devs)
    (f : ∀ t ∈ s.devs, t.kind = .touchpad → Fair s s' t.id) : FineX el et s' := by
  intro t ht k
  rw [e] at ht
  obtain ⟨h1, h2, h3⟩ := h t ht k
  have g := f t ht k
  exact ⟨g.good h1, g.tab _ h1 h2, g.lid _ h1 h3⟩

theorem FineX.weak {s : St} (h : Fine s) (el et : Option Nat) : FineX el et s := by
  intro t ht k
  obtain ⟨h1, h2, h3⟩ := h t ht k
  exact ⟨h1, fun x _ => h2 x (by simp), fun x _ => h3 x (by simp)⟩

/-- Something changes about a device that is no touchpad. -/
theorem FineX.upd {el et : Option Nat} {s : St} (h : FineX el et s) {i : Nat} {f : Dyn → Dyn}
    (hi : ∀ t ∈ s.devs, t.kind = .touchpad → t.id ≠ i)
    (hon : et ≠ some i → (f (s.mem i)).on = (s.mem i).on) (hc : el ≠ some i → (f (s.mem i)).client = (s.mem i).client) :
    FineX el et (s.upd i f) := by
  intro t ht k
  obtain ⟨h1, h2, h3⟩ := h t ht k
  unfold TabOk LidOk
  rw [upd_ne _ _ (hi t ht k)]
  refine ⟨h1, ?_, ?_⟩
  · intro x e hx
    rw [h2 x e hx]
    by_cases c : x = i
    · subst c; rw [upd_self, hon e]
    · rw [upd_ne _ _ c]
  · intro x e hx hf
    rw [← h3 x e hx hf]
    by_cases c : x = i
    · subst c; rw [upd_self, hc e]
    · rw [upd_ne _ _ c]

theorem not_tp {s : St} (h : Safe s) {x : Info} (hx : x ∈ s.devs) (k : x.kind ≠ .touchpad) :
    ∀ t ∈ s.devs, t.kind = .touchpad → t.id ≠ x.id := by
  intro t ht kt e
  rw [h.inj ht hx e] at kt
  exact k kt

theorem uniq {s : St} (h : Safe s) {t : Info} (ht : t ∈ s.devs) (k : t.kind = .touchpad) : Uniq s t.id := by
  intro d hd e
  rw [h.inj hd ht e]; exact k

/-! ## Lids -/

theorem callLid_cases {A : List Info} (c : Bool) {s : St} {l : Listener} (h : Inv A s) (hl : l ∈ s.lst) :
    (l.role ≠ .lid ∧ callLid c s l = s) ∨
    (l.role = .lid ∧ ∃ o ∈ s.devs, o.id = l.owner ∧ o.kind = .touchpad ∧ (s.mem o.id).lid = some l.src ∧
      callLid c s l = if c then tpSuspend s o .lid else tpResume s o .lid) := by
  obtain ⟨o, ho, e, hf, he⟩ := listener_find h.safe hl
  unfold callLid
  rw [hf]
  dsimp only
  cases hr : l.role <;> try exact Or.inl ⟨by simp, rfl⟩
  unfold Entry at he
  rw [hr] at he
  exact Or.inr ⟨rfl, o, ho, e, he.1, he.2.1, rfl⟩

/-- A touchpad as its lid closes or opens. -/
theorem lidTurn (s : St) (o : Info) (c : Bool) :
    let s' := if c then tpSuspend s o .lid else tpResume s o .lid
    s'.devs = s.devs ∧ (∀ y, Own (s.mem y) (s'.mem y)) ∧ (∀ y, y ≠ o.id → ∃ u, s'.mem y = { s.mem y with touch := u }) ∧
    (Right (s.mem o.id) → ∃ u, s'.mem o.id = { s.mem o.id with
      forLid := c, touch := u, suspended := c || (s.mem o.id).forTablet || (s.mem o.id).forMode }) := by
  dsimp only
  cases c
  · obtain ⟨m1, m2, m3, _⟩ := tpResume_mem s o .lid
    refine ⟨m1, tpResume_own s o .lid, m2, fun r => ?_⟩
    obtain ⟨u, hu⟩ := m3 r.sus
    exact ⟨u, by rw [if_neg (by simp), hu]; simp [Dyn.why, Dyn.any]⟩
  · obtain ⟨m1, m2, m3, _⟩ := tpSuspend_mem s o .lid
    refine ⟨m1, tpSuspend_own s o .lid, m2, fun r => ?_⟩
    obtain ⟨u, hu⟩ := m3 r.sus
    exact ⟨u, by rw [if_pos rfl, hu]; simp [Dyn.why]⟩

/-- A touchpad as its tablet-mode switch is turned. -/
theorem tabletTurn (s : St) (o : Info) (v : Bool) :
    let s' := if v then tpSuspend s o .tablet else tpResume s o .tablet
    s'.devs = s.devs ∧ (∀ y, Own (s.mem y) (s'.mem y)) ∧ (∀ y, y ≠ o.id → ∃ u, s'.mem y = { s.mem y with touch := u }) ∧
    (Right (s.mem o.id) → ∃ u, s'.mem o.id = { s.mem o.id with
      forTablet := v, touch := u, suspended := (s.mem o.id).forLid || v || (s.mem o.id).forMode }) := by
  dsimp only
  cases v
  · obtain ⟨m1, m2, m3, _⟩ := tpResume_mem s o .tablet
    refine ⟨m1, tpResume_own s o .tablet, m2, fun r => ?_⟩
    obtain ⟨u, hu⟩ := m3 r.sus
    exact ⟨u, by rw [if_neg (by simp), hu]; simp [Dyn.why, Dyn.any]⟩
  · obtain ⟨m1, m2, m3, _⟩ := tpSuspend_mem s o .tablet
    refine ⟨m1, tpSuspend_own s o .tablet, m2, fun r => ?_⟩
    obtain ⟨u, hu⟩ := m3 r.sus
    exact ⟨u, by rw [if_pos rfl, hu]; simp [Dyn.why]⟩

theorem idle_touch {s s' : St} {t : Nat} (e : s'.devs = s.devs) (ho : ∀ y, Own (s.mem y) (s'.mem y))
    (h : ∃ u, s'.mem t = { s.mem t with touch := u }) : Fair s s' t := by
  refine Fair.idle e ho ?_
  obtain ⟨u, hu⟩ := h
  rw [hu]; exact ⟨rfl, rfl, rfl, rfl, rfl, rfl⟩

/-- What holds while a lid is being announced. -/
structure LidI (A : List Info) (s0 s : St) (x : Nat) : Prop where
  inv : Inv A s
  kept : Kept s0 s
  own : ∀ y, Own (s0.mem y) (s.mem y)
  lid : ∀ y, (s.mem y).lid = (s0.mem y).lid
  fine : FineX (some x) none s

theorem callLid_I {A : List Info} {s0 : St} {x : Nat} (c : Bool) {s : St} {l : Listener} (h : LidI A s0 s x) (hl : l ∈ s.lst)
    (hx : l.src = x) : LidI A s0 (callLid c s l) x ∧ ∀ t : Nat, (s.mem t).forLid = c → ((callLid c s l).mem t).forLid = c := by
  have a := callLid_inv c h.inv hl
  rcases callLid_cases c h.inv hl with ⟨_, e⟩ | ⟨_, o, ho, _, ko, hlid, e⟩
  · rw [e]; exact ⟨h, fun _ => id⟩
  · obtain ⟨t1, t2, t3, t4⟩ := lidTurn s o c
    rw [e] at a ⊢
    revert a t1 t2 t3 t4
    dsimp only
    generalize (if c then tpSuspend s o .lid else tpResume s o .lid) = s'
    intro a t1 t2 t3 t4
    obtain ⟨r, hr2, hr3⟩ := h.fine o ho ko
    obtain ⟨u, hu⟩ := t4 r
    refine ⟨⟨a.1, h.kept.trans a.2, fun y => (h.own y).trans (t2 y), ?_, ?_⟩, ?_⟩
    · intro y
      rw [← h.lid y]
      by_cases e : y = o.id
      · rw [e, hu]
      · obtain ⟨v, hv⟩ := t3 y e; rw [hv]
    · intro t ht kt
      rw [t1] at ht
      obtain ⟨r1, r2, r3⟩ := h.fine t ht kt
      by_cases e : t.id = o.id
      · rw [e]
        refine ⟨?_, ?_, ?_⟩
        · rw [hu]
          refine ⟨by simp, fun _ => ?_, r.tab, r.mode⟩
          show (s.mem o.id).lid ≠ none
          rw [hlid]; simp
        · intro y hy hyt
          rw [hu] at hyt
          rw [hu, (t2 y).1]; exact hr2 y hy hyt
        · intro y hy hyl
          rw [hu] at hyl
          have hyl' : (s.mem o.id).lid = some y := hyl
          rw [hlid, hx] at hyl'
          exact absurd hyl' hy
      · have g := idle_touch t1 t2 (t3 t.id e)
        exact ⟨g.good r1, g.tab _ r1 r2, g.lid _ r1 r3⟩
    · intro t ht
      by_cases e : t = o.id
      · rw [e, hu]
      · obtain ⟨v, hv⟩ := t3 t e; rw [hv]; exact ht

theorem callLid_sets {A : List Info} {s0 : St} {x : Nat} (c : Bool) {s : St} {l : Listener} (h : LidI A s0 s x) (hl : l ∈ s.lst)
    (hr : l.role = .lid) : ((callLid c s l).mem l.owner).forLid = c := by
  rcases callLid_cases c h.inv hl with ⟨n, _⟩ | ⟨_, o, ho, eo, ko, _, e⟩
  · exact absurd hr n
  · obtain ⟨_, _, _, t4⟩ := lidTurn s o c
    obtain ⟨u, hu⟩ := t4 (h.fine o ho ko).1
    rw [e, ← eo, hu]

/-- A lid is announced: nothing is out of order afterwards, and the touchpads with this lid follow. -/
theorem notifyLid_fine {A : List Info} {s : St} {x : Info} (h : Inv A s) (hf : Fine s) (hx : x ∈ s.devs) (k : x.kind = .fallback) :
    Fine (notifyLid s x.id) ∧ ((s.mem x.id).closed ≠ (s.mem x.id).client →
      ∀ t ∈ s.devs, t.kind = .touchpad → (s.mem t.id).lid = some x.id → ((notifyLid s x.id).mem t.id).forLid = (s.mem x.id).closed) := by
  unfold notifyLid
  split
  · have I0 : LidI A s s x.id := ⟨h, Kept.refl _, fun _ => Own.refl _, fun _ => rfl, FineX.weak hf _ _⟩
    have step : ∀ s' l, LidI A s s' x.id → l ∈ s'.lst → l.src = x.id → LidI A s (callLid (s.mem x.id).closed s' l) x.id ∧
        ∀ l' ∈ s'.lst, l'.src = x.id → l' ∈ (callLid (s.mem x.id).closed s' l).lst := by
      intro s' l hI hl hs
      exact ⟨(callLid_I _ hI hl hs).1, fun l' h' _ => (callLid_inv _ hI.inv hl).2.2 l' h'⟩
    have I1 := deliver_inv (call := callLid (s.mem x.id).closed) (x := x.id) step (s.of x.id) s.lst s I0 (fun _ hl _ => hl) of_src
    have Q : ∀ t ∈ s.devs, t.kind = .touchpad → (s.mem t.id).lid = some x.id →
        ((deliver (callLid (s.mem x.id).closed) s.lst s (s.of x.id)).mem t.id).forLid = (s.mem x.id).closed := by
      intro t ht kt hl
      have hlst : ({ src := x.id, owner := t.id, role := .lid } : Listener) ∈ s.lst :=
        (h.safe.at_ t ht).heard _ rfl (by simp) ⟨kt, hl, rfl⟩
      refine deliver_reach (l := { src := x.id, owner := t.id, role := .lid })
        (Q := fun s' => (s'.mem t.id).forLid = (s.mem x.id).closed) step ?_ ?_ (s.of x.id) s.lst s I0 (fun _ hl _ => hl) of_src
        (Or.inl ⟨List.mem_filter.mpr ⟨hlst, by simp⟩, hlst⟩)
      · intro s' hI hl'
        exact callLid_sets (s.mem x.id).closed hI hl' rfl
      · intro s' l' hI hq hl' hs
        exact (callLid_I _ hI hl' hs).2 _ hq
    dsimp only
    revert I1 Q
    generalize deliver (callLid (s.mem x.id).closed) s.lst s (s.of x.id) = s1
    intro I1 Q
    have ntp := not_tp h.safe hx (by rw [k]; simp)
    refine ⟨?_, ?_⟩
    · intro t ht kt
      have ht1 : t ∈ s1.devs := ht
      have ht0 : t ∈ s.devs := I1.kept.1 ▸ ht1
      have F := FineX.upd (el := some x.id) (et := none) (s := { s1 with log := s1.log ++ [.lid x.id (s.mem x.id).closed] }) I1.fine
        (i := x.id) (f := fun m => { m with client := m.closed }) (fun t ht kt => ntp t (I1.kept.1 ▸ ht) kt) (fun _ => rfl)
        (fun c => absurd rfl c) t ht kt
      refine ⟨F.1, F.2.1, ?_⟩
      intro y _ hy hfl
      by_cases e : y = x.id
      · subst e
        rw [upd_self]
        rw [upd_ne _ _ (ntp t ht0 kt)] at hy hfl
        have hl0 : (s.mem t.id).lid = some x.id := (I1.lid t.id).symm.trans hy
        have := Q t ht0 kt hl0
        show (s1.mem x.id).closed = true
        rw [(I1.own x.id).2.2.2, ← this]
        exact hfl
      · exact F.2.2 y (by simp; exact fun c => e c.symm) hy hfl
    · intro _ t ht kt hl
      rw [upd_ne _ _ (ntp t ht kt)]
      exact Q t ht kt hl
  · rename_i c
    exact ⟨hf, fun n => absurd (by simpa using c) n⟩

/-! ## Tablet-mode switches -/

/-- What holds while a switch is being announced. -/
structure TabI (A : List Info) (s0 s : St) (x : Nat) : Prop where
  inv : Inv A s
  devs : s.devs = s0.devs
  on : ∀ y, (s.mem y).on = (s0.mem y).on
  fine : FineX none (some x) s

theorem call_tablet_cases {A : List Info} (v : Bool) {s : St} {l : Listener} (h : Inv A s) (hl : l ∈ s.lst) :
    (l.role ≠ .tablet ∧ call (.tablet v) s l = s) ∨
    (l.role = .tablet ∧ ∃ o ∈ s.devs, o.id = l.owner ∧ (s.mem o.id).tablet = some l.src ∧
      ((o.kind = .touchpad ∧ call (.tablet v) s l = if v then tpSuspend s o .tablet else tpResume s o .tablet) ∨
       (o.kind = .fallback ∧ call (.tablet v) s l =
          if v then suspendDev s o else if (s.mem o.id).disabled then s else resumeDev s o))) := by
  obtain ⟨o, ho, e, hf, he⟩ := listener_find h.safe hl
  unfold call
  rw [hf]
  dsimp only
  cases hr : l.role <;> try exact Or.inl ⟨by simp, rfl⟩
  unfold Entry at he
  rw [hr] at he
  refine Or.inr ⟨rfl, o, ho, e, he.2.1, ?_⟩
  rcases he.1 with k | k
  · exact Or.inl ⟨k, if_pos k⟩
  · exact Or.inr ⟨k, if_neg (by rw [k]; simp)⟩

theorem fbTurn_fair {s : St} (h : Safe s) {o t : Info} (ho : o ∈ s.devs) (ko : o.kind = .fallback) (ht : t ∈ s.devs)
    (kt : t.kind = .touchpad) (v : Bool) :
    Fair s (if v then suspendDev s o else if (s.mem o.id).disabled then s else resumeDev s o) t.id := by
  have n := not_tp h ho (by rw [ko]; simp) t ht kt
  split
  · exact suspendDev_fair _ _ _ n (uniq h ht kt)
  · split
    · exact Fair.refl _ _
    · exact resumeDev_fair _ _ _ n (uniq h ht kt)

theorem fbTurn_own {A : List Info} {s : St} (h : Inv A s) {o : Info} (ho : o ∈ s.devs) (v : Bool) (y : Nat) :
    ((if v then suspendDev s o else if (s.mem o.id).disabled then s else resumeDev s o).mem y).on = (s.mem y).on ∧
    ((if v then suspendDev s o else if (s.mem o.id).disabled then s else resumeDev s o).mem y).disabled = (s.mem y).disabled ∧
    (if v then suspendDev s o else if (s.mem o.id).disabled then s else resumeDev s o).devs = s.devs := by
  split
  · have a := suspendDev_spec h.safe ho
    exact ⟨a.2.1.on y, a.2.1.mode y, a.2.1.devs⟩
  · split
    · exact ⟨rfl, rfl, rfl⟩
    · have a := resumeDev_spec h.safe ho h.sub h.full
      exact ⟨(a.2.2.2.2.1 y).2, (a.2.2.2.2.1 y).1, a.2.1⟩

theorem call_tablet_I {A : List Info} (M : Machine A) {s0 : St} {x : Nat} (v : Bool) (hv : (s0.mem x).on = v) {s : St} {l : Listener}
    (h : TabI A s0 s x) (hl : l ∈ s.lst) (hx : l.src = x) :
    TabI A s0 (call (.tablet v) s l) x ∧
      ∀ t ∈ s.devs, t.kind = .touchpad → TabOk none s t.id → TabOk none (call (.tablet v) s l) t.id := by
  have a := call_inv M (.tablet v) h.inv hl
  rcases call_tablet_cases v h.inv hl with ⟨_, e⟩ | ⟨_, o, ho, _, htab, ⟨ko, e⟩ | ⟨ko, e⟩⟩
  · rw [e]; exact ⟨h, fun _ _ _ => id⟩
  · obtain ⟨t1, t2, t3, t4⟩ := tabletTurn s o v
    rw [e] at a ⊢
    revert a t1 t2 t3 t4
    dsimp only
    generalize (if v then tpSuspend s o .tablet else tpResume s o .tablet) = s'
    intro a t1 t2 t3 t4
    obtain ⟨r, hr2, hr3⟩ := h.fine o ho ko
    obtain ⟨u, hu⟩ := t4 r
    have onx : ∀ y, (s'.mem y).on = (s0.mem y).on := fun y => (t2 y).1.trans (h.on y)
    have tabo : TabOk none s' o.id := by
      intro y _ hyt
      rw [hu] at hyt
      have hyt' : (s.mem o.id).tablet = some y := hyt
      rw [htab, hx] at hyt'
      have e : x = y := by simpa using hyt'
      subst e
      rw [hu, onx, hv]
    refine ⟨⟨a.1, t1.trans h.devs, onx, ?_⟩, ?_⟩
    · intro t ht kt
      rw [t1] at ht
      obtain ⟨r1, r2, r3⟩ := h.fine t ht kt
      by_cases e : t.id = o.id
      · rw [e]
        refine ⟨?_, fun y _ => tabo y (by simp), ?_⟩
        · rw [hu]
          refine ⟨by simp, r.lid, fun c => ?_, r.mode⟩
          have : (s.mem o.id).tablet = none := c
          rw [htab] at this; cases this
        · intro y hy hyl hfl
          rw [hu] at hyl hfl
          rw [(t2 y).2.1]; exact hr3 y hy hyl hfl
      · have g := idle_touch t1 t2 (t3 t.id e)
        exact ⟨g.good r1, g.tab _ r1 r2, g.lid _ r1 r3⟩
    · intro t ht kt hq
      by_cases e : t.id = o.id
      · rw [e]; exact tabo
      · exact (idle_touch t1 t2 (t3 t.id e)).tab _ (h.fine t ht kt).1 hq
  · have f := fun t ht kt => fbTurn_fair h.inv.safe (t := t) ho ko ht kt v
    have g := fbTurn_own h.inv ho v
    rw [e] at a ⊢
    revert a f g
    generalize (if v then suspendDev s o else if (s.mem o.id).disabled then s else resumeDev s o) = s'
    intro a f g
    exact ⟨⟨a.1, a.2.1.trans h.devs, fun y => (g y).1.trans (h.on y), h.fine.fair a.2.1 f⟩,
      fun t ht kt hq => (f t ht kt).tab _ (h.fine t ht kt).1 hq⟩

theorem call_tablet_sets {A : List Info} {s0 : St} {x : Nat} (v : Bool) (hv : (s0.mem x).on = v) {s : St} {l : Listener} {t : Info}
    (h : TabI A s0 s x) (hl : l ∈ s.lst) (hx : l.src = x) (hr : l.role = .tablet) (ht : t ∈ s.devs) (kt : t.kind = .touchpad)
    (et : l.owner = t.id) : TabOk none (call (.tablet v) s l) t.id := by
  rcases call_tablet_cases v h.inv hl with ⟨n, _⟩ | ⟨_, o, ho, eo, htab, ⟨ko, e⟩ | ⟨ko, e⟩⟩
  · exact absurd hr n
  · obtain ⟨_, t2, _, t4⟩ := tabletTurn s o v
    obtain ⟨u, hu⟩ := t4 (h.fine o ho ko).1
    have eto : t.id = o.id := et.symm.trans eo.symm
    rw [e, eto]
    intro y _ hyt
    rw [hu] at hyt
    have hyt' : (s.mem o.id).tablet = some y := hyt
    rw [htab, hx] at hyt'
    have e' : x = y := by simpa using hyt'
    subst e'
    rw [hu, (t2 x).1, h.on, hv]
  · have : o = t := h.inv.safe.inj ho ht (eo.trans et)
    rw [this, kt] at ko; cases ko

theorem post_tablet_fine {A : List Info} (M : Machine A) {s : St} {x : Info} {v : Bool} (h : Inv A s) (hv : (s.mem x.id).on = v)
    (hf : FineX none (some x.id) s) : Fine (post s x.id (.tablet v)) := by
  unfold post
  have I0 : TabI A s s x.id := ⟨h, rfl, fun _ => rfl, hf⟩
  have step : ∀ s' l, TabI A s s' x.id → l ∈ s'.lst → l.src = x.id → TabI A s (call (.tablet v) s' l) x.id ∧
      ∀ l' ∈ s'.lst, l'.src = x.id → l' ∈ (call (.tablet v) s' l).lst := by
    intro s' l hI hl hs
    exact ⟨(call_tablet_I M v hv hI hl hs).1, fun l' h' e => (call_inv M _ hI.inv hl).2.2 l' h' (e.trans hs.symm)⟩
  have I1 := deliver_inv (call := call (.tablet v)) (x := x.id) step (s.of x.id) s.lst s I0 (fun _ hl _ => hl) of_src
  intro t ht kt
  obtain ⟨r1, _, r3⟩ := I1.fine t ht kt
  refine ⟨r1, ?_, r3⟩
  have ht0 : t ∈ s.devs := I1.devs ▸ ht
  refine deliver_reach (l := { src := x.id, owner := t.id, role := .tablet }) (Q := fun s' => TabOk none s' t.id) step ?_ ?_
    (s.of x.id) s.lst s I0 (fun _ hl _ => hl) of_src ?_
  · intro s' hI hl'
    exact call_tablet_sets v hv hI hl' rfl rfl (hI.devs ▸ ht0) kt rfl
  · intro s' l' hI hq hl' hs
    exact (call_tablet_I M v hv hI hl' hs).2 t (hI.devs ▸ ht0) kt hq
  · by_cases c : (s.mem t.id).tablet = some x.id
    · have hlst : ({ src := x.id, owner := t.id, role := .tablet } : Listener) ∈ s.lst :=
        (h.safe.at_ t ht0).heard _ rfl (by simp) ⟨Or.inl kt, c, rfl⟩
      exact Or.inl ⟨List.mem_filter.mpr ⟨hlst, by simp⟩, hlst⟩
    · refine Or.inr ?_
      intro y _ hy
      exact (hf t ht0 kt).2.1 y (fun e => c (by rw [hy]; exact e.symm)) hy

/-! ## Everything else -/

theorem post_fine {A : List Info} (M : Machine A) {s : St} {x : Nat} {ev : Ev} (hev : ∀ v, ev ≠ .tablet v) (h : Inv A s) (hf : Fine s) :
    Fine (post s x ev) := by
  unfold post
  have := deliver_inv (call := call ev) (x := x) (I := fun s' => Inv A s' ∧ Fine s')
    (by
      intro s' l hI hl hs
      have a := call_inv M ev hI.1 hl
      refine ⟨⟨a.1, ?_⟩, fun l' h' e => a.2.2 l' h' (e.trans hs.symm)⟩
      obtain ⟨o, ho, e, hfi, he⟩ := listener_find hI.1.safe hl
      unfold call
      rw [hfi]
      dsimp only
      split
      · exact hI.2
      · exact hI.2
      · rename_i hr
        unfold Entry at he
        rw [hr] at he
        split
        · refine (notifyLid_fine (s := s'.upd o.id fun m => { m with closed := false }) (x := o)
            (hI.1.flag ho (fun _ => rfl) (fun _ => rfl) (fun _ => rfl) (fun _ => rfl) (fun _ => rfl) (fun _ => rfl) (fun _ => rfl)
            (fun _ => rfl)) ?_ ho he.1).1
          exact hI.2.upd (not_tp hI.1.safe ho (by rw [he.1]; simp)) (fun _ => rfl) (fun _ => rfl)
        · exact hI.2
      · rename_i on _
        exact absurd rfl (hev on)
      · exact hI.2)
    (s.of x) s.lst s ⟨h, hf⟩ (fun _ hl _ => hl) of_src
  exact this.2

theorem toggleKeys_mem (s : St) (x : Nat) (c : Bool) : (toggleKeys s x c).devs = s.devs ∧ (toggleKeys s x c).mem = s.mem := by
  unfold toggleKeys
  have : ∀ (ks : List (Nat × Nat)) (s' : St), s'.devs = s.devs → s'.mem = s.mem →
      let r := ks.foldl (fun s k =>
        let s := s.drop x .lidKey k.1
        if c then s.listen { src := k.2, owner := x, role := .lidKey, ser := k.1 } else s) s'
      r.devs = s.devs ∧ r.mem = s.mem := by
    intro ks
    induction ks with
    | nil => intro s' a b; exact ⟨a, b⟩
    | cons p ks ih =>
      intro s' a b
      refine ih _ ?_ ?_
      · dsimp only; split
        · rw [listen_devs]; exact a
        · exact a
      · dsimp only; split
        · rw [listen_mem]; exact b
        · exact b
  exact this _ s rfl rfl

theorem lidEvent_fine {A : List Info} {s : St} {x : Info} (h : Inv A s) (hf : Fine s) (hx : x ∈ s.devs) (k : x.kind = .fallback) (c : Bool) :
    Fine (lidEvent s x.id c) := by
  unfold lidEvent
  have a := toggleKeys_inv h hx k c
  revert a
  generalize toggleKeys s x.id c = s1
  intro a
  have f1 : Fine s1 := hf.fair a.2.1 (fun t _ _ => Fair.of_mem a.2.1 a.2.2)
  dsimp only
  split
  · exact f1
  · refine (notifyLid_fine (s := s1.upd x.id fun m => { m with closed := c }) (x := x)
      (a.1.flag (a.2.1 ▸ hx) (fun _ => rfl) (fun _ => rfl) (fun _ => rfl) (fun _ => rfl) (fun _ => rfl) (fun _ => rfl) (fun _ => rfl)
        (fun _ => rfl)) ?_ (a.2.1 ▸ hx) k).1
    exact f1.upd (not_tp a.1.safe (a.2.1 ▸ hx) (by rw [k]; simp)) (fun _ => rfl) (fun _ => rfl)

theorem tabletEvent_fine {A : List Info} (M : Machine A) {s : St} {x : Info} (h : Inv A s) (hf : Fine s) (hx : x ∈ s.devs)
    (k : x.kind = .fallback) (v : Bool) : Fine (tabletEvent s x.id v) := by
  unfold tabletEvent
  split
  · exact hf
  · refine post_tablet_fine M (s := s.upd x.id fun m => { m with on := v }) (x := x) ?_ (by rw [upd_self]) ?_
    · exact h.flag hx (fun _ => rfl) (fun _ => rfl) (fun _ => rfl) (fun _ => rfl) (fun _ => rfl) (fun _ => rfl) (fun _ => rfl) (fun _ => rfl)
    · exact (FineX.weak hf _ _).upd (not_tp h.safe hx (by rw [k]; simp)) (fun c => absurd rfl c) (fun _ => rfl)

theorem initialState_fine {A : List Info} (M : Machine A) {s : St} {x : Info} (h : Inv A s) (hf : Fine s) (hx : x ∈ s.devs)
    (k : x.kind = .fallback) (hc : (s.mem x.id).client = false) : Fine (initialState s x) := by
  unfold initialState
  have ntp := not_tp h.safe hx (by rw [k]; simp)
  have a : Fine (if x.lidSw then
        let s := s.upd x.id fun m => { m with closed := x.closed0, client := false }
        if x.closed0 && x.reliable then notifyLid s x.id else s
      else s) ∧ Inv A (if x.lidSw then
        let s := s.upd x.id fun m => { m with closed := x.closed0, client := false }
        if x.closed0 && x.reliable then notifyLid s x.id else s
      else s) := by
    split
    · have b : Inv A (s.upd x.id fun m => { m with closed := x.closed0, client := false }) :=
        h.flag hx (fun _ => rfl) (fun _ => rfl) (fun _ => rfl) (fun _ => rfl) (fun _ => rfl) (fun _ => rfl) (fun _ => rfl)
          (fun _ => rfl)
      have f1 : Fine (s.upd x.id fun m => { m with closed := x.closed0, client := false }) :=
        hf.upd ntp (fun _ => rfl) (fun _ => hc.symm)
      dsimp only
      split
      · exact ⟨(notifyLid_fine b f1 (x := x) hx k).1, (notifyLid_inv b (x := x) hx).1⟩
      · exact ⟨f1, b⟩
    · exact ⟨hf, h⟩
  revert a
  generalize (if x.lidSw then
        let s := s.upd x.id fun m => { m with closed := x.closed0, client := false }
        if x.closed0 && x.reliable then notifyLid s x.id else s
      else s) = s1
  intro a
  dsimp only
  split
  · rename_i on
    exact post_tablet_fine M a.2 on (FineX.weak a.1 _ _)
  · exact a.1

theorem greet_fair {s : St} {x d : Info} {t : Nat} (hx : x ∈ s.devs) (hd : d ∈ s.devs) (n : d.id ≠ x.id) (hu : Uniq s t) :
    Fair s (greet x s d) t := by
  unfold greet
  dsimp only
  have a := addedReact_fair s d x t hd (fun e => n e.symm) hu
  revert a
  generalize addedReact s d x = s1
  intro a
  have u1 : Uniq s1 t := by intro d hd; exact hu d (a.devs ▸ hd)
  have b := addedReact_fair s1 x d t (a.devs ▸ hx) n u1
  revert b
  generalize addedReact s1 x d = s2
  intro b
  split
  · exact a.trans (b.trans (suspendedReact_fair _ _ _ _ (hu x hx)))
  · exact a.trans b

theorem greets_fair {x : Info} {t : Nat} {D : List Info} (hx : x ∈ D) (hu : ∀ d ∈ D, d.id = t → d.kind = .touchpad) :
    ∀ (ds : List Info) (s : St), (∀ d ∈ ds, d ∈ D ∧ d.id ≠ x.id) → s.devs = D → Fair s (ds.foldl (greet x) s) t := by
  intro ds
  induction ds with
  | nil => intro s _ _; exact Fair.refl _ _
  | cons d ds ih =>
    intro s h e
    obtain ⟨hd, n⟩ := h d List.mem_cons_self
    have a := greet_fair (s := s) (e ▸ hx) (e ▸ hd) n (t := t) (by intro d hd; exact hu d (e ▸ hd))
    exact a.trans (ih _ (fun d' h' => h d' (List.mem_cons_of_mem _ h')) (a.devs.trans e))

theorem enter_fine {s : St} {x : Info} (h : Safe s) (hf : Fine s) (hx : ∀ d ∈ s.devs, d.id ≠ x.id) : Fine (enter s x) := by
  intro t ht kt
  unfold enter at ht
  rcases List.mem_append.mp ht with ht | ht
  · have n := hx t ht
    obtain ⟨r1, r2, r3⟩ := hf t ht kt
    have em : ∀ y, y ≠ x.id → (enter s x).mem y = s.mem y := by intro y hy; simp [enter, hy]
    unfold TabOk LidOk
    rw [em _ n]
    refine ⟨r1, ?_, ?_⟩
    · intro y _ hy
      obtain ⟨Y, hY, eY, _⟩ := (h.at_ t ht).bel .tablet y ⟨Or.inl kt, hy⟩
      rw [em y (by rw [← eY]; exact hx Y hY)]
      exact r2 y (by simp) hy
    · intro y _ hy hfl
      obtain ⟨Y, hY, eY, _⟩ := (h.at_ t ht).bel .lid y ⟨kt, hy⟩
      rw [em y (by rw [← eY]; exact hx Y hY)]
      exact r3 y (by simp) hy hfl
  · have e : t = x := by simpa using ht
    subst e
    have em : (enter s t).mem t.id = { on := t.tabletSw && t.on0 } := by simp [enter]
    unfold TabOk LidOk
    rw [em]
    exact ⟨⟨rfl, fun c => absurd c (by simp), fun _ => rfl, rfl⟩, fun y _ c => absurd c (by simp), fun y _ c => absurd c (by simp)⟩

theorem fresh (D : List Info) : ∃ b : Nat, ∀ d ∈ D, d.id ≠ b := by
  have : ∃ b : Nat, ∀ d ∈ D, d.id < b := by
    induction D with
    | nil => exact ⟨0, fun d hd => by cases hd⟩
    | cons d D ih =>
      obtain ⟨b, hb⟩ := ih
      refine ⟨max b (d.id + 1), fun d' h => ?_⟩
      rcases List.mem_cons.mp h with rfl | h
      · omega
      · have := hb d' h; omega
  obtain ⟨b, hb⟩ := this
  exact ⟨b, fun d hd => by have := hb d hd; omega⟩

theorem addDev_fine {A : List Info} (M : Machine A) {s : St} {x : Info} (h : Inv A s) (hf : Fine s)
    (hx : ∀ d ∈ s.devs, d.id ≠ x.id) (hxA : x ∈ A) : Fine (addDev s x) := by
  unfold addDev
  dsimp only
  have S := enter_safe h.safe hx (M.real x hxA)
  have xin : x ∈ (enter s x).devs := by simp [enter]
  have sub : ∀ d ∈ s.devs, d ∈ (enter s x).devs ∧ d.id ≠ x.id := fun d hd => ⟨by simp [enter, hd], hx d hd⟩
  have F : ∀ t ∈ (enter s x).devs, t.kind = .touchpad → Fair (enter s x) (s.devs.foldl (greet x) (enter s x)) t.id :=
    fun t ht kt => greets_fair xin (uniq S ht kt) s.devs _ sub rfl
  obtain ⟨b, hb⟩ := fresh (enter s x).devs
  have G := greets_fair (x := x) (t := b) xin (fun d hd e => absurd e (hb d hd)) s.devs (enter s x) sub rfl
  have L := (greets_inv M h hx hxA).1
  revert F G L
  generalize s.devs.foldl (greet x) (enter s x) = s1
  intro F G L
  have f1 : Fine s1 := (enter_fine h.safe hf hx).fair G.devs F
  split
  · rename_i k
    refine initialState_fine M L f1 (by rw [G.devs]; exact xin) k ?_
    rw [(G.same x.id).2.1]
    simp [enter]
  · exact f1

theorem leave_fair (s : St) (x : Info) (t : Nat) : Fair s (leave s x) t := by
  unfold leave
  split
  · dsimp only
    refine Fair.trans (Fair.of_mem (s := s) (s' := s.drop x.id .tablet 0) rfl rfl) ?_
    exact Fair.trans (fold_fair (f := fun s (k : Nat × Nat) => { s.drop x.id .lidKey k.1 with heap := s.heap.filter fun n => n != k.1 })
      (fun s k => Fair.of_mem rfl rfl) _ _)
      (Fair.upd _ _ _ (fun m => { m with kbds := [] }) (fun _ => ⟨rfl, rfl, rfl, rfl⟩) (fun _ _ => ⟨rfl, rfl, rfl, rfl, rfl, rfl⟩))
  · dsimp only
    have a1 : Fair s (if (s.mem x.id).stick.isSome && x.monitor then s.unlisten x.id .stick 0 else s) t := by
      split
      · exact Fair.of_mem (unlisten_devs _ _ _ _) (unlisten_mem _ _ _ _)
      · exact Fair.refl _ _
    revert a1
    generalize (if (s.mem x.id).stick.isSome && x.monitor then s.unlisten x.id .stick 0 else s) = s1
    intro a1
    have a2 := fold_fair (t := t) (f := fun s (k : Nat × Nat) => s.unlisten x.id .typing k.1)
      (fun s k => Fair.of_mem (unlisten_devs s x.id .typing k.1) (unlisten_mem s x.id .typing k.1)) (s1.mem x.id).kbds s1
    revert a2
    generalize (s1.mem x.id).kbds.foldl (fun s (k : Nat × Nat) => s.unlisten x.id .typing k.1) s1 = s2
    intro a2
    have a3 : Fair s2 (if (s2.mem x.id).lid.isSome then s2.unlisten x.id .lid 0 else s2) t := by
      split
      · exact Fair.of_mem (unlisten_devs _ _ _ _) (unlisten_mem _ _ _ _)
      · exact Fair.refl _ _
    revert a3
    generalize (if (s2.mem x.id).lid.isSome then s2.unlisten x.id .lid 0 else s2) = s3
    intro a3
    refine a1.trans (a2.trans (a3.trans ?_))
    split
    · exact Fair.of_mem (unlisten_devs _ _ _ _) (unlisten_mem _ _ _ _)
    · exact Fair.refl _ _
  · exact Fair.refl _ _

theorem removeDev_fine {A : List Info} {s : St} {x : Info} (h : Inv A s) (hf : Fine s) : Fine (removeDev s x) := by
  intro t ht kt
  unfold removeDev at ht ⊢
  dsimp only at ht ⊢
  have a : ∀ b : Nat, (∀ d ∈ s.devs, d.id = b → d.kind = .touchpad) → Fair s ((s.others x.id).foldl (fun s d => removedReact s d x) s) b := by
    intro b hb
    exact loop_fair (D := s.devs) (fun s' d hd _ => removedReact_fair s' d x b (hb d hd)) _ _ (fun d hd => (others_mem.mp hd).1) rfl
  obtain ⟨b, hb⟩ := fresh (x :: s.devs)
  have dv := (a b (fun d hd e => absurd e (hb d (List.mem_cons_of_mem _ hd)))).devs
  revert a dv ht
  generalize (s.others x.id).foldl (fun s d => removedReact s d x) s = s1
  intro ht a dv
  have c : ∀ b : Nat, b ≠ x.id → (∀ d ∈ s.devs, d.id = b → d.kind = .touchpad) → Fair s (leave (suspendDev s1 x) x) b := by
    intro b n hb
    exact (a b hb).trans ((suspendDev_fair s1 x b n (by intro d hd; exact hb d (dv ▸ hd))).trans (leave_fair _ _ _))
  have dv2 := (c b (fun e => hb x List.mem_cons_self e.symm) (fun d hd e => absurd e (hb d (List.mem_cons_of_mem _ hd)))).devs
  have ht' := List.mem_filter.mp ht
  have ht0 : t ∈ s.devs := dv2 ▸ ht'.1
  have n : t.id ≠ x.id := by simpa using ht'.2
  obtain ⟨r1, r2, r3⟩ := hf t ht0 kt
  have g := c t.id n (uniq h.safe ht0 kt)
  exact ⟨g.good r1, g.tab _ r1 r2, g.lid _ r1 r3⟩

theorem setMode_fine {A : List Info} {s : St} {x : Info} (h : Inv A s) (hf : Fine s) (hx : x ∈ s.devs) (v : Bool) : Fine (setMode s x v) := by
  unfold setMode
  split
  · exact hf
  · dsimp only
    split
    · rename_i k
      -- the touchpad itself
      have key : ∀ s' : St, s'.devs = s.devs → (∀ y, Own (s.mem y) (s'.mem y)) → (∀ y, y ≠ x.id → ∃ u, s'.mem y = { s.mem y with touch := u }) →
          (∃ u, s'.mem x.id = { s.mem x.id with
            forMode := v, touch := u, suspended := (s.mem x.id).forLid || (s.mem x.id).forTablet || v }) →
          Fine (s'.upd x.id fun m => { m with disabled := v }) := by
        intro s' e1 e2 e3 ⟨u, e4⟩ t ht kt
        have ht0 : t ∈ s.devs := by rw [← e1]; exact ht
        obtain ⟨r1, r2, r3⟩ := hf t ht0 kt
        have own : ∀ y, ((s'.upd x.id fun m => { m with disabled := v }).mem y).on = (s.mem y).on ∧
            ((s'.upd x.id fun m => { m with disabled := v }).mem y).client = (s.mem y).client := by
          intro y
          by_cases c : y = x.id
          · rw [c, upd_self]; exact ⟨(e2 x.id).1, (e2 x.id).2.1⟩
          · rw [upd_ne _ _ c]; exact ⟨(e2 y).1, (e2 y).2.1⟩
        by_cases c : t.id = x.id
        · rw [c] at r1 r2 r3 ⊢
          unfold TabOk LidOk
          refine ⟨?_, ?_, ?_⟩
          · rw [upd_self, e4]
            exact ⟨rfl, r1.lid, r1.tab, rfl⟩
          · intro y _ hy
            rw [(own y).1]
            rw [upd_self, e4] at hy ⊢
            exact r2 y (by simp) hy
          · intro y _ hy hfl
            rw [(own y).2]
            rw [upd_self, e4] at hy hfl
            exact r3 y (by simp) hy hfl
        · obtain ⟨w, hw⟩ := e3 t.id c
          unfold TabOk LidOk
          refine ⟨?_, ?_, ?_⟩
          · rw [upd_ne _ _ c, hw]
            exact ⟨r1.sus, r1.lid, r1.tab, r1.mode⟩
          · intro y _ hy
            rw [(own y).1]
            rw [upd_ne _ _ c, hw] at hy ⊢
            exact r2 y (by simp) hy
          · intro y _ hy hfl
            rw [(own y).2]
            rw [upd_ne _ _ c, hw] at hy hfl
            exact r3 y (by simp) hy hfl
      have r := (hf x hx k).1
      split
      · rename_i hv
        obtain ⟨m1, m2, m3, _⟩ := tpSuspend_mem s x .mode
        obtain ⟨u, hu⟩ := m3 r.sus
        exact key _ m1 (tpSuspend_own s x .mode) m2 ⟨u, by rw [hu]; simp [Dyn.why, hv]⟩
      · rename_i hv
        obtain ⟨m1, m2, m3, _⟩ := tpResume_mem s x .mode
        obtain ⟨u, hu⟩ := m3 r.sus
        exact key _ m1 (tpResume_own s x .mode) m2 ⟨u, by rw [hu]; simp [Dyn.why, Dyn.any, hv]⟩
    · rename_i k
      exact hf.upd (not_tp h.safe hx (by rw [k]; simp)) (fun _ => rfl) (fun _ => rfl)
    · rename_i k1 k2
      have n := not_tp h.safe hx k1
      split
      · have f1 : Fine (suspendDev s x) := hf.fair (suspendDev_spec h.safe hx).2.1.devs
          (fun t ht kt => suspendDev_fair _ _ _ (n t ht kt) (uniq h.safe ht kt))
        refine f1.upd ?_ (fun _ => rfl) (fun _ => rfl)
        rw [(suspendDev_spec h.safe hx).2.1.devs]; exact n
      · have e := (resumeDev_spec h.safe hx h.sub h.full).2.1
        have f1 : Fine (resumeDev s x) := hf.fair e (fun t ht kt => resumeDev_fair _ _ _ (n t ht kt) (uniq h.safe ht kt))
        refine f1.upd ?_ (fun _ => rfl) (fun _ => rfl)
        rw [e]; exact n

theorem event_fine {s : St} {id : Nat} {ok : Info → Bool} {f : St → St} (h : Fine s)
    (hf : ∀ x ∈ s.devs, x.id = id → x.kind = .fallback → Fine (f s)) : Fine (event s id ok f) := by
  unfold event
  split
  · exact h
  · rename_i x e
    have := find_some e
    split
    · rename_i c
      exact hf x this.1 this.2 c.1
    · exact h

theorem step_fine {A : List Info} (M : Machine A) {s : St} {op : Op} (h : Inv A s) (hf : Fine s) (hop : ∀ x, op = .add x → x ∈ A) :
    Fine (step s op) := by
  unfold step
  rw [if_neg (by rw [h.safe.fine]; simp)]
  dsimp only
  have h0 := h.log []
  have f0 : Fine ({ s with log := [] } : St) := hf
  revert h0 f0
  generalize ({ s with log := [] } : St) = s0
  intro h0 f0
  cases op with
  | add x =>
    dsimp only
    split
    · exact f0
    · rename_i c
      refine addDev_fine M h0 f0 ?_ (hop x rfl)
      intro d hd e
      refine c (Option.isSome_iff_exists.mpr ⟨d, ?_⟩)
      rw [← e]; exact find_of h0.safe hd
  | remove i =>
    dsimp only
    split
    · exact f0
    · exact removeDev_fine h0 f0
  | mode i v =>
    dsimp only
    split
    · exact f0
    · rename_i x c
      exact setMode_fine h0 f0 (find_some c).1 v
  | lid i v =>
    exact event_fine f0 fun x hx e k => e ▸ lidEvent_fine h0 f0 hx k v
  | tablet i v =>
    exact event_fine f0 fun x hx e k => e ▸ tabletEvent_fine M h0 f0 hx k v
  | key i => exact event_fine f0 fun x hx e k => post_fine M (by simp) h0 f0
  | pointer i => exact event_fine f0 fun x hx e k => post_fine M (by simp) h0 f0

theorem run_fine {A : List Info} (M : Machine A) : ∀ (ops : List Op) (s : St), Inv A s → Fine s → (∀ x ∈ adds ops, x ∈ A) →
    Fine (run s ops) := by
  intro ops
  induction ops with
  | nil => intro s _ h _; exact h
  | cons op ops ih =>
    intro s h hf hA
    have hop : ∀ x, op = .add x → x ∈ A := fun x e => hA x (mem_adds List.mem_cons_self e)
    exact ih (step s op) (step_inv M (op := op) h hop).1 (step_fine M h hf hop) (fun x hx => hA x (by cases op <;> simp [adds, hx]))

theorem history_fine {ops : List Op} (M : Machine (adds ops)) : Fine (run {} ops) :=
  run_fine M ops {} (init_inv _) (by intro t ht; cases ht) (fun _ h => h)

end Libinput.Pairing
