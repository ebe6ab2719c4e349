import Verif.Pairing.Opens
/-!
Tablets and their touch devices: they find each other, too.
-/
namespace Libinput.Pairing
open Spec

/-- No two devices have the same address. -/
def Un (D : List Info) : Prop := ∀ a ∈ D, ∀ b ∈ D, a.id = b.id → a = b

theorem Safe.un {s : St} (h : Safe s) : Un s.devs := fun _ ha _ hb e => h.inj ha hb e

/-- Nothing happens between tablets and touch devices. -/
structure Fr (s s' : St) : Prop where
  devs : s'.devs = s.devs
  tab : ∀ d ∈ s.devs, d.kind = .tablet → (s'.mem d.id).touch = (s.mem d.id).touch ∧ (s'.mem d.id).turned = (s.mem d.id).turned
  pen : ∀ d ∈ s.devs, d.kind = .touchpad → (s'.mem d.id).pen = (s.mem d.id).pen
  susp : ∀ d ∈ s.devs, d.kind = .tablet ∨ d.kind = .totem → (s'.mem d.id).suspended = (s.mem d.id).suspended

theorem Fr.refl (s : St) : Fr s s := ⟨rfl, fun _ _ _ => ⟨rfl, rfl⟩, fun _ _ _ => rfl, fun _ _ _ => rfl⟩

theorem Fr.trans {a b c : St} (h : Fr a b) (k : Fr b c) : Fr a c :=
  ⟨k.devs.trans h.devs,
   fun d hd kd => ⟨(k.tab d (h.devs ▸ hd) kd).1.trans (h.tab d hd kd).1, (k.tab d (h.devs ▸ hd) kd).2.trans (h.tab d hd kd).2⟩,
   fun d hd kd => (k.pen d (h.devs ▸ hd) kd).trans (h.pen d hd kd),
   fun d hd kd => (k.susp d (h.devs ▸ hd) kd).trans (h.susp d hd kd)⟩

theorem Fr.of_mem {s s' : St} (e : s'.devs = s.devs) (m : s'.mem = s.mem) : Fr s s' :=
  ⟨e, fun _ _ _ => by rw [m]; exact ⟨rfl, rfl⟩, fun _ _ _ => by rw [m], fun _ _ _ => by rw [m]⟩

/-- Other fields. -/
theorem Fr.upd (s : St) (i : Nat) {f : Dyn → Dyn} (ht : ∀ m, (f m).touch = m.touch) (hr : ∀ m, (f m).turned = m.turned)
    (hp : ∀ m, (f m).pen = m.pen) (hs : ∀ m, (f m).suspended = m.suspended) : Fr s (s.upd i f) := by
  have key : ∀ j, ((s.upd i f).mem j).touch = (s.mem j).touch ∧ ((s.upd i f).mem j).turned = (s.mem j).turned ∧
      ((s.upd i f).mem j).pen = (s.mem j).pen ∧ ((s.upd i f).mem j).suspended = (s.mem j).suspended := by
    intro j
    by_cases e : j = i
    · subst e; rw [upd_self]; exact ⟨ht _, hr _, hp _, hs _⟩
    · rw [upd_ne _ _ e]; exact ⟨rfl, rfl, rfl, rfl⟩
  exact ⟨rfl, fun d _ _ => ⟨(key d.id).1, (key d.id).2.1⟩, fun d _ _ => (key d.id).2.2.1, fun d _ _ => (key d.id).2.2.2⟩

/-- What a device of another kind does with its own memory. -/
theorem Fr.own {s : St} (hu : Un s.devs) {d : Info} (hd : d ∈ s.devs) {f : Dyn → Dyn} (k : d.kind ≠ .tablet)
    (hp : ∀ m, (f m).pen = m.pen) (hs : d.kind = .totem → ∀ m, (f m).suspended = m.suspended) : Fr s (s.upd d.id f) := by
  refine ⟨rfl, ?_, ?_, ?_⟩
  · intro y hy ky
    have n : y.id ≠ d.id := fun e => k (hu y hy d hd e ▸ ky)
    rw [upd_ne _ _ n]; exact ⟨rfl, rfl⟩
  · intro y hy ky
    by_cases e : y.id = d.id
    · rw [e, upd_self, hp]
    · rw [upd_ne _ _ e]
  · intro y hy ky
    by_cases e : y.id = d.id
    · have := hu y hy d hd e
      subst this
      rw [upd_self]
      rcases ky with c | c
      · exact absurd c k
      · exact hs c _
    · rw [upd_ne _ _ e]

theorem fold_fr {α : Type} {f : St → α → St} {D : List Info} : ∀ (ds : List α) (s : St), s.devs = D →
    (∀ s d, d ∈ ds → s.devs = D → Fr s (f s d)) → Fr s (ds.foldl f s) := by
  intro ds
  induction ds with
  | nil => intro s _ _; exact Fr.refl _
  | cons d ds ih =>
    intro s e h
    have a := h s d List.mem_cons_self e
    exact a.trans (ih _ (a.devs.trans e) (fun s d hd => h s d (List.mem_cons_of_mem _ hd)))

theorem totemRemoved_fr {s : St} (hu : Un s.devs) {d : Info} (hd : d ∈ s.devs) (k : d.kind = .totem) (x : Info) :
    Fr s (totemRemoved s d x) := by
  unfold totemRemoved
  split
  · exact Fr.own hu hd (f := fun m => { m with touch := none }) (by rw [k]; simp) (fun _ => rfl) (fun _ _ => rfl)
  · exact Fr.refl _

theorem totemAdded_fr {s : St} (hu : Un s.devs) {d : Info} (hd : d ∈ s.devs) (k : d.kind = .totem) (x : Info) :
    Fr s (totemAdded s d x) := by
  unfold totemAdded
  (repeat' (split; exact Fr.refl _))
  exact Fr.own hu hd (f := fun m => { m with touch := some x.id }) (by rw [k]; simp) (fun _ => rfl) (fun _ _ => rfl)

theorem flag_fr {s : St} (hu : Un s.devs) {t : Info} (ht : t ∈ s.devs) (k : t.kind ≠ .tablet ∧ t.kind ≠ .totem) (b : Bool) :
    Fr s (s.upd t.id fun m => { m with suspended := b }) :=
  Fr.own hu ht (f := fun m => { m with suspended := b }) k.1 (fun _ => rfl) (fun c => absurd c k.2)

theorem tpOff_fr {s : St} (hu : Un s.devs) {t : Info} (ht : t ∈ s.devs) (k : t.kind = .touchpad) : Fr s (tpOff s t) := by
  unfold tpOff
  split
  · exact Fr.refl _
  · have a := fold_fr (f := fun s d => if d.kind = .totem then totemRemoved s d t else s) (D := s.devs) (s.others t.id) s rfl
      (by
        intro s' d hd e
        split
        · rename_i kd
          exact totemRemoved_fr (by rw [e]; exact hu) (by rw [e]; exact (others_mem.mp hd).1) kd t
        · exact Fr.refl _)
    exact a.trans (flag_fr (by rw [a.devs]; exact hu) (by rw [a.devs]; exact ht) (by rw [k]; simp) true)

theorem tpOn_fr {s : St} (hu : Un s.devs) {t : Info} (ht : t ∈ s.devs) (k : t.kind = .touchpad) : Fr s (tpOn s t) := by
  unfold tpOn
  split
  · have a := fold_fr (f := fun s d => if d.kind = .totem then totemAdded s d t else s) (D := s.devs) (s.others t.id) s rfl
      (by
        intro s' d hd e
        split
        · rename_i kd
          exact totemAdded_fr (by rw [e]; exact hu) (by rw [e]; exact (others_mem.mp hd).1) kd t
        · exact Fr.refl _)
    exact a.trans (flag_fr (by rw [a.devs]; exact hu) (by rw [a.devs]; exact ht) (by rw [k]; simp) false)
  · exact Fr.refl _

theorem why_fr (s : St) (t : Nat) (b : Bool) (w : Why) : Fr s (s.upd t fun m => m.why b w) :=
  Fr.upd s t (f := fun m => m.why b w) (fun m => by cases w <;> rfl) (fun m => by cases w <;> rfl) (fun m => by cases w <;> rfl)
    (fun m => by cases w <;> rfl)

theorem tpSuspend_fr {s : St} (hu : Un s.devs) {t : Info} (ht : t ∈ s.devs) (k : t.kind = .touchpad) (w : Why) : Fr s (tpSuspend s t w) := by
  unfold tpSuspend; (repeat' split)
  · exact Fr.refl _
  · exact why_fr _ _ _ _
  · exact (tpOff_fr hu ht k).trans (why_fr _ _ _ _)

theorem tpResume_fr {s : St} (hu : Un s.devs) {t : Info} (ht : t ∈ s.devs) (k : t.kind = .touchpad) (w : Why) : Fr s (tpResume s t w) := by
  unfold tpResume; dsimp only; split
  · exact why_fr _ _ _ _
  · exact (why_fr s t.id false w).trans (tpOn_fr (s := s.upd t.id fun m => m.why false w) hu ht k)

theorem listen_fr (s : St) (l : Listener) : Fr s (s.listen l) := Fr.of_mem (listen_devs _ _) (listen_mem _ _)
theorem unlisten_fr (s : St) (o : Nat) (r : Role) (n : Nat) : Fr s (s.unlisten o r n) := Fr.of_mem (unlisten_devs _ _ _ _) (unlisten_mem _ _ _ _)
theorem drop_fr (s : St) (o : Nat) (r : Role) (n : Nat) : Fr s (s.drop o r n) := Fr.of_mem rfl rfl

theorem pairStick_fr (s : St) (t x : Info) : Fr s (pairStick s t x) := by
  unfold pairStick
  split
  · exact Fr.refl _
  · split
    · have a := Fr.upd s t.id (f := fun m => { m with stick := some x.id }) (fun _ => rfl) (fun _ => rfl) (fun _ => rfl) (fun _ => rfl)
      dsimp only
      split
      · exact a.trans (listen_fr _ _)
      · exact a
    · exact Fr.refl _

theorem pairTyping_fr (s : St) (t x : Info) : Fr s (pairTyping s t x) := by
  unfold pairTyping
  split
  · exact Fr.refl _
  · split
    · exact Fr.refl _
    · dsimp only
      refine Fr.trans ?_ (Fr.upd _ t.id (f := fun m => { m with kbds := (s.ser, x.id) :: m.kbds }) (fun _ => rfl) (fun _ => rfl) (fun _ => rfl)
        (fun _ => rfl))
      exact Fr.trans (Fr.of_mem (s := s) (s' := { s with ser := s.ser + 1, heap := s.ser :: s.heap }) rfl rfl) (listen_fr _ _)

theorem pairLid_fr (s : St) (t x : Info) : Fr s (pairLid s t x) := by
  unfold pairLid
  split
  · exact Fr.refl _
  · split
    · exact Fr.refl _
    · split
      · exact (listen_fr _ _).trans (Fr.upd _ t.id (f := fun m => { m with lid := some x.id }) (fun _ => rfl) (fun _ => rfl) (fun _ => rfl)
          (fun _ => rfl))
      · exact Fr.refl _

theorem pairTablet_fr {s : St} (hu : Un s.devs) {t : Info} (ht : t ∈ s.devs) (k : t.kind = .touchpad) (x : Info) : Fr s (pairTablet s t x) := by
  unfold pairTablet
  (repeat' (split; exact Fr.refl _))
  have a := (listen_fr s { src := x.id, owner := t.id, role := .tablet }).trans (Fr.upd _ t.id (f := fun m => { m with tablet := some x.id })
    (fun _ => rfl) (fun _ => rfl) (fun _ => rfl) (fun _ => rfl))
  revert a
  generalize ((s.listen { src := x.id, owner := t.id, role := .tablet }).upd t.id fun m => { m with tablet := some x.id }) = s1
  intro a
  dsimp only
  split
  · exact a.trans (tpSuspend_fr (by rw [a.devs]; exact hu) (by rw [a.devs]; exact ht) k _)
  · exact a

/-- All of it but the tablet. -/
theorem tpFound_fr {s : St} (hu : Un s.devs) {t : Info} (ht : t ∈ s.devs) (k : t.kind = .touchpad) (x : Info) :
    Fr s (pairTablet (pairLid (pairTyping (pairStick s t x) t x) t x) t x) := by
  have a := ((pairStick_fr s t x).trans (pairTyping_fr _ t x)).trans (pairLid_fr _ t x)
  exact a.trans (pairTablet_fr (by rw [a.devs]; exact hu) (by rw [a.devs]; exact ht) k x)

theorem tpNoStick_fr (s : St) (t x : Info) : Fr s (tpNoStick s t x) := by
  unfold tpNoStick
  split
  · refine Fr.trans ?_ (Fr.upd _ t.id (f := fun m => { m with stick := none }) (fun _ => rfl) (fun _ => rfl) (fun _ => rfl) (fun _ => rfl))
    split
    · exact unlisten_fr _ _ _ _
    · exact Fr.refl _
  · exact Fr.refl _

theorem tpNoTyping_fr (s : St) (t x : Info) : Fr s (tpNoTyping s t x) := by
  unfold tpNoTyping
  dsimp only
  refine Fr.trans ?_ (Fr.upd _ t.id (f := fun m => { m with kbds := m.kbds.filter fun k => k.2 != x.id }) (fun _ => rfl) (fun _ => rfl)
    (fun _ => rfl) (fun _ => rfl))
  exact fold_fr (D := s.devs) _ s rfl (fun s' k _ _ =>
    (unlisten_fr s' t.id .typing k.1).trans (Fr.of_mem rfl rfl))

theorem tpNoLid_fr {s : St} (hu : Un s.devs) {t : Info} (ht : t ∈ s.devs) (k : t.kind = .touchpad) (x : Info) : Fr s (tpNoLid s t x) := by
  unfold tpNoLid
  split
  · have a := (unlisten_fr s t.id .lid 0).trans (Fr.upd _ t.id (f := fun m => { m with lid := none }) (fun _ => rfl) (fun _ => rfl)
      (fun _ => rfl) (fun _ => rfl))
    exact a.trans (tpResume_fr (by rw [a.devs]; exact hu) (by rw [a.devs]; exact ht) k _)
  · exact Fr.refl _

theorem tpNoTablet_fr {s : St} (hu : Un s.devs) {t : Info} (ht : t ∈ s.devs) (k : t.kind = .touchpad) (x : Info) : Fr s (tpNoTablet s t x) := by
  unfold tpNoTablet
  split
  · have a := (unlisten_fr s t.id .tablet 0).trans (Fr.upd _ t.id (f := fun m => { m with tablet := none }) (fun _ => rfl) (fun _ => rfl)
      (fun _ => rfl) (fun _ => rfl))
    exact a.trans (tpResume_fr (by rw [a.devs]; exact hu) (by rw [a.devs]; exact ht) k _)
  · exact Fr.refl _

theorem tpLost_fr {s : St} (hu : Un s.devs) {t : Info} (ht : t ∈ s.devs) (k : t.kind = .touchpad) (x : Info) :
    Fr s (tpNoTablet (tpNoLid (tpNoTyping (tpNoStick s t x) t x) t x) t x) := by
  have a := (tpNoStick_fr s t x).trans (tpNoTyping_fr _ t x)
  have b := a.trans (tpNoLid_fr (by rw [a.devs]; exact hu) (by rw [a.devs]; exact ht) k x)
  exact b.trans (tpNoTablet_fr (by rw [b.devs]; exact hu) (by rw [b.devs]; exact ht) k x)

theorem fbRemoved_fr (s : St) (d x : Info) : Fr s (fbRemoved s d x) := by
  unfold fbRemoved
  have a : Fr s (fbNoKey s d x) := by
    unfold fbNoKey
    dsimp only
    refine Fr.trans ?_ (Fr.upd _ d.id (f := fun m => { m with kbds := m.kbds.filter fun k => k.2 != x.id }) (fun _ => rfl) (fun _ => rfl)
      (fun _ => rfl) (fun _ => rfl))
    exact fold_fr (D := s.devs) _ s rfl (fun s' k _ _ => Fr.of_mem rfl rfl)
  refine a.trans ?_
  unfold fbNoTablet
  split
  · exact (drop_fr _ _ _ _).trans (Fr.upd _ d.id (f := fun m => { m with tablet := none }) (fun _ => rfl) (fun _ => rfl)
      (fun _ => rfl) (fun _ => rfl))
  · exact Fr.refl _

/-- The touchpad loses its tablet if that is what goes. -/
structure Lost (s s' : St) (x : Nat) : Prop where
  devs : s'.devs = s.devs
  tab : ∀ d ∈ s.devs, d.kind = .tablet → (s'.mem d.id).touch = (s.mem d.id).touch ∧ (s'.mem d.id).turned = (s.mem d.id).turned
  pen : ∀ d ∈ s.devs, d.kind = .touchpad → (s.mem d.id).pen ≠ some x → (s'.mem d.id).pen = (s.mem d.id).pen
  susp : ∀ d ∈ s.devs, d.kind = .tablet ∨ d.kind = .totem → (s'.mem d.id).suspended = (s.mem d.id).suspended

theorem Fr.lost {s s' : St} (h : Fr s s') (x : Nat) : Lost s s' x := ⟨h.devs, h.tab, fun d hd k _ => h.pen d hd k, h.susp⟩

theorem Lost.trans {a b c : St} {x : Nat} (h : Lost a b x) (k : Lost b c x) : Lost a c x :=
  ⟨k.devs.trans h.devs,
   fun d hd kd => ⟨(k.tab d (h.devs ▸ hd) kd).1.trans (h.tab d hd kd).1, (k.tab d (h.devs ▸ hd) kd).2.trans (h.tab d hd kd).2⟩,
   fun d hd kd n => (k.pen d (h.devs ▸ hd) kd (by rw [h.pen d hd kd n]; exact n)).trans (h.pen d hd kd n),
   fun d hd kd => (k.susp d (h.devs ▸ hd) kd).trans (h.susp d hd kd)⟩

theorem fold_lost {f : St → Info → St} {D : List Info} {x : Nat} : ∀ (ds : List Info) (s : St), s.devs = D →
    (∀ s d, d ∈ ds → s.devs = D → Lost s (f s d) x) → Lost s (ds.foldl f s) x := by
  intro ds
  induction ds with
  | nil => intro s _ _; exact (Fr.refl _).lost _
  | cons d ds ih =>
    intro s e h
    have a := h s d List.mem_cons_self e
    exact a.trans (ih _ (a.devs.trans e) (fun s d hd => h s d (List.mem_cons_of_mem _ hd)))

theorem tpRemoved_lost {s : St} (hu : Un s.devs) {t : Info} (ht : t ∈ s.devs) (k : t.kind = .touchpad) (x : Info) :
    Lost s (tpRemoved s t x) x.id := by
  unfold tpRemoved
  have a := tpLost_fr hu ht k x
  revert a
  generalize tpNoTablet (tpNoLid (tpNoTyping (tpNoStick s t x) t x) t x) t x = s1
  intro a
  refine (a.lost _).trans ?_
  unfold tpNoPen
  split
  · rename_i c
    refine ⟨rfl, ?_, ?_, ?_⟩
    · intro d hd kd
      have n : d.id ≠ t.id := fun e => by
        rw [hu d (a.devs ▸ hd) t ht e, k] at kd; cases kd
      rw [upd_ne _ _ n]; exact ⟨rfl, rfl⟩
    · intro d hd kd n
      by_cases e : d.id = t.id
      · rw [e] at n; exact absurd c n
      · rw [upd_ne _ _ e]
    · intro d hd kd
      by_cases e : d.id = t.id
      · rw [e, upd_self]
      · rw [upd_ne _ _ e]
  · exact (Fr.refl _).lost _

theorem suspendedReact_lost {s : St} (hu : Un s.devs) {d : Info} (hd : d ∈ s.devs) (x : Info) :
    Lost s (suspendedReact s d x) x.id := by
  unfold suspendedReact
  split
  · exact (fbRemoved_fr s d x).lost _
  · rename_i k; exact tpRemoved_lost hu hd k x
  · rename_i k; exact (totemRemoved_fr hu hd k x).lost _
  · exact (Fr.refl _).lost _
  · exact (Fr.refl _).lost _

/-- The same for the flag of the device itself. -/
theorem suspendDev_lost {s : St} (hu : Un s.devs) {f : Info} (hf : f ∈ s.devs) :
    (suspendDev s f).devs = s.devs ∧
    (∀ d ∈ s.devs, d.kind = .tablet → ((suspendDev s f).mem d.id).touch = (s.mem d.id).touch ∧
      ((suspendDev s f).mem d.id).turned = (s.mem d.id).turned) ∧
    (∀ d ∈ s.devs, d.kind = .touchpad → (s.mem d.id).pen ≠ some f.id → ((suspendDev s f).mem d.id).pen = (s.mem d.id).pen) ∧
    (∀ d ∈ s.devs, d.kind = .tablet ∨ d.kind = .totem → d.id ≠ f.id → ((suspendDev s f).mem d.id).suspended = (s.mem d.id).suspended) := by
  unfold suspendDev
  split
  · exact ⟨rfl, fun _ _ _ => ⟨rfl, rfl⟩, fun _ _ _ _ => rfl, fun _ _ _ _ => rfl⟩
  · have a := fold_lost (f := fun s d => suspendedReact s d f) (D := s.devs) (x := f.id) (s.others f.id) s rfl
      (fun s' d hd e => suspendedReact_lost (by rw [e]; exact hu) (by rw [e]; exact (others_mem.mp hd).1) f)
    revert a
    generalize (s.others f.id).foldl (fun s d => suspendedReact s d f) s = s1
    intro a
    refine ⟨a.devs, fun d hd kd => ?_, fun d hd kd n => ?_, fun d hd kd n => ?_⟩
    · by_cases e : d.id = f.id
      · rw [e, upd_self, ← e]; exact a.tab d hd kd
      · rw [upd_ne _ _ e]; exact a.tab d hd kd
    · by_cases e : d.id = f.id
      · rw [e, upd_self, ← e]; exact a.pen d hd kd n
      · rw [upd_ne _ _ e]; exact a.pen d hd kd n
    · rw [upd_ne _ _ n]; exact a.susp d hd kd

/-- A device that is no tablet is nobody's tablet. -/
theorem Safe.no_pen {s : St} (h : Safe s) {f : Info} (hf : f ∈ s.devs) (kf : f.kind ≠ .tablet ∧ f.kind ≠ .totem) {d : Info}
    (hd : d ∈ s.devs) (kd : d.kind = .touchpad) : (s.mem d.id).pen ≠ some f.id := by
  intro c
  obtain ⟨X, hX, eX, _, bX⟩ := (h.at_ d hd).bel .pen f.id ⟨kd, c⟩
  have := h.inj hX hf eX
  subst this
  rcases bX.2.2.1 with c | c
  · exact kf.1 c
  · exact kf.2 c

theorem suspendDev_fr {s : St} (h : Safe s) {f : Info} (hf : f ∈ s.devs) (kf : f.kind ≠ .tablet ∧ f.kind ≠ .totem) :
    Fr s (suspendDev s f) := by
  obtain ⟨a, b, c, d⟩ := suspendDev_lost h.un hf
  refine ⟨a, b, fun y hy ky => c y hy ky (h.no_pen hf kf hy ky), fun y hy ky => d y hy ky ?_⟩
  intro e
  rw [h.inj hy hf e] at ky
  rcases ky with c | c
  · exact kf.1 c
  · exact kf.2 c

theorem fbAdded_fr {s : St} (h : Safe s) {d x : Info} (hd : d ∈ s.devs) (hx : x ∈ s.devs) (n : x.id ≠ d.id) (k : d.kind = .fallback) :
    Fr s (fbAdded s d x) := by
  unfold fbAdded
  have m1 := lidPair_spec h hd hx n k
  have a : Fr s (lidPair s d x) := by
    unfold lidPair
    split
    · exact Fr.refl _
    · split
      · exact Fr.refl _
      · dsimp only
        have a := Fr.trans (Fr.of_mem (s := s) (s' := { s with ser := s.ser + 1, heap := s.ser :: s.heap }) rfl rfl)
          (Fr.upd _ d.id (f := fun m => { m with kbds := (s.ser, x.id) :: m.kbds }) (fun _ => rfl) (fun _ => rfl) (fun _ => rfl)
          (fun _ => rfl))
        split
        · exact a.trans (listen_fr _ _)
        · exact a
  revert a m1
  generalize lidPair s d x = s1
  intro m1 a
  refine a.trans ?_
  have hd1 : d ∈ s1.devs := by rw [a.devs]; exact hd
  have hx1 : x ∈ s1.devs := by rw [a.devs]; exact hx
  by_cases c : Bel .tablet d x ∧ (s1.mem d.id).tablet = none
  · rw [(fbPairTablet_eq k).1 c]
    have L := linkTablet m1.1 hd1 hx1 n c.1 c.2
    have b := (listen_fr s1 { src := x.id, owner := d.id, role := .tablet }).trans (Fr.upd _ d.id (f := fun m => { m with tablet := some x.id })
      (fun _ => rfl) (fun _ => rfl) (fun _ => rfl) (fun _ => rfl))
    revert L b
    generalize ((s1.listen { src := x.id, owner := d.id, role := .tablet }).upd d.id fun m => { m with tablet := some x.id }) = s2
    intro L b
    dsimp only
    split
    · exact b.trans (suspendDev_fr L.1 (by rw [b.devs]; exact hd1) (by rw [k]; simp))
    · exact b
  · rw [(fbPairTablet_eq k).2 c]; exact Fr.refl _

/-- A touchpad that finds something. -/
theorem tpAdded_found {s : St} (hu : Un s.devs) {t : Info} (ht : t ∈ s.devs) (k : t.kind = .touchpad) (x : Info) :
    (tpAdded s t x).devs = s.devs ∧
    (∀ d ∈ s.devs, d.kind = .tablet → ((tpAdded s t x).mem d.id).touch = (s.mem d.id).touch ∧
      ((tpAdded s t x).mem d.id).turned = (s.mem d.id).turned) ∧
    (∀ d ∈ s.devs, d.kind = .touchpad → d.id ≠ t.id → ((tpAdded s t x).mem d.id).pen = (s.mem d.id).pen) ∧
    (Bel .pen t x → ((tpAdded s t x).mem t.id).pen = some x.id) ∧
    (¬Bel .pen t x → ((tpAdded s t x).mem t.id).pen = (s.mem t.id).pen) ∧
    (∀ d ∈ s.devs, d.kind = .tablet ∨ d.kind = .totem → ((tpAdded s t x).mem d.id).suspended = (s.mem d.id).suspended) := by
  unfold tpAdded
  have a := tpFound_fr hu ht k x
  revert a
  generalize pairTablet (pairLid (pairTyping (pairStick s t x) t x) t x) t x = s1
  intro a
  by_cases c : Bel .pen t x
  · have e : pairPen s1 t x = s1.upd t.id fun m => { m with pen := some x.id } := by
      obtain ⟨_, c1, c2, c3⟩ := c
      unfold pairPen
      rw [if_neg (by rw [c1]; simp), if_neg (by rintro ⟨a, b⟩; exact c2.elim a b), if_neg (by simp [c3])]
    rw [e]
    refine ⟨a.devs, ?_, ?_, fun _ => by rw [upd_self], fun n => absurd c n, ?_⟩
    · intro d hd kd
      have n : d.id ≠ t.id := fun e => by
        rw [hu d hd t ht e, k] at kd; cases kd
      rw [upd_ne _ _ n]; exact a.tab d hd kd
    · intro d hd kd n
      rw [upd_ne _ _ n]; exact a.pen d hd kd
    · intro d hd kd
      have n : d.id ≠ t.id := fun e => by
        rw [hu d hd t ht e, k] at kd; rcases kd with c | c <;> cases c
      rw [upd_ne _ _ n]; exact a.susp d hd kd
  · have e : pairPen s1 t x = s1 := by
      unfold pairPen
      split
      · rfl
      · rename_i c1
        split
        · rfl
        · rename_i c2
          split
          · rfl
          · rename_i c3
            refine absurd ⟨k, by simpa using c1, ?_, by simpa using c3⟩ c
            by_cases q : x.kind = .tablet
            · exact Or.inl q
            · refine Or.inr (Classical.byContradiction fun q' => c2 ⟨q, q'⟩)
    rw [e]
    exact ⟨a.devs, a.tab, fun d hd kd _ => a.pen d hd kd, fun n => absurd n c, fun _ => a.pen t ht k, a.susp⟩

/-- What `d` does when `x` is there (again), as far as tablets are concerned. -/
structure Found (s s' : St) (t x : Info) : Prop where
  devs : s'.devs = s.devs
  tab : ∀ d ∈ s.devs, d.kind = .tablet → (s'.mem d.id).touch = (s.mem d.id).touch ∧ (s'.mem d.id).turned = (s.mem d.id).turned
  pen : ∀ d ∈ s.devs, d.kind = .touchpad → d.id ≠ t.id ∨ ¬Bel .pen t x → (s'.mem d.id).pen = (s.mem d.id).pen
  own : Bel .pen t x → (s'.mem t.id).pen = some x.id
  susp : ∀ d ∈ s.devs, d.kind = .tablet ∨ d.kind = .totem → (s'.mem d.id).suspended = (s.mem d.id).suspended

theorem Fr.found {s s' : St} (h : Fr s s') {t x : Info} (k : t.kind ≠ .touchpad) : Found s s' t x :=
  ⟨h.devs, h.tab, fun d hd kd _ => h.pen d hd kd, fun b => absurd b.1 k, h.susp⟩

theorem resumedReact_found {s : St} (h : Safe s) {d x : Info} (hd : d ∈ s.devs) (hx : x ∈ s.devs) (n : x.id ≠ d.id) :
    Found s (resumedReact s d x) d x := by
  unfold resumedReact
  split
  · rename_i k; exact (fbAdded_fr h hd hx n k).found (by rw [k]; simp)
  · rename_i k
    obtain ⟨a1, a2, a3, a4, a5, a6⟩ := tpAdded_found h.un hd k x
    refine ⟨a1, a2, ?_, a4, a6⟩
    intro y hy ky c
    by_cases e : y.id = d.id
    · rcases c with c | c
      · exact absurd e c
      · rw [e]; exact a5 c
    · exact a3 y hy ky e
  · rename_i k; exact (totemAdded_fr h.un hd k x).found (by rw [k]; simp)
  · rename_i k; exact (Fr.refl _).found (by rw [k]; simp)
  · rename_i k; exact (Fr.refl _).found (by rw [k]; simp)

/-! ## The invariant -/

/-- For all pairs in `P`, other than those with `e`: the tablet has found its touch devices, and the touchpad its tablet. -/
def G (A : List Info) (e : Option Nat) (P : Info → Info → Prop) (s : St) : Prop :=
  ∀ o ∈ s.devs, ∀ x ∈ s.devs, x.id ≠ o.id → P o x → e ≠ some x.id →
    (Bel .touch o x → Alone A .touch o → (s.mem o.id).touch = some x.id) ∧
    (Bel .turned o x → Alone A .turned o → (s.mem o.id).turned = some x.id) ∧
    (Bel .pen o x → Alone A .pen o → (s.mem x.id).suspended = false → (s.mem o.id).pen = some x.id)

theorem G.fr {A : List Info} {e : Option Nat} {P : Info → Info → Prop} {s s' : St} (g : G A e P s) (h : Fr s s') : G A e P s' := by
  intro o ho x hx n p he
  rw [h.devs] at ho hx
  obtain ⟨g1, g2, g3⟩ := g o ho x hx n p he
  refine ⟨fun b a => ?_, fun b a => ?_, fun b a c => ?_⟩
  · rw [(h.tab o ho b.1).1]; exact g1 b a
  · rw [(h.tab o ho b.1).2]; exact g2 b a
  · rw [h.pen o ho b.1]
    rw [h.susp x hx b.2.2.1] at c
    exact g3 b a c

theorem G.lost {A : List Info} {e : Option Nat} {P : Info → Info → Prop} {s s' : St} {y : Nat} (g : G A e P s) (h : Lost s s' y)
    (hy : e = some y ∨ (s.mem y).suspended = true) : G A e P s' := by
  intro o ho x hx n p he
  rw [h.devs] at ho hx
  obtain ⟨g1, g2, g3⟩ := g o ho x hx n p he
  refine ⟨fun b a => ?_, fun b a => ?_, fun b a c => ?_⟩
  · rw [(h.tab o ho b.1).1]; exact g1 b a
  · rw [(h.tab o ho b.1).2]; exact g2 b a
  · rw [h.susp x hx b.2.2.1] at c
    have q := g3 b a c
    rw [h.pen o ho b.1 ?_]
    · exact q
    · rw [q]
      intro c'
      have c' : x.id = y := by simpa using c'
      subst c'
      rcases hy with q | q
      · exact he q
      · rw [c] at q; cases q

theorem G.found {A : List Info} {e : Option Nat} {P : Info → Info → Prop} {s s' : St} {d f : Info} (g : G A e P s) (h : Found s s' d f)
    (hs : ∀ d ∈ s.devs, d ∈ A) (hd : d ∈ s.devs) (hf : f ∈ s.devs) (hu : Un s.devs) : G A e P s' := by
  intro o ho x hx n p he
  rw [h.devs] at ho hx
  obtain ⟨g1, g2, g3⟩ := g o ho x hx n p he
  refine ⟨fun b a => ?_, fun b a => ?_, fun b a c => ?_⟩
  · rw [(h.tab o ho b.1).1]; exact g1 b a
  · rw [(h.tab o ho b.1).2]; exact g2 b a
  · rw [h.susp x hx b.2.2.1] at c
    by_cases q : o.id = d.id
    · have q' := hu o ho d hd q
      subst q'
      by_cases w : Bel .pen o f
      · rw [h.own w, a f (hs f hf) x (hs x hx) w b]
      · rw [h.pen o ho b.1 (Or.inr w)]; exact g3 b a c
    · rw [h.pen o ho b.1 (Or.inl q)]; exact g3 b a c

theorem tabletAdded_g {A : List Info} {e : Option Nat} {P : Info → Info → Prop} {s : St} {d f : Info} (g : G A e P s)
    (hs : ∀ d ∈ s.devs, d ∈ A) (hd : d ∈ s.devs) (hf : f ∈ s.devs) (hu : Un s.devs) (k : d.kind = .tablet) :
    G A e (fun o x => P o x ∨ o = d ∧ x = f) (tabletAdded s d f) := by
  have t : (tabletAdded s d f).devs = s.devs ∧ (∀ y, y ≠ d.id → (tabletAdded s d f).mem y = s.mem y) ∧
      ((tabletAdded s d f).mem d.id).suspended = (s.mem d.id).suspended ∧
      (Bel .touch d f → ((tabletAdded s d f).mem d.id).touch = some f.id) ∧
      (¬Bel .touch d f → ((tabletAdded s d f).mem d.id).touch = (s.mem d.id).touch) ∧
      (Bel .turned d f → ((tabletAdded s d f).mem d.id).turned = some f.id) ∧
      (¬Bel .turned d f → ((tabletAdded s d f).mem d.id).turned = (s.mem d.id).turned) := by
    unfold tabletAdded
    by_cases c : d.group = f.group
    · rw [if_neg (by simp [c])]
      dsimp only
      cases h1 : f.touchCap <;> cases h2 : f.pointerCap <;> cases h3 : f.extTouchpad <;>
        simp [Bel, k, c, h1, h2, h3, upd_self, St.upd] <;> (intro y hy; simp [hy])
    · rw [if_pos c]
      refine ⟨rfl, fun _ _ => rfl, rfl, fun b => absurd b.2.1 c, fun _ => rfl, fun b => absurd b.2.1 c, fun _ => rfl⟩
  obtain ⟨t1, t2, t3, t4, t5, t6, t7⟩ := t
  have sus : ∀ y, ((tabletAdded s d f).mem y).suspended = (s.mem y).suspended := by
    intro y
    by_cases q : y = d.id
    · rw [q, t3]
    · rw [t2 y q]
  intro o ho x hx n p he
  rw [t1] at ho hx
  have old : P o x → _ := fun p => g o ho x hx n p he
  by_cases q : o.id = d.id
  · have q' := hu o ho d hd q
    subst q'
    refine ⟨fun b a => ?_, fun b a => ?_, fun b => ?_⟩
    · by_cases w : Bel .touch o f
      · rw [t4 w, a f (hs f hf) x (hs x hx) w b]
      · rw [t5 w]
        rcases p with p | p
        · exact (old p).1 b a
        · rw [p.2] at b; exact absurd b w
    · by_cases w : Bel .turned o f
      · rw [t6 w, a f (hs f hf) x (hs x hx) w b]
      · rw [t7 w]
        rcases p with p | p
        · exact (old p).2.1 b a
        · rw [p.2] at b; exact absurd b w
    · exact absurd b.1 (by rw [k]; simp)
  · rcases p with p | p
    · rw [t2 _ q, sus]; exact old p
    · exact absurd (by rw [p.1]) q

theorem addedReact_g {A : List Info} {e : Option Nat} {P : Info → Info → Prop} {s : St} {d f : Info} (h : Safe s) (g : G A e P s)
    (hs : ∀ d ∈ s.devs, d ∈ A) (hd : d ∈ s.devs) (hf : f ∈ s.devs) (n : f.id ≠ d.id) :
    G A e (fun o x => P o x ∨ o = d ∧ x = f) (addedReact s d f) := by
  unfold addedReact
  split
  · rename_i k
    exact tabletAdded_g g hs hd hf h.un k
  · rename_i k
    have w := resumedReact_found h hd hf n
    have g' := g.found w hs hd hf h.un
    intro o ho x hx m p he
    rcases p with p | ⟨rfl, rfl⟩
    · exact g' o ho x hx m p he
    · refine ⟨fun b => absurd b.1 k, fun b => absurd b.1 k, fun b _ _ => w.own b⟩

theorem greets_g {A : List Info} {x : Info} {D : List Info} (hx : x ∈ D) (hD : ∀ d ∈ D, d ∈ A) :
    ∀ (ds : List Info) (s : St) (P : Info → Info → Prop), (∀ d ∈ ds, d ∈ D ∧ x.id ≠ d.id) → Safe s → s.devs = D → G A none P s →
      G A none (fun o y => P o y ∨ (∃ d ∈ ds, o = d ∧ y = x ∨ o = x ∧ y = d)) (ds.foldl (greet x) s) := by
  intro ds
  induction ds with
  | nil => intro s P _ _ _ g; intro o ho y hy n p; exact g o ho y hy n (by simpa using p)
  | cons d ds ih =>
    intro s P hds h e g
    obtain ⟨hd, n⟩ := hds d List.mem_cons_self
    have r1 := addedReact_spec (x := x) h (e ▸ hd) (e ▸ hx) n
    have e1 := r1.mv.devs.trans e
    have r2 := addedReact_spec (d := x) (x := d) r1.safe (e1 ▸ hx) (e1 ▸ hd) (fun c => n c.symm)
    have e2 := r2.mv.devs.trans e1
    have g1 := addedReact_g (f := x) h g (e ▸ hD) (e ▸ hd) (e ▸ hx) n
    have g2 := addedReact_g (d := x) (f := d) r1.safe g1 (e1 ▸ hD) (e1 ▸ hx) (e1 ▸ hd) (fun c => n c.symm)
    have fin : Safe (greet x s d) ∧ (greet x s d).devs = D ∧ G A none (fun o y => (P o y ∨ o = d ∧ y = x) ∨ o = x ∧ y = d) (greet x s d) := by
      unfold greet
      dsimp only
      split
      · rename_i c
        have r := suspendedReact_spec (d := x) (x := d) r2.safe (e2 ▸ hx)
        exact ⟨r.1, r.2.devs.trans e2, g2.lost (suspendedReact_lost r2.safe.un (e2 ▸ hx) d) (Or.inr c)⟩
      · exact ⟨r2.safe, e2, g2⟩
    have := ih _ _ (fun d' h' => hds d' (List.mem_cons_of_mem _ h')) fin.1 fin.2.1 fin.2.2
    intro o ho y hy m p he
    refine this o ho y hy m ?_ he
    rcases p with p | ⟨d', hd', p⟩
    · exact Or.inl (Or.inl (Or.inl p))
    · rcases List.mem_cons.mp hd' with rfl | hd'
      · rcases p with p | p
        · exact Or.inl (Or.inl (Or.inr p))
        · exact Or.inl (Or.inr p)
      · exact Or.inr ⟨d', hd', p⟩

/-- All pairs. -/
abbrev AllP : Info → Info → Prop := fun _ _ => True

theorem suspendDev_g {A : List Info} {e : Option Nat} {s : St} {f : Info} (h : Safe s) (hf : f ∈ s.devs)
    (g : G A e AllP s) : G A e AllP (suspendDev s f) := by
  obtain ⟨a1, a2, a3, a4⟩ := suspendDev_lost h.un hf
  have b := (suspendDev_spec h hf).2.2
  intro o ho x hx n p he
  rw [a1] at ho hx
  obtain ⟨g1, g2, g3⟩ := g o ho x hx n p he
  refine ⟨fun b a => ?_, fun b a => ?_, fun b' a c => ?_⟩
  · rw [(a2 o ho b.1).1]; exact g1 b a
  · rw [(a2 o ho b.1).2]; exact g2 b a
  · have ne : x.id ≠ f.id := by intro q; rw [q, b] at c; cases c
    rw [a4 x hx b'.2.2.1 ne] at c
    have q := g3 b' a c
    rw [a3 o ho b'.1 (by rw [q]; simpa using ne), q]

theorem resumeDev_g {A : List Info} {s : St} {f : Info} (h : Inv A s) (hf : f ∈ s.devs) (g : G A none AllP s) :
    G A none AllP (resumeDev s f) := by
  unfold resumeDev
  split
  · have : ∀ (ds don : List Info) (s' : St), (∀ d ∈ ds, d ∈ s.devs ∧ d.id ≠ f.id) → Safe s' → s'.devs = s.devs → G A none AllP s' →
        (∀ d ∈ don, d ∈ s.devs ∧ (Bel .pen d f → (s'.mem d.id).pen = some f.id)) →
        let r := ds.foldl (fun s d => resumedReact s d f) s'
        G A none AllP r ∧ r.devs = s.devs ∧ ∀ d, d ∈ ds ∨ d ∈ don → Bel .pen d f → (r.mem d.id).pen = some f.id := by
      intro ds
      induction ds with
      | nil =>
        intro don s' _ _ e g' hq
        exact ⟨g', e, fun d hd b => (hq d (by simpa using hd)).2 b⟩
      | cons d ds ih =>
        intro don s' hds hs e g' hq
        obtain ⟨hd, n⟩ := hds d List.mem_cons_self
        have sp := resumedReact_spec (d := d) (x := f) hs (e ▸ hd) (e ▸ hf) (fun c => n c.symm)
        have w := resumedReact_found (d := d) (x := f) hs (e ▸ hd) (e ▸ hf) (fun c => n c.symm)
        have r := ih (d :: don) _ (fun d' h' => hds d' (List.mem_cons_of_mem _ h')) sp.safe (w.devs.trans e)
          (g'.found w (by rw [e]; exact h.sub) (e ▸ hd) (e ▸ hf) hs.un)
          (by
            intro d' hd'
            rcases List.mem_cons.mp hd' with rfl | hd'
            · exact ⟨hd, w.own⟩
            · refine ⟨(hq d' hd').1, fun b => ?_⟩
              by_cases q : d'.id = d.id
              · have := h.safe.inj (hq d' hd').1 hd q
                subst this
                exact w.own b
              · rw [w.pen d' (by rw [e]; exact (hq d' hd').1) b.1 (Or.inl q)]
                exact (hq d' hd').2 b)
        refine ⟨r.1, r.2.1, fun d' hd' b => r.2.2 d' ?_ b⟩
        rcases hd' with hd' | hd'
        · rcases List.mem_cons.mp hd' with rfl | hd'
          · exact Or.inr List.mem_cons_self
          · exact Or.inl hd'
        · exact Or.inr (List.mem_cons_of_mem _ hd')
    obtain ⟨r1, r2, r3⟩ := this (s.others f.id) [] s (fun d hd => others_mem.mp hd) h.safe rfl g (fun d hd => by cases hd)
    revert r1 r2 r3
    generalize (s.others f.id).foldl (fun s d => resumedReact s d f) s = s1
    intro r1 r2 r3
    have key : ∀ y, ((s1.upd f.id fun m => { m with suspended := false }).mem y).touch = (s1.mem y).touch ∧
        ((s1.upd f.id fun m => { m with suspended := false }).mem y).turned = (s1.mem y).turned ∧
        ((s1.upd f.id fun m => { m with suspended := false }).mem y).pen = (s1.mem y).pen := by
      intro y
      by_cases q : y = f.id
      · subst q; rw [upd_self]; exact ⟨rfl, rfl, rfl⟩
      · rw [upd_ne _ _ q]; exact ⟨rfl, rfl, rfl⟩
    intro o ho x hx n p he
    obtain ⟨g1, g2, g3⟩ := r1 o ho x hx n p he
    rw [(key o.id).1, (key o.id).2.1, (key o.id).2.2]
    refine ⟨g1, g2, fun b a c => ?_⟩
    by_cases q : x.id = f.id
    · have hx' : x ∈ s.devs := by rw [← r2]; exact hx
      have ho' : o ∈ s.devs := by rw [← r2]; exact ho
      have := h.safe.inj hx' hf q
      subst this
      exact r3 o (Or.inl (others_mem.mpr ⟨ho', fun c => n c.symm⟩)) b
    · rw [upd_ne _ _ q] at c
      exact g3 b a c
  · exact g

/-! ## Histories -/

theorem callLid_fr {A : List Info} (c : Bool) {s : St} {l : Listener} (h : Inv A s) (hl : l ∈ s.lst) : Fr s (callLid c s l) := by
  rcases callLid_cases c h hl with ⟨_, e⟩ | ⟨_, o, hd, _, ko, _, e⟩
  · rw [e]; exact Fr.refl _
  · rw [e]; split
    · exact tpSuspend_fr h.safe.un hd ko _
    · exact tpResume_fr h.safe.un hd ko _

theorem notifyLid_fr {A : List Info} {s : St} {x : Nat} (h : Inv A s) : Fr s (notifyLid s x) := by
  unfold notifyLid
  split
  · have := deliver_inv (call := callLid (s.mem x).closed) (x := x) (I := fun s' => Inv A s' ∧ Fr s s')
      (by
        intro s' l hI hl _
        have a := callLid_inv (s.mem x).closed hI.1 hl
        exact ⟨⟨a.1, hI.2.trans (callLid_fr _ hI.1 hl)⟩, fun l' h' _ => a.2.2 l' h'⟩)
      (s.of x) s.lst s ⟨h, Fr.refl _⟩ (fun _ hl _ => hl) of_src
    dsimp only
    refine this.2.trans (Fr.trans (Fr.of_mem (s' := { deliver (callLid (s.mem x).closed) s.lst s (s.of x) with
        log := (deliver (callLid (s.mem x).closed) s.lst s (s.of x)).log ++ [.lid x (s.mem x).closed] }) rfl rfl) ?_)
    exact Fr.upd _ x (f := fun m => { m with client := m.closed }) (fun _ => rfl) (fun _ => rfl) (fun _ => rfl) (fun _ => rfl)
  · exact Fr.refl _

theorem call_g {A : List Info} (ev : Ev) {s : St} {l : Listener} (h : Inv A s) (hl : l ∈ s.lst) (g : G A none AllP s) :
    G A none AllP (call ev s l) := by
  obtain ⟨o, hd, e, hf, he⟩ := listener_find h.safe hl
  unfold call
  rw [hf]
  dsimp only
  split
  · exact g
  · exact g
  · split
    · have i1 := h.flag hd (f := fun m => { m with closed := false }) (fun _ => rfl) (fun _ => rfl) (fun _ => rfl) (fun _ => rfl)
        (fun _ => rfl) (fun _ => rfl) (fun _ => rfl) (fun _ => rfl)
      exact g.fr ((Fr.upd s o.id (f := fun m => { m with closed := false }) (fun _ => rfl) (fun _ => rfl) (fun _ => rfl) (fun _ => rfl)).trans
        (notifyLid_fr i1))
    · exact g
  · split
    · rename_i k
      split
      · exact g.fr (tpSuspend_fr h.safe.un hd k _)
      · exact g.fr (tpResume_fr h.safe.un hd k _)
    · split
      · exact suspendDev_g h.safe hd g
      · split
        · exact g
        · exact resumeDev_g h hd g
  · exact g

theorem post_g {A : List Info} (M : Machine A) (ev : Ev) {s : St} (x : Nat) (h : Inv A s) (g : G A none AllP s) : G A none AllP (post s x ev) := by
  unfold post
  exact (deliver_inv (call := call ev) (x := x) (I := fun s' => Inv A s' ∧ G A none AllP s')
    (by
      intro s' l hI hl hx
      have a := call_inv M ev hI.1 hl
      exact ⟨⟨a.1, call_g ev hI.1 hl hI.2⟩, fun l' h' e => a.2.2 l' h' (e.trans hx.symm)⟩)
    (s.of x) s.lst s ⟨h, g⟩ (fun _ hl _ => hl) of_src).2

theorem initialState_g {A : List Info} (M : Machine A) {s : St} {x : Info} (h : Inv A s) (hx : x ∈ s.devs) (g : G A none AllP s) :
    G A none AllP (initialState s x) := by
  unfold initialState
  have a : G A none AllP (if x.lidSw then
        let s := s.upd x.id fun m => { m with closed := x.closed0, client := false }
        if x.closed0 && x.reliable then notifyLid s x.id else s
      else s) ∧ Inv A (if x.lidSw then
        let s := s.upd x.id fun m => { m with closed := x.closed0, client := false }
        if x.closed0 && x.reliable then notifyLid s x.id else s
      else s) := by
    split
    · have b : Inv A (s.upd x.id fun m => { m with closed := x.closed0, client := false }) :=
        h.flag hx (fun _ => rfl) (fun _ => rfl) (fun _ => rfl) (fun _ => rfl) (fun _ => rfl) (fun _ => rfl) (fun _ => rfl)
          (fun _ => rfl)
      have o1 : G A none AllP (s.upd x.id fun m => { m with closed := x.closed0, client := false }) :=
        g.fr (Fr.upd s x.id (f := fun m => { m with closed := x.closed0, client := false }) (fun _ => rfl) (fun _ => rfl) (fun _ => rfl)
          (fun _ => rfl))
      dsimp only
      split
      · exact ⟨o1.fr (notifyLid_fr b), (notifyLid_inv b (x := x) hx).1⟩
      · exact ⟨o1, b⟩
    · exact ⟨g, h⟩
  revert a
  generalize (if x.lidSw then
        let s := s.upd x.id fun m => { m with closed := x.closed0, client := false }
        if x.closed0 && x.reliable then notifyLid s x.id else s
      else s) = s1
  intro a
  dsimp only
  split
  · exact post_g M _ x.id a.2 a.1
  · exact a.1

theorem removedReact_g {A : List Info} {s : St} {d x : Info} (hu : Un s.devs) (hd : d ∈ s.devs)
    (g : G A (some x.id) AllP s) : G A (some x.id) AllP (removedReact s d x) := by
  unfold removedReact
  split
  · rename_i k
    have t : (tabletRemoved s d x).devs = s.devs ∧ (∀ y, y ≠ d.id → (tabletRemoved s d x).mem y = s.mem y) ∧
        ((tabletRemoved s d x).mem d.id).suspended = (s.mem d.id).suspended ∧
        ((s.mem d.id).touch ≠ some x.id → ((tabletRemoved s d x).mem d.id).touch = (s.mem d.id).touch) ∧
        ((s.mem d.id).turned ≠ some x.id → ((tabletRemoved s d x).mem d.id).turned = (s.mem d.id).turned) := by
      unfold tabletRemoved
      dsimp only
      by_cases c1 : (s.mem d.id).touch = some x.id <;> by_cases c2 : (s.mem d.id).turned = some x.id <;>
        simp [c1, c2, upd_self, St.upd] <;> (intro y hy; simp [hy])
    obtain ⟨t1, t2, t3, t4, t5⟩ := t
    have sus : ∀ y, ((tabletRemoved s d x).mem y).suspended = (s.mem y).suspended := by
      intro y
      by_cases q : y = d.id
      · rw [q, t3]
      · rw [t2 y q]
    intro o ho y hy n p he
    rw [t1] at ho hy
    obtain ⟨g1, g2, g3⟩ := g o ho y hy n p he
    by_cases q : o.id = d.id
    · have q' := hu o ho d hd q
      subst q'
      refine ⟨fun b a => ?_, fun b a => ?_, fun b => absurd b.1 (by rw [k]; simp)⟩
      · have := g1 b a
        rw [t4 (by rw [this]; exact fun c => he c.symm), this]
      · have := g2 b a
        rw [t5 (by rw [this]; exact fun c => he c.symm), this]
    · rw [t2 _ q, sus]; exact ⟨g1, g2, g3⟩
  · exact g.lost (suspendedReact_lost hu hd x) (Or.inl rfl)

theorem removeDev_g {A : List Info} {s : St} {x : Info} (h : Inv A s) (hx : x ∈ s.devs) (g : G A none AllP s) :
    G A none AllP (removeDev s x) := by
  unfold removeDev
  dsimp only
  obtain ⟨i1, i2, _⟩ := removed_loop (x := x) (D := s.devs) (s.others x.id) s (fun d hd => others_mem.mp hd) h.safe rfl
  have g0 : G A (some x.id) AllP s := fun o ho y hy n p _ => g o ho y hy n p (by simp)
  have g1 : G A (some x.id) AllP ((s.others x.id).foldl (fun s d => removedReact s d x) s) := by
    have : ∀ (ds : List Info) (s' : St), (∀ d ∈ ds, d ∈ s.devs) → Safe s' → s'.devs = s.devs → G A (some x.id) AllP s' →
        G A (some x.id) AllP (ds.foldl (fun s d => removedReact s d x) s') := by
      intro ds
      induction ds with
      | nil => intro s' _ _ _ g'; exact g'
      | cons d ds ih =>
        intro s' hds hs e g'
        have hd := hds d List.mem_cons_self
        have sp := removedReact_spec (d := d) (x := x) hs (e ▸ hd)
        exact ih _ (fun d' h' => hds d' (List.mem_cons_of_mem _ h')) sp.1 (sp.2.devs.trans e) (removedReact_g hs.un (e ▸ hd) g')
    exact this _ s (fun d hd => (others_mem.mp hd).1) h.safe rfl g0
  revert i1 i2 g1
  generalize (s.others x.id).foldl (fun s d => removedReact s d x) s = s1
  intro i1 i2 g1
  have g2 := suspendDev_g i1 (i2.devs ▸ hx) g1
  obtain ⟨j1, j2, _⟩ := suspendDev_spec i1 (i2.devs ▸ hx)
  obtain ⟨k1, _, _, _, k5, _⟩ := leave_spec j1 (j2.devs ▸ i2.devs ▸ hx)
  intro o ho y hy n p he
  have ho' := List.mem_filter.mp ho
  have hy' := List.mem_filter.mp hy
  have no : o.id ≠ x.id := by simpa using ho'.2
  have ny : y.id ≠ x.id := by simpa using hy'.2
  rw [k1] at ho' hy'
  have := g2 o ho'.1 y hy'.1 n p (by simpa using fun c => ny c.symm)
  show (Bel .touch o y → Alone A .touch o → ((leave _ x).mem o.id).touch = some y.id) ∧
    (Bel .turned o y → Alone A .turned o → ((leave _ x).mem o.id).turned = some y.id) ∧
    (Bel .pen o y → Alone A .pen o → ((leave _ x).mem y.id).suspended = false → ((leave _ x).mem o.id).pen = some y.id)
  rw [k5 _ no, k5 _ ny]
  exact this

theorem step_g {A : List Info} (M : Machine A) {s : St} {op : Op} (h : Inv A s) (g : G A none AllP s) (hop : ∀ x, op = .add x → x ∈ A) :
    G A none AllP (step s op) := by
  unfold step
  rw [if_neg (by rw [h.safe.fine]; simp)]
  dsimp only
  have h0 := h.log []
  have g0 : G A none AllP ({ s with log := [] } : St) := g
  revert h0 g0
  generalize ({ s with log := [] } : St) = s0
  intro h0 g0
  have ev : ∀ (id : Nat) (ok : Info → Bool) (f : St → St), (∀ x ∈ s0.devs, x.id = id → x.kind = .fallback → G A none AllP (f s0)) →
      G A none AllP (event s0 id ok f) := by
    intro id ok f hf
    unfold event
    split
    · exact g0
    · rename_i x e
      split
      · rename_i c
        exact hf x (find_some e).1 (find_some e).2 c.1
      · exact g0
  cases op with
  | add x =>
    dsimp only
    split
    · exact g0
    · rename_i c
      have hx : ∀ d ∈ s0.devs, d.id ≠ x.id := by
        intro d hd e
        refine c (Option.isSome_iff_exists.mpr ⟨d, ?_⟩)
        rw [← e]; exact find_of h0.safe hd
      have hxA := hop x rfl
      unfold addDev
      dsimp only
      have i := greets_inv M h0 hx hxA
      have en : ∀ d ∈ s0.devs, (enter s0 x).mem d.id = s0.mem d.id := by
        intro d hd; simp [enter, hx d hd]
      have ge : G A none (fun o y => o ∈ s0.devs ∧ y ∈ s0.devs) (enter s0 x) := by
        intro o _ y _ n p he
        rw [en o p.1, en y p.2]
        exact g0 o p.1 y p.2 n trivial he
      have gl := greets_g (A := A) (x := x) (D := s0.devs ++ [x]) (by simp)
        (by
          intro d hd
          rcases List.mem_append.mp hd with hd | hd
          · exact h0.sub d hd
          · rw [List.mem_singleton.mp hd]; exact hxA)
        s0.devs (enter s0 x) _ (fun d hd => ⟨by simp [hd], fun e => hx d hd e.symm⟩) (enter_safe h0.safe hx (M.real x hxA)) rfl ge
      revert i gl
      generalize s0.devs.foldl (greet x) (enter s0 x) = s1
      intro i gl
      have g1 : G A none AllP s1 := by
        intro o ho y hy n p he
        refine gl o ho y hy n ?_ he
        rw [i.2] at ho hy
        rcases List.mem_append.mp ho with ho | ho <;> rcases List.mem_append.mp hy with hy | hy
        · exact Or.inl ⟨ho, hy⟩
        · exact Or.inr ⟨o, ho, Or.inl ⟨rfl, List.mem_singleton.mp hy⟩⟩
        · exact Or.inr ⟨y, hy, Or.inr ⟨List.mem_singleton.mp ho, rfl⟩⟩
        · rw [List.mem_singleton.mp ho, List.mem_singleton.mp hy] at n; exact absurd rfl n
      split
      · exact initialState_g M i.1 (by rw [i.2]; simp) g1
      · exact g1
  | remove i =>
    dsimp only
    split
    · exact g0
    · rename_i x c
      exact removeDev_g h0 (find_some c).1 g0
  | mode i v =>
    dsimp only
    split
    · exact g0
    · rename_i x c
      have hx := (find_some c).1
      unfold setMode
      split
      · exact g0
      · dsimp only
        have key : ∀ s' : St, G A none AllP s' → G A none AllP (s'.upd x.id fun m => { m with disabled := v }) := fun s' g' =>
          g'.fr (Fr.upd s' x.id (f := fun m => { m with disabled := v }) (fun _ => rfl) (fun _ => rfl) (fun _ => rfl) (fun _ => rfl))
        split
        · rename_i k
          split
          · exact key _ (g0.fr (tpSuspend_fr h0.safe.un hx k _))
          · exact key _ (g0.fr (tpResume_fr h0.safe.un hx k _))
        · exact key _ g0
        · split
          · exact key _ (suspendDev_g h0.safe hx g0)
          · exact key _ (resumeDev_g h0 hx g0)
  | lid i v =>
    refine ev _ _ _ fun x hx e k => ?_
    subst e
    unfold lidEvent
    have a := toggleKeys_inv h0 hx k v
    revert a
    generalize toggleKeys s0 x.id v = s1
    intro a
    dsimp only
    have n1 : G A none AllP s1 := g0.fr (Fr.of_mem a.2.1 a.2.2)
    split
    · exact n1
    · have u := Fr.upd s1 x.id (f := fun m => { m with closed := v }) (fun _ => rfl) (fun _ => rfl) (fun _ => rfl) (fun _ => rfl)
      exact (n1.fr u).fr (notifyLid_fr (A := A) (s := s1.upd x.id fun m => { m with closed := v }) (x := x.id)
        (a.1.flag (a.2.1 ▸ hx) (fun _ => rfl) (fun _ => rfl) (fun _ => rfl) (fun _ => rfl) (fun _ => rfl) (fun _ => rfl) (fun _ => rfl)
        (fun _ => rfl)))
  | tablet i v =>
    refine ev _ _ _ fun x hx e k => ?_
    subst e
    unfold tabletEvent
    split
    · exact g0
    · exact post_g (s := s0.upd x.id fun m => { m with on := v }) M _ x.id
        (h0.flag hx (fun _ => rfl) (fun _ => rfl) (fun _ => rfl) (fun _ => rfl) (fun _ => rfl) (fun _ => rfl)
      (fun _ => rfl) (fun _ => rfl))
        (g0.fr (Fr.upd s0 x.id (f := fun m => { m with on := v }) (fun _ => rfl) (fun _ => rfl) (fun _ => rfl) (fun _ => rfl)))
  | key i => exact ev _ _ _ fun x hx e k => post_g M _ _ h0 g0
  | pointer i => exact ev _ _ _ fun x hx e k => post_g M _ _ h0 g0

theorem run_g {A : List Info} (M : Machine A) : ∀ (ops : List Op) (s : St), Inv A s → G A none AllP s → (∀ x ∈ adds ops, x ∈ A) →
    G A none AllP (run s ops) := by
  intro ops
  induction ops with
  | nil => intro s _ h _; exact h
  | cons op ops ih =>
    intro s h hf hA
    have hop : ∀ x, op = .add x → x ∈ A := fun x e => hA x (mem_adds List.mem_cons_self e)
    exact ih (step s op) (step_inv M (op := op) h hop).1 (step_g M h hf hop) (fun x hx => hA x (by cases op <;> simp [adds, hx]))

theorem history_g {ops : List Op} (M : Machine (adds ops)) : G (adds ops) none AllP (run {} ops) :=
  run_g M ops {} (init_inv _) (by intro t ht; cases ht) (fun _ h => h)

end Libinput.Pairing
