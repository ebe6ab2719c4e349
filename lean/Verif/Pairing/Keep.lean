import Verif.Pairing.Safe
/-!
What a device does when another one comes or goes: what it keeps, and what it gains.
-/
namespace Libinput.Pairing
open Spec

/-- Everybody who holds on to `y` goes on doing so. -/
structure Keeps (s s' : St) (y : Nat) : Prop where
  part : ∀ (o : Info) b, b.basic = true → Partner (s.mem o.id) o b y → Partner (s'.mem o.id) o b y
  lst : ∀ l ∈ s.lst, l.src = y → l ∈ s'.lst

theorem Keeps.refl (s : St) (y : Nat) : Keeps s s y := ⟨fun _ _ _ h => h, fun _ h _ => h⟩

theorem Keeps.trans {a b c : St} {y : Nat} (h : Keeps a b y) (k : Keeps b c y) : Keeps a c y :=
  ⟨fun o r hr hp => k.part o r hr (h.part o r hr hp), fun l hl e => k.lst l (h.lst l hl e) e⟩

/-- A move: bonds to the devices in `K` are kept, the devices in `S` stay as they are. -/
structure Mv (s s' : St) (K S : Nat → Prop) : Prop where
  devs : s'.devs = s.devs
  keep : ∀ y, K y → Keeps s s' y
  susp : ∀ y, S y → (s'.mem y).suspended = (s.mem y).suspended
  on : ∀ y, (s'.mem y).on = (s.mem y).on
  mode : ∀ y, (s'.mem y).disabled = (s.mem y).disabled
  log : s'.log = s.log

theorem Mv.refl (s : St) (K S : Nat → Prop) : Mv s s K S :=
  ⟨rfl, fun _ _ => Keeps.refl _ _, fun _ _ => rfl, fun _ => rfl, fun _ => rfl, rfl⟩

theorem Mv.trans {a b c : St} {K S : Nat → Prop} (h : Mv a b K S) (k : Mv b c K S) : Mv a c K S :=
  ⟨k.devs.trans h.devs, fun y hy => (h.keep y hy).trans (k.keep y hy), fun y hy => (k.susp y hy).trans (h.susp y hy),
    fun y => (k.on y).trans (h.on y), fun y => (k.mode y).trans (h.mode y), k.log.trans h.log⟩

theorem Mv.weak {a b : St} {K S K' S' : Nat → Prop} (h : Mv a b K S) (hK : ∀ y, K' y → K y) (hS : ∀ y, S' y → S y) : Mv a b K' S' :=
  ⟨h.devs, fun y hy => h.keep y (hK y hy), fun y hy => h.susp y (hS y hy), h.on, h.mode, h.log⟩

/-- Nothing is lost, nobody is suspended or resumed. -/
abbrev All : Nat → Prop := fun _ => True

/-- An update of fields that have nothing to do with it. -/
theorem Mv.upd (s : St) (i : Nat) (f : Dyn → Dyn) (S : Nat → Prop) (hk : ∀ m, (f m).kbds = m.kbds) (hl : ∀ m, (f m).lid = m.lid)
    (ht : ∀ m, (f m).tablet = m.tablet) (hs : ∀ m, (f m).stick = m.stick) (ho : ∀ m, (f m).on = m.on)
    (hd : ∀ m, (f m).disabled = m.disabled) (hS : ∀ y, S y → y = i → ∀ m, (f m).suspended = m.suspended) :
    Mv s (s.upd i f) All S := by
  have key : ∀ j, (s.upd i f).mem j = f (s.mem j) ∧ j = i ∨ (s.upd i f).mem j = s.mem j := by
    intro j
    by_cases e : j = i
    · subst e; exact Or.inl ⟨upd_self _ _ _, rfl⟩
    · exact Or.inr (upd_ne _ _ e)
  refine ⟨rfl, ?_, ?_, ?_, ?_, rfl⟩
  · intro y _
    refine ⟨?_, fun l hl _ => hl⟩
    intro o b hb hp
    rcases key o.id with ⟨e, _⟩ | e
    · rw [e]
      cases b <;> simp_all only [Partner, Bond.basic] <;> simp_all
    · rw [e]; exact hp
  · intro y hy
    rcases key y with ⟨e, e'⟩ | e
    · rw [e]; exact hS y hy e' _
    · rw [e]
  · intro y
    rcases key y with ⟨e, _⟩ | e
    · rw [e, ho]
    · rw [e]
  · intro y
    rcases key y with ⟨e, _⟩ | e
    · rw [e, hd]
    · rw [e]

theorem fold_mv {f : St → Info → St} {K S : Nat → Prop} {D : List Info}
    (hf : ∀ s d, d ∈ D → Mv s (f s d) K S) : ∀ (ds : List Info) (s : St), (∀ d ∈ ds, d ∈ D) → Mv s (ds.foldl f s) K S := by
  intro ds
  induction ds with
  | nil => intro s _; exact Mv.refl _ _ _
  | cons d ds ih =>
    intro s h
    exact (hf s d (h d List.mem_cons_self)).trans (ih _ fun d' h' => h d' (List.mem_cons_of_mem _ h'))

theorem totemRemoved_mv (s : St) (d x : Info) : Mv s (totemRemoved s d x) All All := by
  unfold totemRemoved; split
  · exact Mv.upd _ _ _ _ (fun _ => rfl) (fun _ => rfl) (fun _ => rfl) (fun _ => rfl) (fun _ => rfl) (fun _ => rfl) (fun _ _ _ _ => rfl)
  · exact Mv.refl _ _ _

theorem totemAdded_mv (s : St) (d x : Info) : Mv s (totemAdded s d x) All All := by
  unfold totemAdded; (repeat' (split; exact Mv.refl _ _ _))
  exact Mv.upd _ _ _ _ (fun _ => rfl) (fun _ => rfl) (fun _ => rfl) (fun _ => rfl) (fun _ => rfl) (fun _ => rfl) (fun _ _ _ _ => rfl)

theorem tabletAdded_mv (s : St) (d x : Info) : Mv s (tabletAdded s d x) All All := by
  unfold tabletAdded; dsimp only; (repeat' split) <;>
    first
    | exact Mv.refl _ _ _
    | exact Mv.upd _ _ _ _ (fun _ => rfl) (fun _ => rfl) (fun _ => rfl) (fun _ => rfl) (fun _ => rfl) (fun _ => rfl) (fun _ _ _ _ => rfl)
    | (refine Mv.trans ?_ (Mv.upd _ _ _ _ (fun _ => rfl) (fun _ => rfl) (fun _ => rfl) (fun _ => rfl) (fun _ => rfl) (fun _ => rfl) (fun _ _ _ _ => rfl))
       exact Mv.upd _ _ _ _ (fun _ => rfl) (fun _ => rfl) (fun _ => rfl) (fun _ => rfl) (fun _ => rfl) (fun _ => rfl) (fun _ _ _ _ => rfl))

theorem tabletRemoved_mv (s : St) (d x : Info) : Mv s (tabletRemoved s d x) All All := by
  unfold tabletRemoved; dsimp only; (repeat' split) <;>
    first
    | exact Mv.refl _ _ _
    | exact Mv.upd _ _ _ _ (fun _ => rfl) (fun _ => rfl) (fun _ => rfl) (fun _ => rfl) (fun _ => rfl) (fun _ => rfl) (fun _ _ _ _ => rfl)
    | (refine Mv.trans ?_ (Mv.upd _ _ _ _ (fun _ => rfl) (fun _ => rfl) (fun _ => rfl) (fun _ => rfl) (fun _ => rfl) (fun _ => rfl) (fun _ _ _ _ => rfl))
       exact Mv.upd _ _ _ _ (fun _ => rfl) (fun _ => rfl) (fun _ => rfl) (fun _ => rfl) (fun _ => rfl) (fun _ => rfl) (fun _ _ _ _ => rfl))

/-- Suspending or resuming a touchpad. -/
theorem flag_mv (s : St) (t : Nat) (b : Bool) : Mv s (s.upd t fun m => { m with suspended := b }) All (· ≠ t) :=
  Mv.upd _ _ _ _ (fun _ => rfl) (fun _ => rfl) (fun _ => rfl) (fun _ => rfl) (fun _ => rfl) (fun _ => rfl) (fun _ h e => absurd e h)

theorem why_mv (s : St) (t : Nat) (b : Bool) (w : Why) : Mv s (s.upd t fun m => m.why b w) All All :=
  Mv.upd _ _ _ _ (fun m => why_kbds m b w) (fun m => why_lid m b w) (fun m => why_tablet m b w) (fun m => why_stick m b w)
    (fun m => by cases w <;> rfl) (fun m => by cases w <;> rfl) (fun _ _ _ m => why_suspended m b w)

theorem tpOff_mv (s : St) (t : Info) : Mv s (tpOff s t) All (· ≠ t.id) := by
  unfold tpOff
  split
  · exact Mv.refl _ _ _
  · refine Mv.trans ?_ (flag_mv _ _ _)
    refine fold_mv (D := s.others t.id) ?_ _ _ (fun _ h => h)
    intro s d _
    split
    · exact (totemRemoved_mv _ _ _).weak (fun _ _ => trivial) (fun _ _ => trivial)
    · exact Mv.refl _ _ _

theorem tpOn_mv (s : St) (t : Info) : Mv s (tpOn s t) All (· ≠ t.id) := by
  unfold tpOn
  split
  · refine Mv.trans ?_ (flag_mv _ _ _)
    refine fold_mv (D := s.others t.id) ?_ _ _ (fun _ h => h)
    intro s d _
    split
    · exact (totemAdded_mv _ _ _).weak (fun _ _ => trivial) (fun _ _ => trivial)
    · exact Mv.refl _ _ _
  · exact Mv.refl _ _ _

theorem tpSuspend_mv (s : St) (t : Info) (w : Why) : Mv s (tpSuspend s t w) All (· ≠ t.id) := by
  unfold tpSuspend; (repeat' split)
  · exact Mv.refl _ _ _
  · exact (why_mv _ _ _ _).weak (fun _ _ => trivial) (fun _ _ => trivial)
  · exact (tpOff_mv _ _).trans ((why_mv _ _ _ _).weak (fun _ _ => trivial) (fun _ _ => trivial))

theorem tpResume_mv (s : St) (t : Info) (w : Why) : Mv s (tpResume s t w) All (· ≠ t.id) := by
  unfold tpResume; dsimp only; split
  · exact (why_mv _ _ _ _).weak (fun _ _ => trivial) (fun _ _ => trivial)
  · exact ((why_mv _ _ _ _).weak (fun _ _ => trivial) (fun _ _ => trivial)).trans (tpOn_mv _ _)

/-! ## Gaining -/

/-- Setting a pointer that was not set loses nothing. -/
theorem Mv.set {s s' : St} {d : Info} (h : Loc s s' d.id) (hl : ∀ l ∈ s.lst, l ∈ s'.lst)
    (hp : ∀ (o : Info) b y, o.id = d.id → b.basic = true → Partner (s.mem d.id) o b y → Partner (s'.mem d.id) o b y)
    (hs : (s'.mem d.id).suspended = (s.mem d.id).suspended) (ho : (s'.mem d.id).on = (s.mem d.id).on)
    (hm : (s'.mem d.id).disabled = (s.mem d.id).disabled) (hg : s'.log = s.log) : Mv s s' All All := by
  refine ⟨h.devs, ?_, ?_, ?_, ?_, hg⟩
  · intro y _
    refine ⟨?_, fun l a _ => hl l a⟩
    intro o b hb hp'
    by_cases e : o.id = d.id
    · rw [e] at hp' ⊢; exact hp o b y e hb hp'
    · rw [h.mem _ e]; exact hp'
  · intro y _
    by_cases e : y = d.id
    · rw [e, hs]
    · rw [h.mem _ e]
  · intro y
    by_cases e : y = d.id
    · rw [e, ho]
    · rw [h.mem _ e]
  · intro y
    by_cases e : y = d.id
    · rw [e, hm]
    · rw [h.mem _ e]

theorem listen_grows (s : St) (l : Listener) : ∀ l' ∈ s.lst, l' ∈ (s.listen l).lst := by
  intro l' h
  unfold St.listen
  split
  · exact h
  · exact List.mem_cons_of_mem _ h

theorem listen_mem (s : St) (l : Listener) : (s.listen l).mem = s.mem := by unfold St.listen; split <;> rfl
theorem listen_log (s : St) (l : Listener) : (s.listen l).log = s.log := by unfold St.listen; split <;> rfl
theorem listen_devs (s : St) (l : Listener) : (s.listen l).devs = s.devs := by unfold St.listen; split <;> rfl

theorem pairStick_mv {s : St} {t x : Info} (L : Loc s (pairStick s t x) t.id) : Mv s (pairStick s t x) All All := by
  refine Mv.set L ?_ ?_ ?_ ?_ ?_ ?_ <;> unfold pairStick <;> split
  case' refine_1.isFalse => split
  case' refine_2.isFalse => split
  case' refine_3.isFalse => split
  case' refine_4.isFalse => split
  case' refine_5.isFalse => split
  case' refine_6.isFalse => split
  all_goals try (dsimp only; split)
  all_goals try simp only [listen_mem, listen_log, upd_self, upd_lst, upd_log]
  all_goals try exact fun l h => h
  all_goals try exact fun _ _ _ _ _ h => h
  all_goals try exact fun l h => listen_grows _ _ l h
  all_goals
    intro o b y _ hb hp
    cases b <;> simp_all [Partner]

theorem pairLid_mv {s : St} {t x : Info} (L : Loc s (pairLid s t x) t.id) : Mv s (pairLid s t x) All All := by
  by_cases c : x.lidSw = true ∧ t.extTouchpad = false ∧ (s.mem t.id).lid = none
  · have e : pairLid s t x =
        (s.listen { src := x.id, owner := t.id, role := .lid }).upd t.id fun m => { m with lid := some x.id } := by
      unfold pairLid; simp [c]
    rw [e] at L ⊢
    refine Mv.set L ?_ ?_ ?_ ?_ ?_ ?_
    all_goals try simp only [listen_mem, listen_log, upd_self, upd_lst, upd_log]
    · exact listen_grows _ _
    · intro o b y _ hb hp
      cases b <;> simp_all [Partner]
  · have e : pairLid s t x = s := by
      unfold pairLid; grind
    rw [e]; exact Mv.refl _ _ _

theorem linkTablet_mv {s : St} {d x : Info} (hn : (s.mem d.id).tablet = none)
    (L : Loc s ((s.listen { src := x.id, owner := d.id, role := .tablet }).upd d.id fun m => { m with tablet := some x.id }) d.id) :
    Mv s ((s.listen { src := x.id, owner := d.id, role := .tablet }).upd d.id fun m => { m with tablet := some x.id }) All All := by
  refine Mv.set L ?_ ?_ ?_ ?_ ?_ ?_
  all_goals try simp only [listen_mem, listen_log, upd_self, upd_lst, upd_log]
  · exact listen_grows _ _
  · intro o b y _ hb hp
    cases b <;> simp_all [Partner]

theorem pairPen_mv (s : St) (t x : Info) : Mv s (pairPen s t x) All All := by
  unfold pairPen; (repeat' (split; exact Mv.refl _ _ _))
  exact Mv.upd _ _ _ _ (fun _ => rfl) (fun _ => rfl) (fun _ => rfl) (fun _ => rfl) (fun _ => rfl) (fun _ => rfl) (fun _ _ _ _ => rfl)

theorem pairTyping_mv {s : St} {t x : Info} (L : Loc s (pairTyping s t x) t.id) : Mv s (pairTyping s t x) All All := by
  by_cases c : x.keyboard = true ∧ wantTyping t x = true
  · have e : pairTyping s t x =
        (({ s with ser := s.ser + 1, heap := s.ser :: s.heap } : St).listen { src := x.id, owner := t.id, role := .typing, ser := s.ser }).upd
          t.id fun m => { m with kbds := (s.ser, x.id) :: m.kbds } := by
      unfold pairTyping; simp [c]
    rw [e] at L ⊢
    refine Mv.set L ?_ ?_ ?_ ?_ ?_ ?_
    all_goals try simp only [listen_mem, listen_log, upd_self, upd_lst, upd_log]
    · exact listen_grows ({ s with ser := s.ser + 1, heap := s.ser :: s.heap } : St) _
    · intro o b y _ hb hp
      cases b <;> first | exact hp | exact ⟨hp.1, hp.2.elim fun n h => ⟨n, List.mem_cons_of_mem _ h⟩⟩
  · have e : pairTyping s t x = s := by
      unfold pairTyping; grind
    rw [e]; exact Mv.refl _ _ _

theorem lidPair_mv {s : St} {d x : Info} (L : Loc s (lidPair s d x) d.id) : Mv s (lidPair s d x) All All := by
  by_cases c : x.keyboard = true ∧ d.lidSw = true ∧ x.internalKbd = true
  · have e : lidPair s d x =
        (let s1 := ({ s with ser := s.ser + 1, heap := s.ser :: s.heap } : St).upd d.id fun m => { m with kbds := (s.ser, x.id) :: m.kbds }
         if (s1.mem d.id).closed then s1.listen { src := x.id, owner := d.id, role := .lidKey, ser := s.ser } else s1) := by
      unfold lidPair; simp [c]
    rw [e] at L ⊢
    refine Mv.set L ?_ ?_ ?_ ?_ ?_ ?_ <;> dsimp only <;> split
    all_goals try simp only [listen_mem, listen_log, upd_self, upd_lst, upd_log]
    · exact fun l hl => listen_grows _ _ l hl
    · exact fun l hl => hl
    all_goals
      intro o b y _ hb hp
      cases b <;> first | exact hp | exact ⟨hp.1, hp.2.elim fun n h => ⟨n, List.mem_cons_of_mem _ h⟩⟩
  · have e : lidPair s d x = s := by
      unfold lidPair; grind
    rw [e]; exact Mv.refl _ _ _

theorem pairTablet_mv {s : St} {t x : Info} (h : Safe s) (ht : t ∈ s.devs) (hx : x ∈ s.devs) (n : x.id ≠ t.id)
    (k : t.kind = .touchpad) : Mv s (pairTablet s t x) All (· ≠ t.id) := by
  unfold pairTablet
  (repeat' (split; exact Mv.refl _ _ _))
  rename_i c1 c2 c3 c4
  have c2' : (s.mem t.id).tablet = none := by simpa using c2
  have := linkTablet h ht hx n ⟨by simpa using c1, by simpa using c4, Or.inl ⟨k, by simpa using c3⟩⟩ c2'
  have m := (linkTablet_mv c2' this.2.1).weak (K' := All) (S' := (· ≠ t.id)) (fun _ _ => trivial) (fun _ _ => trivial)
  dsimp only
  split
  · exact m.trans (tpSuspend_mv _ _ _)
  · exact m

theorem tpAdded_spec {s : St} {t x : Info} (h : Safe s) (ht : t ∈ s.devs) (hx : x ∈ s.devs) (n : x.id ≠ t.id)
    (k : t.kind = .touchpad) : Safe (tpAdded s t x) ∧ Mv s (tpAdded s t x) All (· ≠ t.id) := by
  unfold tpAdded
  have w : ∀ {a b : St}, Mv a b All All → Mv a b All (· ≠ t.id) := fun m => m.weak (fun _ _ => trivial) (fun _ _ => trivial)
  have a1 := pairStick_spec h ht hx n k
  have m1 := pairStick_mv a1.2
  revert a1 m1; generalize pairStick s t x = s1; intro a1 m1
  have a2 := pairTyping_spec a1.1 (a1.2.devs ▸ ht) (a1.2.devs ▸ hx) n k
  have m2 := m1.trans (pairTyping_mv a2.2)
  revert a2 m2; generalize pairTyping s1 t x = s2; intro a2 m2
  have a3 := pairLid_spec a2.1 (m2.devs ▸ ht) (m2.devs ▸ hx) n k
  have m3 := m2.trans (pairLid_mv a3.2)
  revert a3 m3; generalize pairLid s2 t x = s3; intro a3 m3
  have a4 := pairTablet_spec a3.1 (m3.devs ▸ ht) (m3.devs ▸ hx) n k
  have m4 := (w m3).trans (pairTablet_mv a3.1 (m3.devs ▸ ht) (m3.devs ▸ hx) n k)
  revert a4 m4; generalize pairTablet s3 t x = s4; intro a4 m4
  have a5 := pairPen_spec a4.1 (m4.devs ▸ ht) (m4.devs ▸ hx) n k
  exact ⟨a5.1, m4.trans (w (pairPen_mv _ _ _))⟩

/-! ## Letting go -/

theorem Mv.unset {s s' : St} {d : Info} {x : Nat} (h : Loc s s' d.id) (hl : ∀ l ∈ s.lst, l.src ≠ x → l ∈ s'.lst)
    (hp : ∀ (o : Info) b y, o.id = d.id → b.basic = true → y ≠ x → Partner (s.mem d.id) o b y → Partner (s'.mem d.id) o b y)
    (hs : (s'.mem d.id).suspended = (s.mem d.id).suspended) (ho : (s'.mem d.id).on = (s.mem d.id).on)
    (hm : (s'.mem d.id).disabled = (s.mem d.id).disabled) (hg : s'.log = s.log) : Mv s s' (· ≠ x) All := by
  refine ⟨h.devs, ?_, ?_, ?_, ?_, hg⟩
  · intro y hy
    refine ⟨?_, fun l a e => hl l a (e ▸ hy)⟩
    intro o b hb hp'
    by_cases e : o.id = d.id
    · rw [e] at hp' ⊢; exact hp o b y e hb hy hp'
    · rw [h.mem _ e]; exact hp'
  · intro y _
    by_cases e : y = d.id
    · rw [e, hs]
    · rw [h.mem _ e]
  · intro y
    by_cases e : y = d.id
    · rw [e, ho]
    · rw [h.mem _ e]
  · intro y
    by_cases e : y = d.id
    · rw [e, hm]
    · rw [h.mem _ e]

theorem unlisten_mem (s : St) (o : Nat) (r : Role) (n : Nat) : (s.unlisten o r n).mem = s.mem := by unfold St.unlisten; split <;> rfl
theorem unlisten_log (s : St) (o : Nat) (r : Role) (n : Nat) : (s.unlisten o r n).log = s.log := by unfold St.unlisten; split <;> rfl
theorem unlisten_devs (s : St) (o : Nat) (r : Role) (n : Nat) : (s.unlisten o r n).devs = s.devs := by unfold St.unlisten; split <;> rfl

theorem unlisten_lst {s : St} {o : Nat} {r : Role} {n : Nat} {l : Listener} (hl : l ∈ s.lst)
    (h : ¬(l.owner = o ∧ l.role = r ∧ l.ser = n)) : l ∈ (s.unlisten o r n).lst := by
  unfold St.unlisten
  split
  · exact mem_drop.mpr ⟨hl, h⟩
  · exact hl

theorem tpNoStick_mv {s : St} {t x : Info} (h : Safe s) (ht : t ∈ s.devs) (k : t.kind = .touchpad) :
    Mv s (tpNoStick s t x) (· ≠ x.id) All := by
  have L := (tpNoStick_spec (x := x) h ht k).2
  have a := h.at_ t ht
  by_cases c : (s.mem t.id).stick = some x.id
  · have e : tpNoStick s t x = (if t.monitor then s.unlisten t.id .stick 0 else s).upd t.id fun m => { m with stick := none } := by
      unfold tpNoStick; rw [if_pos c]
    rw [e] at L ⊢
    have hm : (if t.monitor = true then s.unlisten t.id .stick 0 else s).mem = s.mem := by split; exact unlisten_mem _ _ _ _; rfl
    have hg : (if t.monitor = true then s.unlisten t.id .stick 0 else s).log = s.log := by split; exact unlisten_log _ _ _ _; rfl
    refine Mv.unset L ?_ ?_ ?_ ?_ ?_ ?_
    all_goals try simp only [hm, hg, upd_self, upd_lst, upd_log]
    · intro l hl hs
      split
      · refine unlisten_lst hl ?_
        rintro ⟨h1, h2, h3⟩
        have := a.own l hl h1
        unfold Entry at this; rw [h2] at this
        rw [c] at this
        exact hs (Option.some.inj this.2.1).symm
      · exact hl
    · intro o b y _ hb hy hp
      cases b <;> first | exact hp | simp_all [Partner]
  · have e : tpNoStick s t x = s := by unfold tpNoStick; rw [if_neg c]
    rw [e]; exact Mv.refl _ _ _

theorem dropPtr_mv {s : St} {d : Info} {x : Nat} (h : Safe s) (hd : d ∈ s.devs) (c : (s.mem d.id).tablet = some x) :
    Mv s ((s.drop d.id .tablet 0).upd d.id fun m => { m with tablet := none }) (· ≠ x) All := by
  have a := h.at_ d hd
  refine Mv.unset (unlinkTablet h hd).2 ?_ ?_ ?_ ?_ ?_ rfl
  · intro l hl hs
    rw [upd_lst, mem_drop]
    refine ⟨hl, ?_⟩
    rintro ⟨h1, h2, h3⟩
    have := a.own l hl h1
    unfold Entry at this; rw [h2] at this
    rw [c] at this
    exact hs (Option.some.inj this.2.1).symm
  · intro o b y _ hb hy hp
    rw [upd_self]
    show Partner { s.mem d.id with tablet := none } o b y
    cases b <;> first | exact hp | simp_all [Partner]
  all_goals rw [upd_self]; rfl

theorem fbNoTablet_mv {s : St} {d x : Info} (h : Safe s) (hd : d ∈ s.devs) : Mv s (fbNoTablet s d x) (· ≠ x.id) All := by
  unfold fbNoTablet
  split
  · rename_i c; exact dropPtr_mv h hd c
  · exact Mv.refl _ _ _

theorem tpNoTablet_mv {s : St} {t x : Info} (h : Safe s) (ht : t ∈ s.devs) (k : t.kind = .touchpad) :
    Mv s (tpNoTablet s t x) (· ≠ x.id) (· ≠ t.id) := by
  unfold tpNoTablet
  split
  · rename_i c
    rw [unlisten_eq (l := { src := x.id, owner := t.id, role := .tablet })
      ((h.at_ t ht).heard _ rfl (by simp) ⟨Or.inl k, c, rfl⟩) rfl rfl rfl]
    exact ((dropPtr_mv h ht c).weak (fun _ e => e) (fun _ _ => trivial)).trans
      ((tpResume_mv _ _ _).weak (fun _ _ => trivial) (fun _ e => e))
  · exact Mv.refl _ _ _

theorem tpNoLid_mv {s : St} {t x : Info} (h : Safe s) (ht : t ∈ s.devs) (k : t.kind = .touchpad) :
    Mv s (tpNoLid s t x) (· ≠ x.id) (· ≠ t.id) := by
  unfold tpNoLid
  split
  · rename_i c
    have a := h.at_ t ht
    rw [unlisten_eq (l := { src := x.id, owner := t.id, role := .lid })
      (a.heard _ rfl (by simp) ⟨k, c, rfl⟩) rfl rfl rfl]
    have L : Loc s ((s.drop t.id .lid 0).upd t.id fun m => { m with lid := none }) t.id :=
      (Loc.drop s t.id .lid 0).trans (Loc.upd _ t.id _)
    have m : Mv s ((s.drop t.id .lid 0).upd t.id fun m => { m with lid := none }) (· ≠ x.id) All := by
      refine Mv.unset L ?_ ?_ ?_ ?_ ?_ rfl
      · intro l hl hs
        rw [upd_lst, mem_drop]
        refine ⟨hl, ?_⟩
        rintro ⟨h1, h2, h3⟩
        have := a.own l hl h1
        unfold Entry at this; rw [h2] at this
        rw [c] at this
        exact hs (Option.some.inj this.2.1).symm
      · intro o b y _ hb hy hp
        rw [upd_self]
        show Partner { s.mem t.id with lid := none } o b y
        cases b <;> first | exact hp | simp_all [Partner]
      all_goals rw [upd_self]; rfl
    exact (m.weak (fun _ e => e) (fun _ _ => trivial)).trans
      ((tpResume_mv _ _ _).weak (fun _ _ => trivial) (fun _ e => e))
  · exact Mv.refl _ _ _

theorem tpNoPen_mv (s : St) (t x : Info) : Mv s (tpNoPen s t x) All All := by
  unfold tpNoPen; split
  · exact Mv.upd _ _ _ _ (fun _ => rfl) (fun _ => rfl) (fun _ => rfl) (fun _ => rfl) (fun _ => rfl) (fun _ => rfl) (fun _ _ _ _ => rfl)
  · exact Mv.refl _ _ _

theorem kbds_uni {K : List (Nat × Nat)} (hK : (K.map Prod.fst).Nodup) {n u v : Nat} (hu : (n, u) ∈ K) (hv : (n, v) ∈ K) : u = v := by
  induction K with
  | nil => cases hu
  | cons c K ih =>
    simp only [List.map_cons, List.nodup_cons] at hK
    rcases List.mem_cons.mp hu with rfl | hu' <;> rcases List.mem_cons.mp hv with hv' | hv'
    · exact (congrArg Prod.snd hv').symm
    · exact absurd (List.mem_map_of_mem (f := Prod.fst) hv') hK.1
    · subst hv'; exact absurd (List.mem_map_of_mem (f := Prod.fst) hu') hK.1
    · exact ih hK.2 hu' hv'

theorem forget_mv {s s' : St} {d : Info} {x : Nat} {r : Role} (h : Safe s) (hd : d ∈ s.devs) (L : Loc s s' d.id)
    (hr : r = .typing ∨ r = .lidKey)
    (e3 : ∀ l, l ∈ s'.lst ↔ l ∈ s.lst ∧ ¬(l.owner = d.id ∧ l.role = r ∧
      ∃ k ∈ (s.mem d.id).kbds.filter (fun k => k.2 == x), l.ser = k.1))
    (e4 : s'.mem d.id = { s.mem d.id with kbds := (s.mem d.id).kbds.filter fun k => k.2 != x }) (e5 : s'.log = s.log) :
    Mv s s' (· ≠ x) All := by
  have a := h.at_ d hd
  refine Mv.unset L ?_ ?_ ?_ ?_ ?_ e5
  · intro l hl hs
    rw [e3]
    refine ⟨hl, ?_⟩
    rintro ⟨h1, h2, k, hk, e⟩
    have hk2 := List.mem_filter.mp hk
    have own := a.own l hl h1
    unfold Entry at own
    rw [h2] at own
    have hx : k.2 = x := by simpa using hk2.2
    have : (l.ser, l.src) ∈ (s.mem d.id).kbds := by
      rcases hr with rfl | rfl <;> exact own.2
    exact hs ((kbds_uni a.fst this (by rw [e]; exact hk2.1)).trans hx)
  · intro o b y _ hb hy hp
    rw [e4]
    have q : ∀ n, (n, y) ∈ (s.mem d.id).kbds → (n, y) ∈ (s.mem d.id).kbds.filter fun k => k.2 != x := by
      intro n hn
      exact List.mem_filter.mpr ⟨hn, by simpa using hy⟩
    cases b <;> first | exact hp | exact ⟨hp.1, hp.2.elim fun n hn => ⟨n, q n hn⟩⟩
  all_goals rw [e4]

theorem tpNoTyping_log (s : St) (t x : Info) : (tpNoTyping s t x).log = s.log := by
  unfold tpNoTyping
  dsimp only [upd_log]
  generalize (s.mem t.id).kbds.filter (fun k => k.2 == x.id) = ks
  induction ks generalizing s with
  | nil => rfl
  | cons k ks ih =>
    simp only [List.foldl_cons, upd_log] at ih ⊢
    rw [ih]; exact unlisten_log _ _ _ _

theorem fbNoKey_log (s : St) (d x : Info) : (fbNoKey s d x).log = s.log := by
  unfold fbNoKey
  dsimp only [upd_log]
  generalize (s.mem d.id).kbds.filter (fun k => k.2 == x.id) = ks
  induction ks generalizing s with
  | nil => rfl
  | cons k ks ih =>
    simp only [List.foldl_cons, upd_log] at ih ⊢
    rw [ih]; rfl

theorem tpRemoved_spec {s : St} {t x : Info} (h : Safe s) (ht : t ∈ s.devs) (k : t.kind = .touchpad) :
    Safe (tpRemoved s t x) ∧ Mv s (tpRemoved s t x) (· ≠ x.id) (· ≠ t.id) := by
  unfold tpRemoved
  have a1 := tpNoStick_spec (x := x) h ht k
  have m1 := (tpNoStick_mv (x := x) h ht k).weak (K' := (· ≠ x.id)) (S' := (· ≠ t.id)) (fun _ e => e) (fun _ _ => trivial)
  revert a1 m1; generalize tpNoStick s t x = s1; intro a1 m1
  have a2 := tpNoTyping_spec (x := x) a1.1 (m1.devs ▸ ht) k
  have m2 := m1.trans ((forget_mv a1.1 (m1.devs ▸ ht) a2.2.1 (Or.inl rfl) a2.2.2.1 a2.2.2.2 (tpNoTyping_log _ _ _)).weak
    (fun _ e => e) (fun _ _ => trivial))
  revert a2 m2; generalize tpNoTyping s1 t x = s2; intro a2 m2
  have a3 := tpNoLid_spec (x := x) a2.1 (m2.devs ▸ ht) k
  have m3 := m2.trans (tpNoLid_mv a2.1 (m2.devs ▸ ht) k)
  revert a3 m3; generalize tpNoLid s2 t x = s3; intro a3 m3
  have a4 := tpNoTablet_spec (x := x) a3.1 (m3.devs ▸ ht) k
  have m4 := m3.trans (tpNoTablet_mv a3.1 (m3.devs ▸ ht) k)
  revert a4 m4; generalize tpNoTablet s3 t x = s4; intro a4 m4
  exact ⟨(tpNoPen_spec a4.1 (m4.devs ▸ ht)).1, m4.trans ((tpNoPen_mv _ _ _).weak (fun _ _ => trivial) (fun _ _ => trivial))⟩

theorem fbRemoved_spec {s : St} {d x : Info} (h : Safe s) (hd : d ∈ s.devs) (k : d.kind = .fallback) :
    Safe (fbRemoved s d x) ∧ Mv s (fbRemoved s d x) (· ≠ x.id) All := by
  unfold fbRemoved
  have a1 := fbNoKey_spec (x := x) h hd k
  have m1 := forget_mv h hd a1.2.1 (Or.inr rfl) a1.2.2.1 a1.2.2.2 (fbNoKey_log _ _ _)
  exact ⟨(fbNoTablet_spec a1.1 (m1.devs ▸ hd)).1, m1.trans (fbNoTablet_mv a1.1 (m1.devs ▸ hd))⟩

end Libinput.Pairing
