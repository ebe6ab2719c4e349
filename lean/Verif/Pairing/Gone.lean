import Verif.Pairing.Inv
/-!
When a device goes, nobody holds on to it.
-/
namespace Libinput.Pairing
open Spec

/-- Nobody begins to hold on to `x`. -/
def Less (s s' : St) (x : Nat) : Prop := ∀ (o : Info) b, Partner (s'.mem o.id) o b x → Partner (s.mem o.id) o b x

theorem Less.refl (s : St) (x : Nat) : Less s s x := fun _ _ h => h
theorem Less.trans {a b c : St} {x : Nat} (h : Less a b x) (k : Less b c x) : Less a c x := fun o r p => h o r (k o r p)

theorem Less.of_mem {s s' : St} {x : Nat} (e : s'.mem = s.mem) : Less s s' x := by intro o b p; rw [e] at p; exact p

theorem Less.upd (s : St) (i x : Nat) (f : Dyn → Dyn)
    (h : ∀ (o : Info) b, o.id = i → Partner (f (s.mem i)) o b x → Partner (s.mem i) o b x) : Less s (s.upd i f) x := by
  intro o b p
  by_cases e : o.id = i
  · rw [e, upd_self] at p
    rw [e]; exact h o b e p
  · rw [upd_ne _ _ e] at p; exact p

theorem totemRemoved_less (s : St) (d y : Info) (x : Nat) : Less s (totemRemoved s d y) x := by
  unfold totemRemoved; split
  · refine Less.upd _ _ _ _ ?_
    intro o b _ p; cases b <;> simp_all [Partner]
  · exact Less.refl _ _

theorem totemAdded_less (s : St) (d y : Info) (x : Nat) (n : y.id ≠ x) : Less s (totemAdded s d y) x := by
  unfold totemAdded; (repeat' (split; exact Less.refl _ _))
  refine Less.upd _ _ _ _ ?_
  intro o b _ p; cases b <;> simp_all [Partner]

theorem fold_less {f : St → Info → St} {x : Nat} (hf : ∀ s d, Less s (f s d) x) : ∀ (ds : List Info) (s : St), Less s (ds.foldl f s) x := by
  intro ds
  induction ds with
  | nil => intro s; exact Less.refl _ _
  | cons d ds ih => intro s; exact (hf s d).trans (ih _)

theorem flag_less (s : St) (i x : Nat) (b : Bool) : Less s (s.upd i fun m => { m with suspended := b }) x := by
  refine Less.upd _ _ _ _ ?_
  intro o b _ p; cases b <;> exact p

theorem why_less (s : St) (i x : Nat) (v : Bool) (w : Why) : Less s (s.upd i fun m => m.why v w) x := by
  refine Less.upd _ _ _ _ ?_
  intro o b _ p; cases b <;> cases w <;> exact p

theorem tpOn_less (s : St) (t : Info) (x : Nat) (n : t.id ≠ x) : Less s (tpOn s t) x := by
  unfold tpOn
  split
  · refine Less.trans (fold_less ?_ _ _) (flag_less _ _ _ _)
    intro s d
    split
    · exact totemAdded_less _ _ _ _ n
    · exact Less.refl _ _
  · exact Less.refl _ _

theorem tpResume_less (s : St) (t : Info) (w : Why) (x : Nat) (n : t.id ≠ x) : Less s (tpResume s t w) x := by
  unfold tpResume; dsimp only; split
  · exact why_less _ _ _ _ _
  · exact (why_less _ _ _ _ _).trans (tpOn_less _ _ _ n)

theorem tpNoStick_less (s : St) (t x : Info) : Less s (tpNoStick s t x) x.id ∧
    ¬ Partner ((tpNoStick s t x).mem t.id) t .stick x.id := by
  unfold tpNoStick
  split
  · refine ⟨Less.trans (b := if t.monitor = true then s.unlisten t.id .stick 0 else s) (Less.of_mem ?_) (Less.upd _ _ _ _ ?_), ?_⟩
    · split
      · exact unlisten_mem _ _ _ _
      · rfl
    · intro o b _ p; cases b <;> simp_all [Partner]
    · rw [upd_self]; simp [Partner]
  · rename_i c
    exact ⟨Less.refl _ _, fun p => c p.2⟩

theorem fold_mem {f : St → (Nat × Nat) → St} (hf : ∀ s k, (f s k).mem = s.mem) : ∀ (ks : List (Nat × Nat)) (s : St), (ks.foldl f s).mem = s.mem := by
  intro ks
  induction ks with
  | nil => intro s; rfl
  | cons k ks ih => intro s; exact (ih _).trans (hf s k)

theorem tpNoTyping_less (s : St) (t x : Info) : Less s (tpNoTyping s t x) x.id ∧
    ¬ Partner ((tpNoTyping s t x).mem t.id) t .typing x.id := by
  unfold tpNoTyping
  dsimp only
  have e := fold_mem (f := fun s k => { s.unlisten t.id .typing k.1 with heap := s.heap.filter fun n => n != k.1 })
    (fun s k => unlisten_mem _ _ _ _) ((s.mem t.id).kbds.filter fun k => k.2 == x.id) s
  refine ⟨(Less.of_mem e).trans (Less.upd _ _ _ _ ?_), ?_⟩
  · intro o b _ p
    cases b <;> first | exact p | exact ⟨p.1, p.2.elim fun n h => ⟨n, (List.mem_filter.mp h).1⟩⟩
  · rw [upd_self]
    rintro ⟨_, n, h⟩
    have := (List.mem_filter.mp h).2
    simp at this

theorem fbNoKey_less (s : St) (d x : Info) : Less s (fbNoKey s d x) x.id ∧
    ¬ Partner ((fbNoKey s d x).mem d.id) d .lidKey x.id := by
  unfold fbNoKey
  dsimp only
  have e := fold_mem (f := fun s k => { s.drop d.id .lidKey k.1 with heap := s.heap.filter fun n => n != k.1 })
    (fun s k => rfl) ((s.mem d.id).kbds.filter fun k => k.2 == x.id) s
  refine ⟨(Less.of_mem e).trans (Less.upd _ _ _ _ ?_), ?_⟩
  · intro o b _ p
    cases b <;> first | exact p | exact ⟨p.1, p.2.elim fun n h => ⟨n, (List.mem_filter.mp h).1⟩⟩
  · rw [upd_self]
    rintro ⟨_, n, h⟩
    have := (List.mem_filter.mp h).2
    simp at this

theorem tpNoLid_less (s : St) (t x : Info) (n : t.id ≠ x.id) : Less s (tpNoLid s t x) x.id ∧
    ¬ Partner ((tpNoLid s t x).mem t.id) t .lid x.id := by
  unfold tpNoLid
  split
  · have a : Less s ((s.unlisten t.id .lid 0).upd t.id fun m => { m with lid := none }) x.id :=
      (Less.of_mem (unlisten_mem _ _ _ _)).trans (Less.upd _ _ _ _ (by intro o b _ p; cases b <;> simp_all [Partner]))
    have b := tpResume_less ((s.unlisten t.id .lid 0).upd t.id fun m => { m with lid := none }) t .lid x.id n
    refine ⟨a.trans b, fun p => ?_⟩
    have := b t .lid p
    rw [upd_self] at this
    simp [Partner] at this
  · rename_i c
    exact ⟨Less.refl _ _, fun p => c p.2⟩

theorem tpNoTablet_less (s : St) (t x : Info) (n : t.id ≠ x.id) : Less s (tpNoTablet s t x) x.id ∧
    ¬ Partner ((tpNoTablet s t x).mem t.id) t .tablet x.id := by
  unfold tpNoTablet
  split
  · have a : Less s ((s.unlisten t.id .tablet 0).upd t.id fun m => { m with tablet := none }) x.id :=
      (Less.of_mem (unlisten_mem _ _ _ _)).trans (Less.upd _ _ _ _ (by intro o b _ p; cases b <;> simp_all [Partner]))
    have b := tpResume_less ((s.unlisten t.id .tablet 0).upd t.id fun m => { m with tablet := none }) t .tablet x.id n
    refine ⟨a.trans b, fun p => ?_⟩
    have := b t .tablet p
    rw [upd_self] at this
    simp [Partner] at this
  · rename_i c
    exact ⟨Less.refl _ _, fun p => c p.2⟩

theorem fbNoTablet_less (s : St) (d x : Info) : Less s (fbNoTablet s d x) x.id ∧
    ¬ Partner ((fbNoTablet s d x).mem d.id) d .tablet x.id := by
  unfold fbNoTablet
  split
  · refine ⟨Less.trans (b := s.drop d.id .tablet 0) (Less.of_mem rfl) (Less.upd _ _ _ _ ?_), ?_⟩
    · intro o b _ p; cases b <;> simp_all [Partner]
    · rw [upd_self]; simp [Partner]
  · rename_i c
    exact ⟨Less.refl _ _, fun p => c p.2⟩

theorem tpNoPen_less (s : St) (t x : Info) : Less s (tpNoPen s t x) x.id ∧
    ¬ Partner ((tpNoPen s t x).mem t.id) t .pen x.id := by
  unfold tpNoPen
  split
  · refine ⟨Less.upd _ _ _ _ ?_, ?_⟩
    · intro o b _ p; cases b <;> simp_all [Partner]
    · rw [upd_self]; simp [Partner]
  · rename_i c
    exact ⟨Less.refl _ _, fun p => c p.2⟩

theorem tabletRemoved_less (s : St) (d x : Info) : Less s (tabletRemoved s d x) x.id ∧
    (∀ b, d.kind = .tablet → ¬ Partner ((tabletRemoved s d x).mem d.id) d b x.id) := by
  unfold tabletRemoved
  dsimp only
  have h1 : Less s (if (s.mem d.id).touch = some x.id then s.upd d.id fun m => { m with touch := none } else s) x.id ∧
      ¬ ((if (s.mem d.id).touch = some x.id then s.upd d.id fun m => { m with touch := none } else s).mem d.id).touch = some x.id := by
    split
    · refine ⟨Less.upd _ _ _ _ ?_, by rw [upd_self]; simp⟩
      intro o b _ p; cases b <;> simp_all [Partner]
    · rename_i c; exact ⟨Less.refl _ _, c⟩
  revert h1
  generalize (if (s.mem d.id).touch = some x.id then s.upd d.id fun m => { m with touch := none } else s) = s1
  intro ⟨l1, n1⟩
  split
  · refine ⟨l1.trans (Less.upd _ _ _ _ ?_), ?_⟩
    · intro o b _ p; cases b <;> simp_all [Partner]
    · intro b k p
      rw [upd_self] at p
      cases b <;> simp_all [Partner]
  · rename_i c
    refine ⟨l1, ?_⟩
    intro b k p
    cases b <;> simp_all [Partner]

theorem tpRemoved_less (s : St) (t x : Info) (n : t.id ≠ x.id) (k : t.kind = .touchpad) : Less s (tpRemoved s t x) x.id ∧
    (∀ b, ¬ Partner ((tpRemoved s t x).mem t.id) t b x.id) := by
  unfold tpRemoved
  have a1 := tpNoStick_less s t x
  revert a1; generalize tpNoStick s t x = s1; intro a1
  have a2 := tpNoTyping_less s1 t x
  revert a2; generalize tpNoTyping s1 t x = s2; intro a2
  have a3 := tpNoLid_less s2 t x n
  revert a3; generalize tpNoLid s2 t x = s3; intro a3
  have a4 := tpNoTablet_less s3 t x n
  revert a4; generalize tpNoTablet s3 t x = s4; intro a4
  have a5 := tpNoPen_less s4 t x
  revert a5; generalize tpNoPen s4 t x = s5; intro a5
  refine ⟨a1.1.trans (a2.1.trans (a3.1.trans (a4.1.trans a5.1))), ?_⟩
  intro b p
  cases b
  case typing => exact a2.2 (a3.1 _ _ (a4.1 _ _ (a5.1 _ _ p)))
  case lidKey => exact absurd (k.symm.trans p.1) (by simp)
  case lid => exact a3.2 (a4.1 _ _ (a5.1 _ _ p))
  case tablet => exact a4.2 (a5.1 _ _ p)
  case stick => exact a1.2 (a2.1 _ _ (a3.1 _ _ (a4.1 _ _ (a5.1 _ _ p))))
  case pen => exact a5.2 p
  all_goals exact absurd (k.symm.trans p.1) (by simp)

theorem fbRemoved_less (s : St) (d x : Info) (k : d.kind = .fallback) : Less s (fbRemoved s d x) x.id ∧
    (∀ b, ¬ Partner ((fbRemoved s d x).mem d.id) d b x.id) := by
  unfold fbRemoved
  have a1 := fbNoKey_less s d x
  revert a1; generalize fbNoKey s d x = s1; intro a1
  have a2 := fbNoTablet_less s1 d x
  refine ⟨a1.1.trans a2.1, ?_⟩
  intro b p
  cases b
  case lidKey => exact a1.2 (a2.1 _ _ p)
  case tablet => exact a2.2 p
  all_goals exact absurd (k.symm.trans p.1) (by simp)

theorem suspendedReact_less (s : St) (d x : Info) (n : d.id ≠ x.id) : Less s (suspendedReact s d x) x.id ∧
    (d.kind ≠ .tablet → ∀ b, ¬ Partner ((suspendedReact s d x).mem d.id) d b x.id) := by
  unfold suspendedReact
  split
  · rename_i k; exact ⟨(fbRemoved_less s d x k).1, fun _ => (fbRemoved_less s d x k).2⟩
  · rename_i k; exact ⟨(tpRemoved_less s d x n k).1, fun _ => (tpRemoved_less s d x n k).2⟩
  · rename_i k
    refine ⟨totemRemoved_less _ _ _ _, ?_⟩
    intro _ b p
    unfold totemRemoved at p
    split at p
    · rw [upd_self] at p; cases b <;> simp_all [Partner]
    · cases b <;> simp_all [Partner]
  · rename_i k; exact ⟨Less.refl _ _, fun c => absurd k c⟩
  · rename_i k
    refine ⟨Less.refl _ _, ?_⟩
    intro _ b p
    cases b <;> simp_all [Partner]

theorem removedReact_less (s : St) (d x : Info) (n : d.id ≠ x.id) : Less s (removedReact s d x) x.id ∧
    (∀ b, ¬ Partner ((removedReact s d x).mem d.id) d b x.id) := by
  unfold removedReact
  split
  · rename_i k; exact ⟨(tabletRemoved_less s d x).1, fun b => (tabletRemoved_less s d x).2 b k⟩
  · rename_i k
    exact ⟨(suspendedReact_less s d x n).1, (suspendedReact_less s d x n).2 k⟩

/-- The loop of removing a device. -/
theorem removed_loop {x : Info} {D : List Info} :
    ∀ (ds : List Info) (s : St), (∀ d ∈ ds, d ∈ D ∧ d.id ≠ x.id) → Safe s → s.devs = D →
      Safe (ds.foldl (fun s d => removedReact s d x) s) ∧
      Mv s (ds.foldl (fun s d => removedReact s d x) s) (· ≠ x.id) (NT D) ∧
      Less s (ds.foldl (fun s d => removedReact s d x) s) x.id ∧
      ∀ d ∈ ds, ∀ b, ¬ Partner ((ds.foldl (fun s d => removedReact s d x) s).mem d.id) d b x.id := by
  intro ds
  induction ds with
  | nil => intro s _ h e; exact ⟨h, Mv.refl _ _ _, Less.refl _ _, fun d hd => absurd hd (by simp)⟩
  | cons d ds ih =>
    intro s hds h e
    obtain ⟨hd, n⟩ := hds d List.mem_cons_self
    have r := removedReact_spec (x := x) h (e ▸ hd)
    rw [e] at r
    have l := removedReact_less s d x n
    obtain ⟨i1, i2, i3, i4⟩ := ih (removedReact s d x) (fun d' h' => hds d' (List.mem_cons_of_mem _ h')) r.1 (r.2.devs.trans e)
    rw [List.foldl_cons]
    refine ⟨i1, r.2.trans i2, l.1.trans i3, ?_⟩
    intro d' hd' b p
    rcases List.mem_cons.mp hd' with rfl | hd'
    · exact l.2 b (i3 _ _ p)
    · exact i4 d' hd' b p

theorem suspendDev_less {s : St} {f : Info} : Less s (suspendDev s f) f.id := by
  unfold suspendDev
  split
  · exact Less.refl _ _
  · refine Less.trans ?_ (flag_less _ _ _ _)
    have : ∀ (ds : List Info) (s : St), (∀ d ∈ ds, d.id ≠ f.id) → Less s (ds.foldl (fun s d => suspendedReact s d f) s) f.id := by
      intro ds
      induction ds with
      | nil => intro s _; exact Less.refl _ _
      | cons d ds ih =>
        intro s h
        exact (suspendedReact_less s d f (h d List.mem_cons_self)).1.trans (ih _ fun d' h' => h d' (List.mem_cons_of_mem _ h'))
    exact this _ _ fun d hd => (others_mem.mp hd).2

/-- `leave` takes out the listeners of the device, and nothing else. -/
theorem leave_spec {s : St} {x : Info} (h : Safe s) (hx : x ∈ s.devs) :
    (leave s x).devs = s.devs ∧ (leave s x).ser = s.ser ∧ (leave s x).crashed = s.crashed ∧ (leave s x).log = s.log ∧
      (∀ o, o ≠ x.id → (leave s x).mem o = s.mem o) ∧ ∀ l, l ∈ (leave s x).lst ↔ l ∈ s.lst ∧ l.owner ≠ x.id := by
  have a := h.at_ x hx
  unfold leave
  split
  · rename_i k
    dsimp only
    obtain ⟨f1, f2, f3, f4, f5, f6⟩ := fold_drop x.id .lidKey
      (fun s k => { s.drop x.id .lidKey k.1 with heap := s.heap.filter fun n => n != k.1 })
      (((s.drop x.id .tablet 0).mem x.id).kbds) (s.drop x.id .tablet 0) a.fst
      (by intro s k hs; exact ⟨rfl, rfl, rfl, rfl, rfl, rfl⟩) (Or.inr rfl)
    refine ⟨f1, f3, f4, f5, ?_, ?_⟩
    · intro o ho; rw [upd_ne _ _ ho, f2]; rfl
    · intro l
      rw [upd_lst, f6, mem_drop]
      constructor
      · rintro ⟨⟨hl, c1⟩, c2⟩
        refine ⟨hl, fun ho => ?_⟩
        have := a.own l hl ho
        unfold Entry at this
        cases hr : l.role <;> rw [hr] at this
        · exact absurd (k.symm.trans this.1) (by simp)
        · exact c2 ⟨ho, hr, _, this.2, rfl⟩
        · exact absurd (k.symm.trans this.1) (by simp)
        · exact c1 ⟨ho, hr, this.2.2⟩
        · exact absurd (k.symm.trans this.1) (by simp)
      · rintro ⟨hl, c⟩
        exact ⟨⟨hl, fun e => c e.1⟩, fun e => c e.1⟩
  · rename_i k
    dsimp only
    -- the four steps, each of which finds its listener
    have h1 : ∃ s1, (if (s.mem x.id).stick.isSome && x.monitor then s.unlisten x.id .stick 0 else s) = s1 ∧
        s1.devs = s.devs ∧ s1.ser = s.ser ∧ s1.crashed = s.crashed ∧ s1.log = s.log ∧ s1.mem = s.mem ∧
        ∀ l, l ∈ s1.lst ↔ l ∈ s.lst ∧ ¬(l.owner = x.id ∧ l.role = .stick) := by
      refine ⟨_, rfl, ?_⟩
      split
      · rename_i c
        simp only [Bool.and_eq_true] at c
        obtain ⟨p, hp⟩ := Option.isSome_iff_exists.mp c.1
        rw [unlisten_eq (l := { src := p, owner := x.id, role := .stick }) (a.heard _ rfl (by simp) ⟨k, hp, rfl, c.2⟩) rfl rfl rfl]
        refine ⟨rfl, rfl, rfl, rfl, rfl, ?_⟩
        intro l
        rw [mem_drop]
        refine and_congr_right fun hl => not_congr ⟨fun e => ⟨e.1, e.2.1⟩, fun e => ⟨e.1, e.2, ?_⟩⟩
        have := a.own l hl e.1
        unfold Entry at this; rw [e.2] at this; exact this.2.2.1
      · rename_i c
        refine ⟨rfl, rfl, rfl, rfl, rfl, ?_⟩
        intro l
        refine ⟨fun hl => ⟨hl, fun e => c ?_⟩, fun e => e.1⟩
        have := a.own l hl e.1
        unfold Entry at this; rw [e.2] at this
        rw [this.2.1, this.2.2.2]; rfl
    obtain ⟨s1, e1, d1, n1, c1, g1, m1, l1⟩ := h1
    rw [e1]
    obtain ⟨f1, f2, f3, f4, f5, f6⟩ := fold_drop x.id .typing (fun s k => s.unlisten x.id .typing k.1)
      ((s1.mem x.id).kbds) s1 (by rw [m1]; exact a.fst)
      (by
        intro s k hs
        rcases hs with ⟨l, hl, e1, e2, e3⟩ | hs
        · rw [unlisten_eq hl e1 e2 e3]
          exact ⟨rfl, rfl, rfl, rfl, rfl, rfl⟩
        · simp at hs)
      (by
        left
        intro k' hk'
        rw [m1] at hk'
        exact ⟨{ src := k'.2, owner := x.id, role := .typing, ser := k'.1 },
          (l1 _).mpr ⟨a.heard _ rfl (by simp) ⟨k, hk'⟩, by simp⟩, rfl, rfl, rfl⟩)
    revert f1 f2 f3 f4 f5 f6
    generalize (s1.mem x.id).kbds.foldl (fun s k => s.unlisten x.id .typing k.1) s1 = s2
    intro f1 f2 f3 f4 f5 f6
    have l2 : ∀ l, l ∈ s2.lst ↔ l ∈ s.lst ∧ ¬(l.owner = x.id ∧ (l.role = .stick ∨ l.role = .typing)) := by
      intro l
      rw [f6, l1, m1]
      constructor
      · rintro ⟨⟨hl, u⟩, v⟩
        refine ⟨hl, ?_⟩
        rintro ⟨ho, hr | hr⟩
        · exact u ⟨ho, hr⟩
        · have := a.own l hl ho
          unfold Entry at this; rw [hr] at this
          exact v ⟨ho, hr, _, this.2, rfl⟩
      · rintro ⟨hl, u⟩
        exact ⟨⟨hl, fun e => u ⟨e.1, Or.inl e.2⟩⟩, fun e => u ⟨e.1, Or.inr e.2.1⟩⟩
    have m2 : s2.mem = s.mem := f2.trans m1
    have h3 : ∃ s3, (if (s2.mem x.id).lid.isSome then s2.unlisten x.id .lid 0 else s2) = s3 ∧
        s3.devs = s.devs ∧ s3.ser = s.ser ∧ s3.crashed = s.crashed ∧ s3.log = s.log ∧ s3.mem = s.mem ∧
        ∀ l, l ∈ s3.lst ↔ l ∈ s.lst ∧ ¬(l.owner = x.id ∧ (l.role = .stick ∨ l.role = .typing ∨ l.role = .lid)) := by
      refine ⟨_, rfl, ?_⟩
      rw [m2]
      split
      · rename_i c
        obtain ⟨p, hp⟩ := Option.isSome_iff_exists.mp c
        rw [unlisten_eq (s := s2) (l := { src := p, owner := x.id, role := .lid })
          ((l2 _).mpr ⟨a.heard _ rfl (by simp) ⟨k, hp, rfl⟩, by simp⟩) rfl rfl rfl]
        refine ⟨f1.trans d1, f3.trans n1, f4.trans c1, f5.trans g1, m2, ?_⟩
        intro l
        rw [mem_drop, l2]
        constructor
        · rintro ⟨⟨hl, u⟩, v⟩
          refine ⟨hl, ?_⟩
          rintro ⟨ho, hr | hr | hr⟩
          · exact u ⟨ho, Or.inl hr⟩
          · exact u ⟨ho, Or.inr hr⟩
          · have := a.own l hl ho
            unfold Entry at this; rw [hr] at this
            exact v ⟨ho, hr, this.2.2⟩
        · rintro ⟨hl, u⟩
          refine ⟨⟨hl, fun e => u ⟨e.1, ?_⟩⟩, fun e => u ⟨e.1, Or.inr (Or.inr e.2.1)⟩⟩
          rcases e.2 with r | r
          · exact Or.inl r
          · exact Or.inr (Or.inl r)
      · rename_i c
        refine ⟨f1.trans d1, f3.trans n1, f4.trans c1, f5.trans g1, m2, ?_⟩
        intro l
        rw [l2]
        constructor
        · rintro ⟨hl, u⟩
          refine ⟨hl, ?_⟩
          rintro ⟨ho, hr | hr | hr⟩
          · exact u ⟨ho, Or.inl hr⟩
          · exact u ⟨ho, Or.inr hr⟩
          · have := a.own l hl ho
            unfold Entry at this; rw [hr] at this
            exact c (by rw [this.2.1]; rfl)
        · rintro ⟨hl, u⟩
          refine ⟨hl, fun e => u ⟨e.1, ?_⟩⟩
          rcases e.2 with r | r
          · exact Or.inl r
          · exact Or.inr (Or.inl r)
    obtain ⟨s3, e3, d3, n3, c3, g3, m3, l3⟩ := h3
    rw [e3, m3]
    have notLidKey : ∀ l ∈ s.lst, l.owner = x.id → l.role ≠ .lidKey := by
      intro l hl ho hr
      have := a.own l hl ho
      unfold Entry at this; rw [hr] at this
      exact absurd (k.symm.trans this.1) (by simp)
    split
    · rename_i c
      obtain ⟨p, hp⟩ := Option.isSome_iff_exists.mp c
      rw [unlisten_eq (s := s3) (l := { src := p, owner := x.id, role := .tablet })
        ((l3 _).mpr ⟨a.heard _ rfl (by simp) ⟨Or.inl k, hp, rfl⟩, by simp⟩) rfl rfl rfl]
      refine ⟨d3, n3, c3, g3, fun o _ => congrFun m3 o, ?_⟩
      intro l
      rw [mem_drop, l3]
      constructor
      · rintro ⟨⟨hl, u⟩, v⟩
        refine ⟨hl, fun ho => ?_⟩
        have own := a.own l hl ho
        have nk := notLidKey l hl ho
        unfold Entry at own
        cases hr : l.role <;> rw [hr] at own
        · exact u ⟨ho, Or.inr (Or.inl hr)⟩
        · exact nk hr
        · exact u ⟨ho, Or.inr (Or.inr hr)⟩
        · exact v ⟨ho, hr, own.2.2⟩
        · exact u ⟨ho, Or.inl hr⟩
      · rintro ⟨hl, u⟩
        exact ⟨⟨hl, fun e => u e.1⟩, fun e => u e.1⟩
    · rename_i c
      refine ⟨d3, n3, c3, g3, fun o _ => congrFun m3 o, ?_⟩
      intro l
      rw [l3]
      constructor
      · rintro ⟨hl, u⟩
        refine ⟨hl, fun ho => ?_⟩
        have own := a.own l hl ho
        have nk := notLidKey l hl ho
        unfold Entry at own
        cases hr : l.role <;> rw [hr] at own
        · exact u ⟨ho, Or.inr (Or.inl hr)⟩
        · exact nk hr
        · exact u ⟨ho, Or.inr (Or.inr hr)⟩
        · exact c (by rw [own.2.1]; rfl)
        · exact u ⟨ho, Or.inl hr⟩
      · rintro ⟨hl, u⟩
        exact ⟨hl, fun e => u e.1⟩
  · rename_i k1 k2
    refine ⟨rfl, rfl, rfl, rfl, fun _ _ => rfl, ?_⟩
    intro l
    refine ⟨fun hl => ⟨hl, fun ho => ?_⟩, fun e => e.1⟩
    have := a.own l hl ho
    unfold Entry at this
    cases hr : l.role <;> rw [hr] at this
    · exact k2 this.1
    · exact k1 this.1
    · exact k2 this.1
    · exact this.1.elim k2 k1
    · exact k2 this.1

theorem removeDev_inv {A : List Info} {s : St} {x : Info} (h : Inv A s) (hx : x ∈ s.devs) :
    Inv A (removeDev s x) ∧ (removeDev s x).devs = s.devs.filter fun d => d.id != x.id := by
  unfold removeDev
  dsimp only
  obtain ⟨i1, i2, i3, i4⟩ := removed_loop (x := x) (D := s.devs) (s.others x.id) s (fun d hd => others_mem.mp hd) h.safe rfl
  revert i1 i2 i3 i4
  generalize (s.others x.id).foldl (fun s d => removedReact s d x) s = s1
  intro i1 i2 i3 i4
  have hx1 : x ∈ s1.devs := i2.devs ▸ hx
  obtain ⟨j1, j2, j3⟩ := suspendDev_spec i1 hx1
  have j4 : Less s1 (suspendDev s1 x) x.id := suspendDev_less
  revert j1 j2 j3 j4
  generalize suspendDev s1 x = s2
  intro j1 j2 j3 j4
  have hx2 : x ∈ s2.devs := j2.devs ▸ hx1
  obtain ⟨k1, k2, k3, k4, k5, k6⟩ := leave_spec j1 hx2
  revert k1 k2 k3 k4 k5 k6
  generalize leave s2 x = s3
  intro k1 k2 k3 k4 k5 k6
  have e : s3.devs = s.devs := k1.trans (j2.devs.trans i2.devs)
  have e2 : s2.devs = s.devs := j2.devs.trans i2.devs
  have inD : ∀ o, o ∈ s3.devs.filter (fun d => d.id != x.id) ↔ o ∈ s.devs ∧ o.id ≠ x.id := by
    intro o; rw [e]; simp
  have unref : ∀ o ∈ s.devs, o.id ≠ x.id → ∀ b, ¬ Partner (s2.mem o.id) o b x.id := by
    intro o ho n b p
    exact i4 o (others_mem.mpr ⟨ho, n⟩) b (j4 _ _ p)
  refine ⟨⟨⟨?_, ?_, ?_, ?_, ?_⟩, ?_, ?_⟩, by rw [e]⟩
  · exact k3.trans j1.fine
  · show ((s3.devs.filter fun d => d.id != x.id).map Info.id).Nodup
    rw [e]
    exact List.Sublist.nodup (List.Sublist.map _ List.filter_sublist) h.safe.ids
  · intro d hd
    exact h.safe.real d ((inD d).mp hd).1
  · intro l hl
    obtain ⟨hl2, n⟩ := (k6 l).mp hl
    obtain ⟨o, ho, eo⟩ := j1.owner l hl2
    exact ⟨o, (inD o).mpr ⟨e2 ▸ ho, by rw [eo]; exact n⟩, eo⟩
  · intro o ho
    obtain ⟨ho', n⟩ := (inD o).mp ho
    have a := j1.at_ o (e2 ▸ ho')
    have em : s3.mem o.id = s2.mem o.id := k5 _ n
    refine ⟨?_, ?_, ?_, ?_, ?_⟩
    · intro l hl hlo
      show Entry (s3.mem o.id) o l
      rw [em]; exact a.own l ((k6 l).mp hl).1 hlo
    · intro b y p
      have p' : Partner (s2.mem o.id) o b y := em ▸ p
      obtain ⟨X, hX, eX, nX, bX⟩ := a.bel b y p'
      refine ⟨X, (inD X).mpr ⟨e2 ▸ hX, ?_⟩, eX, nX, bX⟩
      intro c
      rw [← eX, c] at p'
      exact unref o ho' n b p'
    · intro l hlo hr he
      have he' : Entry (s2.mem o.id) o l := em ▸ he
      exact (k6 l).mpr ⟨a.heard l hlo hr he', by rw [hlo]; exact n⟩
    · show ((s3.mem o.id).kbds.map Prod.fst).Nodup
      rw [em]; exact a.fst
    · show ∀ k ∈ (s3.mem o.id).kbds, k.1 < s3.ser
      rw [em, k2]; exact a.lt
  · intro b o y hbb ho hy n hb hs hy'
    obtain ⟨ho', no⟩ := (inD o).mp ho
    obtain ⟨hyD, ny⟩ := (inD y).mp hy
    show Partner (s3.mem o.id) o b y.id
    have hy3 : (s3.mem y.id).suspended = false := hy'
    rw [k5 _ ny] at hy3
    rw [k5 _ no]
    have ky := bel_fallback hbb hb (h.safe.real y hyD)
    have nt : NT s.devs y.id := h.safe.nt hyD (by rw [ky]; simp)
    rw [j2.susp y.id ⟨ny, by rw [i2.devs]; exact nt⟩, i2.susp y.id nt] at hy3
    exact (j2.keep y.id ny).part o b hbb ((i2.keep y.id ny).part o b hbb (h.full b o y hbb ho' hyD n hb hs hy3))
  · intro d hd
    exact h.sub d ((inD d).mp hd).1

theorem setMode_inv {A : List Info} {s : St} {x : Info} (h : Inv A s) (hx : x ∈ s.devs) (v : Bool) :
    Inv A (setMode s x v) ∧ (setMode s x v).devs = s.devs := by
  unfold setMode
  split
  · exact ⟨h, rfl⟩
  · have key : ∀ s1, Inv A s1 → s1.devs = s.devs → Inv A (s1.upd x.id fun m => { m with disabled := v }) ∧
        (s1.upd x.id fun m => { m with disabled := v }).devs = s.devs := by
      intro s1 i e
      exact ⟨i.flag (d := x) (e ▸ hx) (fun _ => rfl) (fun _ => rfl) (fun _ => rfl) (fun _ => rfl) (fun _ => rfl) (fun _ => rfl)
        (fun _ => rfl) (fun _ => rfl), e⟩
    dsimp only
    split
    · rename_i k
      split
      · exact key _ (tpSuspend_inv h hx k _) (tpSuspend_mv _ _ _).devs
      · exact key _ (tpResume_inv h hx k _) (tpResume_mv _ _ _).devs
    · exact key _ h rfl
    · split
      · exact key _ (suspendDev_inv h hx) (suspendDev_spec h.safe hx).2.1.devs
      · exact key _ (resumeDev_inv h hx) (resumeDev_spec h.safe hx h.sub h.full).2.1

theorem event_inv {A : List Info} {s : St} {id : Nat} {ok : Info → Bool} {f : St → St} (h : Inv A s)
    (hf : ∀ x ∈ s.devs, x.id = id → x.kind = .fallback → Inv A (f s) ∧ (f s).devs = s.devs) :
    Inv A (event s id ok f) ∧ (event s id ok f).devs = s.devs := by
  unfold event
  split
  · exact ⟨h, rfl⟩
  · rename_i x e
    have := find_some e
    split
    · rename_i c
      exact hf x this.1 this.2 c.1
    · exact ⟨h, rfl⟩

/-- The devices after one more operation. -/
def hereStep (D : List Info) (op : Op) : List Info :=
  match op with
  | .add x => if D.any (fun d => d.id == x.id) then D else D ++ [x]
  | .remove i => D.filter fun d => d.id != i
  | _ => D

theorem step_inv {A : List Info} (M : Machine A) {s : St} {op : Op} (h : Inv A s) (hop : ∀ x, op = .add x → x ∈ A) :
    Inv A (step s op) ∧ (step s op).devs = hereStep s.devs op := by
  unfold step
  rw [if_neg (by rw [h.safe.fine]; simp)]
  dsimp only
  have h0 := h.log []
  have e0 : ({ s with log := [] } : St).devs = s.devs := rfl
  revert h0 e0
  generalize ({ s with log := [] } : St) = s0
  intro h0 e0
  rw [← e0]
  cases op with
  | add x =>
    dsimp only [hereStep]
    have key : (s0.find x.id).isSome = s0.devs.any (fun d => d.id == x.id) := by
      rw [Bool.eq_iff_iff, List.any_eq_true]
      unfold St.find; exact List.find?_isSome
    rw [key]
    split
    · exact ⟨h0, rfl⟩
    · rename_i c
      refine addDev_inv M h0 ?_ (hop x rfl)
      intro d hd e
      exact c (List.any_eq_true.mpr ⟨d, hd, by simpa using e⟩)
  | remove i =>
    dsimp only [hereStep]
    split
    · rename_i c
      refine ⟨h0, ?_⟩
      unfold St.find at c
      rw [List.find?_eq_none] at c
      exact (List.filter_eq_self.mpr fun d hd => by simpa using c d hd).symm
    · rename_i x c
      have := find_some c
      rw [← this.2]
      exact removeDev_inv h0 this.1
  | mode i v =>
    dsimp only [hereStep]
    split
    · exact ⟨h0, rfl⟩
    · rename_i x c
      exact setMode_inv h0 (find_some c).1 v
  | lid i v =>
    exact event_inv h0 fun x hx e k => e ▸ lidEvent_inv h0 hx k v
  | tablet i v =>
    exact event_inv h0 fun x hx e k => e ▸ tabletEvent_inv M h0 hx v
  | key i => exact event_inv h0 fun x hx e k => post_inv M _ _ h0
  | pointer i => exact event_inv h0 fun x hx e k => post_inv M _ _ h0

theorem init_inv (A : List Info) : Inv A {} := by
  refine ⟨⟨rfl, by simp, ?_, ?_, ?_⟩, ?_, ?_⟩
  · intro d hd; cases hd
  · intro l hl; cases hl
  · intro o ho; cases ho
  · intro b o x _ ho; cases ho
  · intro d hd; cases hd

theorem mem_adds {op : Op} {ops : List Op} {x : Info} (h : op ∈ ops) (e : op = .add x) : x ∈ adds ops := by
  induction ops with
  | nil => cases h
  | cons o ops ih =>
    rcases List.mem_cons.mp h with rfl | h
    · subst e; simp [adds]
    · have := ih h
      cases o <;> simp [adds, this]

theorem run_inv {A : List Info} (M : Machine A) : ∀ (ops : List Op) (s : St), Inv A s → (∀ x ∈ adds ops, x ∈ A) →
    Inv A (run s ops) ∧ (run s ops).devs = ops.foldl hereStep s.devs := by
  intro ops
  induction ops with
  | nil => intro s h _; exact ⟨h, rfl⟩
  | cons op ops ih =>
    intro s h hA
    have a := step_inv M (op := op) h (fun x e => hA x (mem_adds List.mem_cons_self e))
    have b := ih (step s op) a.1 (fun x hx => hA x (by cases op <;> simp [adds, hx]))
    unfold run at b ⊢
    rw [List.foldl_cons, List.foldl_cons, ← a.2]
    exact b

/-- After any history of a machine. -/
theorem history {ops : List Op} (M : Machine (adds ops)) : Inv (adds ops) (run {} ops) ∧ (run {} ops).devs = here ops :=
  run_inv M ops {} (init_inv _) (fun _ h => h)

end Libinput.Pairing
