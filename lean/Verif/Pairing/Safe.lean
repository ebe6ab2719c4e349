import Verif.Pairing.Spec
/-!
The invariant: what a device holds on to is there and belongs to it, and it listens just to that.
-/
namespace Libinput.Pairing
open Spec

/-- The listener is for something that `o` holds on to. -/
def Entry (m : Dyn) (o : Info) (l : Listener) : Prop :=
  match l.role with
  | .typing => o.kind = .touchpad ∧ (l.ser, l.src) ∈ m.kbds
  | .lidKey => o.kind = .fallback ∧ (l.ser, l.src) ∈ m.kbds
  | .lid => o.kind = .touchpad ∧ m.lid = some l.src ∧ l.ser = 0
  | .tablet => (o.kind = .touchpad ∨ o.kind = .fallback) ∧ m.tablet = some l.src ∧ l.ser = 0
  | .stick => o.kind = .touchpad ∧ m.stick = some l.src ∧ l.ser = 0 ∧ o.monitor = true

/-- The invariant for one device. -/
structure At (s : St) (o : Info) : Prop where
  own : ∀ l ∈ s.lst, l.owner = o.id → Entry (s.mem o.id) o l
  bel : ∀ b x, Partner (s.mem o.id) o b x → ∃ X ∈ s.devs, X.id = x ∧ X.id ≠ o.id ∧ Bel b o X
  heard : ∀ l, l.owner = o.id → l.role ≠ .lidKey → Entry (s.mem o.id) o l → l ∈ s.lst
  fst : ((s.mem o.id).kbds.map Prod.fst).Nodup
  lt : ∀ k ∈ (s.mem o.id).kbds, k.1 < s.ser

structure Safe (s : St) : Prop where
  fine : s.crashed = false
  ids : (s.devs.map Info.id).Nodup
  real : ∀ d ∈ s.devs, Real d
  owner : ∀ l ∈ s.lst, ∃ o ∈ s.devs, o.id = l.owner
  at_ : ∀ o ∈ s.devs, At s o

/-- Only what belongs to `d` changes. -/
structure Loc (s s' : St) (d : Nat) : Prop where
  devs : s'.devs = s.devs
  ser : s.ser ≤ s'.ser
  mem : ∀ o, o ≠ d → s'.mem o = s.mem o
  lst : ∀ l, l.owner ≠ d → (l ∈ s'.lst ↔ l ∈ s.lst)
  fine : s'.crashed = s.crashed

theorem Safe.inj {s : St} (h : Safe s) {a b : Info} (ha : a ∈ s.devs) (hb : b ∈ s.devs) (e : a.id = b.id) : a = b := by
  have hn := h.ids
  revert ha hb hn
  generalize s.devs = D
  intro ha hb hn
  induction D with
  | nil => cases ha
  | cons c D ih =>
    simp only [List.map_cons, List.nodup_cons] at hn
    rcases List.mem_cons.mp ha with rfl | ha' <;> rcases List.mem_cons.mp hb with rfl | hb'
    · rfl
    · exact absurd (e ▸ List.mem_map_of_mem hb') hn.1
    · exact absurd (e ▸ List.mem_map_of_mem ha') hn.1
    · exact ih ha' hb' hn.2

theorem Loc.safe {s s' : St} {d : Info} (h : Safe s) (hd : d ∈ s.devs) (L : Loc s s' d.id) (A : At s' d) : Safe s' where
  fine := L.fine.trans h.fine
  ids := by rw [L.devs]; exact h.ids
  real := by rw [L.devs]; exact h.real
  owner := by
    intro l hl
    rw [L.devs]
    by_cases e : l.owner = d.id
    · exact ⟨d, hd, e.symm⟩
    · exact h.owner l ((L.lst l e).mp hl)
  at_ := by
    intro o ho
    rw [L.devs] at ho
    by_cases e : o.id = d.id
    · rw [h.inj ho hd e]; exact A
    · have a := h.at_ o ho
      refine ⟨?_, ?_, ?_, ?_, ?_⟩
      · intro l hl hlo
        rw [L.mem _ e]
        exact a.own l ((L.lst l (hlo ▸ e)).mp hl) hlo
      · intro b x hp
        rw [L.mem _ e] at hp
        rw [L.devs]
        exact a.bel b x hp
      · intro l hlo hr he
        rw [L.mem _ e] at he
        exact (L.lst l (hlo ▸ e)).mpr (a.heard l hlo hr he)
      · rw [L.mem _ e]; exact a.fst
      · intro k hk
        rw [L.mem _ e] at hk
        exact Nat.lt_of_lt_of_le (a.lt k hk) L.ser

theorem Loc.refl (s : St) (d : Nat) : Loc s s d := ⟨rfl, Nat.le_refl _, fun _ _ => rfl, fun _ _ => Iff.rfl, rfl⟩

theorem Loc.trans {a b c : St} {d : Nat} (h : Loc a b d) (k : Loc b c d) : Loc a c d :=
  ⟨k.devs.trans h.devs, Nat.le_trans h.ser k.ser, fun o ho => (k.mem o ho).trans (h.mem o ho),
    fun l hl => (k.lst l hl).trans (h.lst l hl), k.fine.trans h.fine⟩

@[simp] theorem upd_devs (s : St) (i : Nat) (f) : (s.upd i f).devs = s.devs := rfl
@[simp] theorem upd_lst (s : St) (i : Nat) (f) : (s.upd i f).lst = s.lst := rfl
@[simp] theorem upd_ser (s : St) (i : Nat) (f) : (s.upd i f).ser = s.ser := rfl
@[simp] theorem upd_heap (s : St) (i : Nat) (f) : (s.upd i f).heap = s.heap := rfl
@[simp] theorem upd_log (s : St) (i : Nat) (f) : (s.upd i f).log = s.log := rfl
@[simp] theorem upd_crashed (s : St) (i : Nat) (f) : (s.upd i f).crashed = s.crashed := rfl
@[simp] theorem upd_self (s : St) (i : Nat) (f) : (s.upd i f).mem i = f (s.mem i) := by simp [St.upd]
theorem upd_ne (s : St) {i j : Nat} (f) (h : j ≠ i) : (s.upd i f).mem j = s.mem j := by simp [St.upd, h]

theorem Loc.upd (s : St) (d : Nat) (f : Dyn → Dyn) : Loc s (s.upd d f) d :=
  ⟨rfl, Nat.le_refl _, fun _ h => upd_ne s f h, fun _ _ => Iff.rfl, rfl⟩

/-- A change that leaves the bonds alone. -/
theorem At.flag {s : St} {o : Info} (h : At s o) {f : Dyn → Dyn} (hk : ∀ m, (f m).kbds = m.kbds) (hl : ∀ m, (f m).lid = m.lid)
    (ht : ∀ m, (f m).tablet = m.tablet) (hs : ∀ m, (f m).stick = m.stick) (hp : ∀ m, (f m).pen = m.pen)
    (hu : ∀ m, (f m).touch = m.touch) (hr : ∀ m, (f m).turned = m.turned) : At (s.upd o.id f) o := by
  have hE : ∀ l, Entry (f (s.mem o.id)) o l ↔ Entry (s.mem o.id) o l := by
    intro l; simp only [Entry, hk, hl, ht, hs]
  have hP : ∀ b x, Partner (f (s.mem o.id)) o b x ↔ Partner (s.mem o.id) o b x := by
    intro b x; cases b <;> simp only [Partner, hk, hl, ht, hs, hp, hu, hr]
  refine ⟨?_, ?_, ?_, ?_, ?_⟩
  · intro l a b; rw [upd_self, hE]; exact h.own l a b
  · intro b x a; rw [upd_self, hP] at a; exact h.bel b x a
  · intro l a b c; rw [upd_self, hE] at c; exact h.heard l a b c
  · rw [upd_self, hk]; exact h.fst
  · rw [upd_self, hk]; exact h.lt

theorem Safe.flag {s : St} {d : Info} (h : Safe s) (hd : d ∈ s.devs) {f : Dyn → Dyn} (hk : ∀ m, (f m).kbds = m.kbds)
    (hl : ∀ m, (f m).lid = m.lid) (ht : ∀ m, (f m).tablet = m.tablet) (hs : ∀ m, (f m).stick = m.stick)
    (hp : ∀ m, (f m).pen = m.pen) (hu : ∀ m, (f m).touch = m.touch) (hr : ∀ m, (f m).turned = m.turned) :
    Safe (s.upd d.id f) :=
  (Loc.upd s d.id f).safe h hd ((h.at_ d hd).flag hk hl ht hs hp hu hr)

theorem why_kbds (m : Dyn) (b : Bool) (w : Why) : (m.why b w).kbds = m.kbds := by cases w <;> rfl
theorem why_lid (m : Dyn) (b : Bool) (w : Why) : (m.why b w).lid = m.lid := by cases w <;> rfl
theorem why_tablet (m : Dyn) (b : Bool) (w : Why) : (m.why b w).tablet = m.tablet := by cases w <;> rfl
theorem why_stick (m : Dyn) (b : Bool) (w : Why) : (m.why b w).stick = m.stick := by cases w <;> rfl
theorem why_pen (m : Dyn) (b : Bool) (w : Why) : (m.why b w).pen = m.pen := by cases w <;> rfl
theorem why_touch (m : Dyn) (b : Bool) (w : Why) : (m.why b w).touch = m.touch := by cases w <;> rfl
theorem why_turned (m : Dyn) (b : Bool) (w : Why) : (m.why b w).turned = m.turned := by cases w <;> rfl
theorem why_suspended (m : Dyn) (b : Bool) (w : Why) : (m.why b w).suspended = m.suspended := by cases w <;> rfl

theorem Safe.why {s : St} {d : Info} (h : Safe s) (hd : d ∈ s.devs) (b : Bool) (w : Why) :
    Safe (s.upd d.id fun m => m.why b w) :=
  h.flag hd (fun m => why_kbds m b w) (fun m => why_lid m b w) (fun m => why_tablet m b w) (fun m => why_stick m b w)
    (fun m => why_pen m b w) (fun m => why_touch m b w) (fun m => why_turned m b w)

/-! ## Tablets and totems -/

theorem totemRemoved_loc (s : St) (d x : Info) : Loc s (totemRemoved s d x) d.id := by
  unfold totemRemoved; split
  · exact Loc.upd _ _ _
  · exact Loc.refl _ _

theorem totemAdded_loc (s : St) (d x : Info) : Loc s (totemAdded s d x) d.id := by
  unfold totemAdded; (repeat' split)
  · exact Loc.refl _ _
  · exact Loc.refl _ _
  · exact Loc.refl _ _
  · exact Loc.upd _ _ _

/-- Changes of the three bonds that nobody listens for. -/
theorem At.quiet {s : St} {o : Info} (h : At s o) {f : Dyn → Dyn} (hk : ∀ m, (f m).kbds = m.kbds) (hl : ∀ m, (f m).lid = m.lid)
    (ht : ∀ m, (f m).tablet = m.tablet) (hs : ∀ m, (f m).stick = m.stick)
    (hb : ∀ b x, b.basic = false → Partner (f (s.mem o.id)) o b x → Partner (s.mem o.id) o b x ∨
      ∃ X ∈ s.devs, X.id = x ∧ X.id ≠ o.id ∧ Bel b o X) : At (s.upd o.id f) o := by
  have hE : ∀ l, Entry (f (s.mem o.id)) o l ↔ Entry (s.mem o.id) o l := by
    intro l; simp only [Entry, hk, hl, ht, hs]
  have hP : ∀ b x, b.basic = true → (Partner (f (s.mem o.id)) o b x ↔ Partner (s.mem o.id) o b x) := by
    intro b x hb; cases b <;> simp_all only [Partner, Bond.basic, reduceCtorEq]
  refine ⟨?_, ?_, ?_, ?_, ?_⟩
  · intro l a b; rw [upd_self, hE]; exact h.own l a b
  · intro b x a
    rw [upd_self] at a
    cases hbb : b.basic
    · rcases hb b x hbb a with p | q
      · exact h.bel b x p
      · exact q
    · exact h.bel b x ((hP b x hbb).mp a)
  · intro l a b c; rw [upd_self, hE] at c; exact h.heard l a b c
  · rw [upd_self, hk]; exact h.fst
  · rw [upd_self, hk]; exact h.lt

theorem totemRemoved_safe {s : St} {d x : Info} (h : Safe s) (hd : d ∈ s.devs) : Safe (totemRemoved s d x) := by
  refine (totemRemoved_loc s d x).safe h hd ?_
  unfold totemRemoved; split
  · refine (h.at_ d hd).quiet (fun _ => rfl) (fun _ => rfl) (fun _ => rfl) (fun _ => rfl) ?_
    intro b y hb hp
    left
    cases b <;> simp_all [Partner, Bond.basic]
  · exact h.at_ d hd

theorem totemAdded_safe {s : St} {d x : Info} (h : Safe s) (hd : d ∈ s.devs) (hx : x ∈ s.devs) (n : x.id ≠ d.id)
    (k : d.kind = .totem) : Safe (totemAdded s d x) := by
  refine (totemAdded_loc s d x).safe h hd ?_
  unfold totemAdded; (repeat' split)
  · exact h.at_ d hd
  · exact h.at_ d hd
  · exact h.at_ d hd
  · rename_i c1 c2 c3
    refine (h.at_ d hd).quiet (fun _ => rfl) (fun _ => rfl) (fun _ => rfl) (fun _ => rfl) ?_
    intro b y hb hp
    cases b <;> simp [Partner, Bond.basic, k] at hb hp ⊢
    right
    refine ⟨x, hx, hp, n, ?_⟩
    simp only [Bel, Twin, k, true_and]
    grind

theorem tabletAdded_loc (s : St) (d x : Info) : Loc s (tabletAdded s d x) d.id := by
  unfold tabletAdded; dsimp only; (repeat' split) <;>
    first | exact Loc.refl _ _ | exact Loc.upd _ _ _ | exact (Loc.upd _ _ _).trans (Loc.upd _ _ _)

theorem tabletRemoved_loc (s : St) (d x : Info) : Loc s (tabletRemoved s d x) d.id := by
  unfold tabletRemoved; dsimp only; (repeat' split) <;>
    first | exact Loc.refl _ _ | exact Loc.upd _ _ _ | exact (Loc.upd _ _ _).trans (Loc.upd _ _ _)

theorem Loc.quiet_safe {s : St} {d : Info} (h : Safe s) (hd : d ∈ s.devs) {f : Dyn → Dyn} (hk : ∀ m, (f m).kbds = m.kbds)
    (hl : ∀ m, (f m).lid = m.lid) (ht : ∀ m, (f m).tablet = m.tablet) (hs : ∀ m, (f m).stick = m.stick)
    (hb : ∀ b x, b.basic = false → Partner (f (s.mem d.id)) d b x → Partner (s.mem d.id) d b x ∨
      ∃ X ∈ s.devs, X.id = x ∧ X.id ≠ d.id ∧ Bel b d X) : Safe (s.upd d.id f) :=
  (Loc.upd _ _ _).safe h hd ((h.at_ d hd).quiet hk hl ht hs hb)

theorem tabletAdded_safe {s : St} {d x : Info} (h : Safe s) (hd : d ∈ s.devs) (hx : x ∈ s.devs) (n : x.id ≠ d.id)
    (k : d.kind = .tablet) : Safe (tabletAdded s d x) := by
  unfold tabletAdded
  split
  · exact h
  rename_i hg
  have hg' : d.group = x.group := Classical.not_not.mp hg
  dsimp only
  have h1 : Safe (if (x.touchCap || (x.pointerCap && x.extTouchpad)) = true then
      s.upd d.id fun m => { m with touch := some x.id } else s) := by
    split
    · rename_i hc
      refine Loc.quiet_safe h hd (fun _ => rfl) (fun _ => rfl) (fun _ => rfl) (fun _ => rfl) ?_
      intro b y hb hp
      cases b <;> simp [Partner, Bond.basic, k] at hb hp ⊢
      · right
        exact ⟨x, hx, hp, n, k, hg', by simpa using hc⟩
      · left; exact hp
    · exact h
  revert h1
  generalize hs1 : (if (x.touchCap || (x.pointerCap && x.extTouchpad)) = true then
      s.upd d.id fun m => { m with touch := some x.id } else s) = s1
  intro h1
  have e1 : s1.devs = s.devs := by rw [← hs1]; split <;> rfl
  split
  · rename_i hc
    refine Loc.quiet_safe h1 (e1 ▸ hd) (fun _ => rfl) (fun _ => rfl) (fun _ => rfl) (fun _ => rfl) ?_
    intro b y hb hp
    cases b <;> simp [Partner, Bond.basic, k] at hb hp ⊢
    · left; exact hp
    · right
      exact ⟨x, e1 ▸ hx, hp, n, k, hg', by simpa using hc⟩
  · exact h1

theorem tabletRemoved_safe {s : St} {d x : Info} (h : Safe s) (hd : d ∈ s.devs) : Safe (tabletRemoved s d x) := by
  unfold tabletRemoved
  dsimp only
  have h1 : Safe (if (s.mem d.id).touch = some x.id then s.upd d.id fun m => { m with touch := none } else s) := by
    split
    · refine Loc.quiet_safe h hd (fun _ => rfl) (fun _ => rfl) (fun _ => rfl) (fun _ => rfl) ?_
      intro b y hb hp
      left
      cases b <;> simp_all [Partner, Bond.basic]
    · exact h
  revert h1
  generalize hs1 : (if (s.mem d.id).touch = some x.id then s.upd d.id fun m => { m with touch := none } else s) = s1
  intro h1
  have e1 : s1.devs = s.devs := by rw [← hs1]; split <;> rfl
  split
  · refine Loc.quiet_safe h1 (e1 ▸ hd) (fun _ => rfl) (fun _ => rfl) (fun _ => rfl) (fun _ => rfl) ?_
    intro b y hb hp
    left
    cases b <;> simp_all [Partner, Bond.basic]
  · exact h1

/-! ## Touchpads on and off -/

theorem others_mem {s : St} {i : Nat} {d : Info} : d ∈ s.others i ↔ d ∈ s.devs ∧ d.id ≠ i := by
  simp [St.others]

/-- A loop over devices of the seat. -/
theorem fold_safe {f : St → Info → St} {D : List Info} {P : Info → Prop}
    (hf : ∀ s d, P d → Safe s → s.devs = D → d ∈ D → Safe (f s d) ∧ (f s d).devs = D) :
    ∀ (ds : List Info) (s : St), (∀ d ∈ ds, d ∈ D ∧ P d) → Safe s → s.devs = D → Safe (ds.foldl f s) ∧ (ds.foldl f s).devs = D := by
  intro ds
  induction ds with
  | nil => intro s _ h e; exact ⟨h, e⟩
  | cons d ds ih =>
    intro s hd h e
    have := hf s d (hd d List.mem_cons_self).2 h e (hd d List.mem_cons_self).1
    exact ih _ (fun d' hd' => hd d' (List.mem_cons_of_mem _ hd')) this.1 this.2

theorem tpOff_safe {s : St} {t : Info} (h : Safe s) (ht : t ∈ s.devs) : Safe (tpOff s t) ∧ (tpOff s t).devs = s.devs := by
  unfold tpOff
  split
  · exact ⟨h, rfl⟩
  · have := fold_safe (f := fun s d => if d.kind = .totem then totemRemoved s d t else s) (D := s.devs) (P := fun _ => True) (by
      intro s' d _ hs' he hd
      split
      · exact ⟨totemRemoved_safe hs' (he ▸ hd), (totemRemoved_loc _ _ _).devs.trans he⟩
      · exact ⟨hs', he⟩) (s.others t.id) s (fun d hd => ⟨(others_mem.mp hd).1, trivial⟩) h rfl
    refine ⟨this.1.flag (this.2 ▸ ht) (fun _ => rfl) (fun _ => rfl) (fun _ => rfl) (fun _ => rfl) (fun _ => rfl) (fun _ => rfl)
      (fun _ => rfl), this.2⟩

theorem tpOn_safe {s : St} {t : Info} (h : Safe s) (ht : t ∈ s.devs) : Safe (tpOn s t) ∧ (tpOn s t).devs = s.devs := by
  unfold tpOn
  split
  · have := fold_safe (f := fun s d => if d.kind = .totem then totemAdded s d t else s) (D := s.devs) (P := fun d => d.id ≠ t.id) (by
      intro s' d hn hs' he hd
      split
      · rename_i hk
        exact ⟨totemAdded_safe hs' (he ▸ hd) (he ▸ ht) (fun e => hn e.symm) hk, (totemAdded_loc _ _ _).devs.trans he⟩
      · exact ⟨hs', he⟩) (s.others t.id) s (fun d hd => others_mem.mp hd) h rfl
    refine ⟨this.1.flag (this.2 ▸ ht) (fun _ => rfl) (fun _ => rfl) (fun _ => rfl) (fun _ => rfl) (fun _ => rfl) (fun _ => rfl)
      (fun _ => rfl), this.2⟩
  · exact ⟨h, rfl⟩

theorem tpSuspend_safe {s : St} {t : Info} (h : Safe s) (ht : t ∈ s.devs) (w : Why) :
    Safe (tpSuspend s t w) ∧ (tpSuspend s t w).devs = s.devs := by
  unfold tpSuspend; (repeat' split)
  · exact ⟨h, rfl⟩
  · exact ⟨h.why ht _ _, rfl⟩
  · have := tpOff_safe h ht
    exact ⟨this.1.why (this.2 ▸ ht) _ _, this.2⟩

theorem tpResume_safe {s : St} {t : Info} (h : Safe s) (ht : t ∈ s.devs) (w : Why) :
    Safe (tpResume s t w) ∧ (tpResume s t w).devs = s.devs := by
  unfold tpResume; dsimp only; split
  · exact ⟨h.why ht _ _, rfl⟩
  · exact tpOn_safe (s := s.upd t.id fun m => m.why false w) (h.why ht _ _) ht

/-! ## Bonds -/

theorem listen_eq {s : St} {l : Listener} (h : ∀ l' ∈ s.lst, l'.owner = l.owner → l'.role = l.role → l'.ser = l.ser → False) :
    s.listen l = { s with lst := l :: s.lst } := by
  unfold St.listen
  rw [if_neg]
  simp only [St.listens, List.any_eq_true, Bool.and_eq_true, beq_iff_eq, not_exists]
  intro l' ⟨hl, ⟨a, b⟩, c⟩
  exact h l' hl a b c

theorem unlisten_eq {s : St} {o : Nat} {r : Role} {n : Nat} {l : Listener} (hl : l ∈ s.lst) (a : l.owner = o) (b : l.role = r)
    (c : l.ser = n) : s.unlisten o r n = s.drop o r n := by
  unfold St.unlisten
  rw [if_pos]
  simp only [St.listens, List.any_eq_true, Bool.and_eq_true, beq_iff_eq]
  exact ⟨l, hl, ⟨a, b⟩, c⟩

theorem mem_drop {s : St} {o : Nat} {r : Role} {n : Nat} {l : Listener} :
    l ∈ (s.drop o r n).lst ↔ l ∈ s.lst ∧ ¬(l.owner = o ∧ l.role = r ∧ l.ser = n) := by
  simp only [St.drop, List.mem_filter, Bool.not_eq_true', Bool.and_eq_false_iff, beq_eq_false_iff_ne]
  grind

theorem Loc.cons (s : St) (l : Listener) : Loc s { s with lst := l :: s.lst } l.owner :=
  ⟨rfl, Nat.le_refl _, fun _ _ => rfl, fun l' h => by
    constructor
    · intro hl
      rcases List.mem_cons.mp hl with rfl | h'
      · exact absurd rfl h
      · exact h'
    · exact List.mem_cons_of_mem _, rfl⟩

theorem Loc.drop (s : St) (o : Nat) (r : Role) (n : Nat) : Loc s (s.drop o r n) o :=
  ⟨rfl, Nat.le_refl _, fun _ _ => rfl, fun l' h => by
    rw [mem_drop]
    exact ⟨fun a => a.1, fun a => ⟨a, fun b => h b.1⟩⟩, rfl⟩

/-- The bond a listener is for. -/
def bondOf : Role → Bond
  | .typing => .typing
  | .lidKey => .lidKey
  | .lid => .lid
  | .tablet => .tablet
  | .stick => .stick

/-- A device changes one kind of bond. -/
theorem At.relink {s s' : St} {d : Info} (a : At s d) (r : Role) (hdevs : s'.devs = s.devs)
    (hfst : ((s'.mem d.id).kbds.map Prod.fst).Nodup) (hlt : ∀ k ∈ (s'.mem d.id).kbds, k.1 < s'.ser)
    (hE : ∀ l, l.role ≠ r → (Entry (s'.mem d.id) d l ↔ Entry (s.mem d.id) d l))
    (hP : ∀ b y, b ≠ bondOf r → Partner (s'.mem d.id) d b y → Partner (s.mem d.id) d b y)
    (hB : ∀ y, Partner (s'.mem d.id) d (bondOf r) y → ∃ X ∈ s.devs, X.id = y ∧ X.id ≠ d.id ∧ Bel (bondOf r) d X)
    (hL : ∀ l, l.owner = d.id → l.role ≠ r → (l ∈ s'.lst ↔ l ∈ s.lst))
    (hO : ∀ l ∈ s'.lst, l.owner = d.id → l.role = r → Entry (s'.mem d.id) d l)
    (hH : ∀ l, l.owner = d.id → l.role = r → r ≠ .lidKey → Entry (s'.mem d.id) d l → l ∈ s'.lst) : At s' d := by
  refine ⟨?_, ?_, ?_, hfst, hlt⟩
  · intro l hl ho
    by_cases hr : l.role = r
    · exact hO l hl ho hr
    · exact (hE l hr).mpr (a.own l ((hL l ho hr).mp hl) ho)
  · intro b y hp
    rw [hdevs]
    by_cases hb : b = bondOf r
    · subst hb; exact hB y hp
    · exact a.bel b y (hP b y hb hp)
  · intro l ho hk he
    by_cases hr : l.role = r
    · exact hH l ho hr (hr ▸ hk) he
    · exact (hL l ho hr).mpr (a.heard l ho hk ((hE l hr).mp he))

/-- A pointer is set, and its listener added. -/
theorem link {s : St} {d x : Info} (h : Safe s) (hd : d ∈ s.devs) (hx : x ∈ s.devs) (n : x.id ≠ d.id) (r : Role)
    (f : Dyn → Dyn) (hk : ∀ m, (f m).kbds = m.kbds)
    (hE : ∀ l, l.role ≠ r → (Entry (f (s.mem d.id)) d l ↔ Entry (s.mem d.id) d l))
    (hP : ∀ b y, b ≠ bondOf r → Partner (f (s.mem d.id)) d b y → Partner (s.mem d.id) d b y)
    (hB : ∀ y, Partner (f (s.mem d.id)) d (bondOf r) y → y = x.id ∧ Bel (bondOf r) d x)
    (hN : ∀ l, l.role = r → ¬ Entry (s.mem d.id) d l)
    (hI : ∀ l, l.role = r → (Entry (f (s.mem d.id)) d l ↔ l.src = x.id ∧ l.ser = 0)) :
    Safe ((s.listen { src := x.id, owner := d.id, role := r }).upd d.id f) ∧
      Loc s ((s.listen { src := x.id, owner := d.id, role := r }).upd d.id f) d.id ∧
      ((s.listen { src := x.id, owner := d.id, role := r }).upd d.id f).lst = { src := x.id, owner := d.id, role := r } :: s.lst ∧
      ((s.listen { src := x.id, owner := d.id, role := r }).upd d.id f).mem d.id = f (s.mem d.id) := by
  have a := h.at_ d hd
  rw [listen_eq (fun l' hl' e1 e2 _ => hN l' e2 (a.own l' hl' e1))]
  have L : Loc s (({ s with lst := { src := x.id, owner := d.id, role := r } :: s.lst } : St).upd d.id f) d.id :=
    (Loc.cons s { src := x.id, owner := d.id, role := r }).trans (Loc.upd _ d.id f)
  refine ⟨L.safe h hd ?_, L, rfl, upd_self _ _ _⟩
  refine a.relink r rfl ?_ ?_ ?_ ?_ ?_ ?_ ?_ ?_ <;> (try rw [upd_self])
  · rw [hk]; exact a.fst
  · rw [hk]; exact a.lt
  · exact hE
  · exact hP
  · intro y hy
    have := hB y hy
    exact ⟨x, hx, this.1.symm, n, this.2⟩
  · intro l ho hr
    simp only [upd_lst, List.mem_cons]
    constructor
    · rintro (rfl | h)
      · exact absurd rfl hr
      · exact h
    · exact Or.inr
  · intro l hl ho hr
    rw [hI l hr]
    rcases List.mem_cons.mp hl with rfl | hl
    · exact ⟨rfl, rfl⟩
    · exact absurd (a.own l hl ho) (hN l hr)
  · intro l ho hr _ he
    rw [hI l hr] at he
    have : l = { src := x.id, owner := d.id, role := r } := by cases l; simp_all
    rw [this]; exact List.mem_cons_self

/-- A pointer is cleared, and its listener taken out. -/
theorem unlink {s : St} {d : Info} (h : Safe s) (hd : d ∈ s.devs) (r : Role)
    (f : Dyn → Dyn) (hk : ∀ m, (f m).kbds = m.kbds)
    (hE : ∀ l, l.role ≠ r → (Entry (f (s.mem d.id)) d l ↔ Entry (s.mem d.id) d l))
    (hP : ∀ b y, b ≠ bondOf r → Partner (f (s.mem d.id)) d b y → Partner (s.mem d.id) d b y)
    (hB : ∀ y, ¬ Partner (f (s.mem d.id)) d (bondOf r) y)
    (hN : ∀ l, l.role = r → ¬ Entry (f (s.mem d.id)) d l)
    (h0 : ∀ l, l.role = r → Entry (s.mem d.id) d l → l.ser = 0) :
    Safe ((s.drop d.id r 0).upd d.id f) ∧ Loc s ((s.drop d.id r 0).upd d.id f) d.id := by
  have a := h.at_ d hd
  have L : Loc s ((s.drop d.id r 0).upd d.id f) d.id := (Loc.drop s d.id r 0).trans (Loc.upd _ d.id f)
  refine ⟨L.safe h hd ?_, L⟩
  have hm : (s.drop d.id r 0).mem = s.mem := rfl
  refine a.relink r rfl ?_ ?_ ?_ ?_ ?_ ?_ ?_ ?_ <;> (try rw [upd_self, hm])
  · rw [hk]; exact a.fst
  · rw [hk]; exact a.lt
  · exact hE
  · exact hP
  · intro y hy; exact absurd hy (hB y)
  · intro l ho hr
    rw [upd_lst, mem_drop]
    exact ⟨fun e => e.1, fun e => ⟨e, fun c => hr c.2.1⟩⟩
  · intro l hl ho hr
    rw [upd_lst, mem_drop] at hl
    exact absurd ⟨ho, hr, h0 l hr (a.own l hl.1 ho)⟩ hl.2
  · intro l ho hr _ he
    exact absurd he (hN l hr)

theorem listen_upd (s : St) (i : Nat) (f : Dyn → Dyn) (l : Listener) : (s.upd i f).listen l = (s.listen l).upd i f := by
  unfold St.listen
  show (if s.listens l.owner l.role l.ser = true then _ else _) = _
  split <;> rfl

theorem pairStick_spec {s : St} {t x : Info} (h : Safe s) (ht : t ∈ s.devs) (hx : x ∈ s.devs) (n : x.id ≠ t.id)
    (k : t.kind = .touchpad) : Safe (pairStick s t x) ∧ Loc s (pairStick s t x) t.id := by
  unfold pairStick
  split
  · exact ⟨h, Loc.refl _ _⟩
  rename_i hx'
  split
  · rename_i hc
    have hbel : Bel .stick t x := ⟨k, by simpa using hx', hc.2⟩
    dsimp only
    split
    · rename_i hm
      have := link h ht hx n .stick (fun m => { m with stick := some x.id }) (fun _ => rfl)
        (by intro l hr; unfold Entry; cases hl : l.role <;> first | exact absurd hl hr | exact Iff.rfl)
        (by intro b y hb; cases b <;> first | exact absurd rfl hb | exact id)
        (by intro y hp; exact ⟨(Option.some.inj hp.2).symm, hbel⟩)
        (by intro l hr; unfold Entry; rw [hr]; simp [hc.1])
        (by intro l hr; unfold Entry; rw [hr]; simp [k, hm, eq_comm])
      rw [listen_upd]
      exact ⟨this.1, this.2.1⟩
    · rename_i hm
      refine ⟨(Loc.upd _ _ _).safe h ht ?_, Loc.upd _ _ _⟩
      have a := h.at_ t ht
      refine a.relink .stick rfl ?_ ?_ ?_ ?_ ?_ ?_ ?_ ?_ <;> (try rw [upd_self])
      · exact a.fst
      · exact a.lt
      · intro l hr; unfold Entry; cases hl : l.role <;> first | exact absurd hl hr | exact Iff.rfl
      · intro b y hb; cases b <;> first | exact absurd rfl hb | exact id
      · intro y hp; exact ⟨x, hx, Option.some.inj hp.2, n, hbel⟩
      · intro l _ _; exact Iff.rfl
      · intro l hl ho hr
        have := a.own l hl ho
        unfold Entry at this; rw [hr] at this; simp [hc.1] at this
      · intro l ho hr _ he
        unfold Entry at he; rw [hr] at he; exact absurd he.2.2.2 hm
  · exact ⟨h, Loc.refl _ _⟩

theorem pairLid_spec {s : St} {t x : Info} (h : Safe s) (ht : t ∈ s.devs) (hx : x ∈ s.devs) (n : x.id ≠ t.id)
    (k : t.kind = .touchpad) : Safe (pairLid s t x) ∧ Loc s (pairLid s t x) t.id := by
  unfold pairLid
  (repeat' split)
  · exact ⟨h, Loc.refl _ _⟩
  · exact ⟨h, Loc.refl _ _⟩
  · rename_i c1 c2 c3
    have hbel : Bel .lid t x := ⟨k, by simpa using c2, by simpa using c1⟩
    have := link h ht hx n .lid (fun m => { m with lid := some x.id }) (fun _ => rfl)
      (by intro l hr; unfold Entry; cases hl : l.role <;> first | exact absurd hl hr | exact Iff.rfl)
      (by intro b y hb; cases b <;> first | exact absurd rfl hb | exact id)
      (by intro y hp; exact ⟨(Option.some.inj hp.2).symm, hbel⟩)
      (by intro l hr; unfold Entry; rw [hr]; simp [c3])
      (by intro l hr; unfold Entry; rw [hr]; simp [k, eq_comm])
    exact ⟨this.1, this.2.1⟩
  · exact ⟨h, Loc.refl _ _⟩

/-- The common part of pairing with a tablet-mode switch. -/
theorem linkTablet {s : St} {d x : Info} (h : Safe s) (hd : d ∈ s.devs) (hx : x ∈ s.devs) (n : x.id ≠ d.id)
    (hbel : Bel .tablet d x) (hn : (s.mem d.id).tablet = none) :
    Safe ((s.listen { src := x.id, owner := d.id, role := .tablet }).upd d.id fun m => { m with tablet := some x.id }) ∧
      Loc s ((s.listen { src := x.id, owner := d.id, role := .tablet }).upd d.id fun m => { m with tablet := some x.id }) d.id ∧
      ((s.listen { src := x.id, owner := d.id, role := .tablet }).upd d.id fun m => { m with tablet := some x.id }).lst =
        { src := x.id, owner := d.id, role := .tablet } :: s.lst ∧
      ((s.listen { src := x.id, owner := d.id, role := .tablet }).upd d.id fun m => { m with tablet := some x.id }).mem d.id =
        { s.mem d.id with tablet := some x.id } := by
  have k : d.kind = .touchpad ∨ d.kind = .fallback := by
    rcases hbel.2.2 with a | a
    · exact Or.inl a.1
    · exact Or.inr a.1
  exact link h hd hx n .tablet (fun m => { m with tablet := some x.id }) (fun _ => rfl)
    (by intro l hr; unfold Entry; cases hl : l.role <;> first | exact absurd hl hr | exact Iff.rfl)
    (by intro b y hb; cases b <;> first | exact absurd rfl hb | exact id)
    (by intro y hp; exact ⟨(Option.some.inj hp.2).symm, hbel⟩)
    (by intro l hr; unfold Entry; rw [hr]; simp [hn])
    (by intro l hr; unfold Entry; rw [hr]; simp only [k, true_and, Option.some.injEq]; rw [eq_comm])

theorem pairTablet_spec {s : St} {t x : Info} (h : Safe s) (ht : t ∈ s.devs) (hx : x ∈ s.devs) (n : x.id ≠ t.id)
    (k : t.kind = .touchpad) : Safe (pairTablet s t x) ∧ (pairTablet s t x).devs = s.devs := by
  unfold pairTablet
  (repeat' (split; exact ⟨h, rfl⟩))
  rename_i c1 c2 c3 c4
  have := linkTablet h ht hx n ⟨by simpa using c1, by simpa using c4, Or.inl ⟨k, by simpa using c3⟩⟩ (by simpa using c2)
  dsimp only
  split
  · have r := tpSuspend_safe this.1 (this.2.1.devs ▸ ht) .tablet
    exact ⟨r.1, r.2.trans this.2.1.devs⟩
  · exact ⟨this.1, this.2.1.devs⟩

theorem pairPen_spec {s : St} {t x : Info} (h : Safe s) (ht : t ∈ s.devs) (hx : x ∈ s.devs) (n : x.id ≠ t.id)
    (k : t.kind = .touchpad) : Safe (pairPen s t x) ∧ Loc s (pairPen s t x) t.id := by
  unfold pairPen
  (repeat' (split; exact ⟨h, Loc.refl _ _⟩))
  rename_i c1 c2 c3
  refine ⟨Loc.quiet_safe h ht (fun _ => rfl) (fun _ => rfl) (fun _ => rfl) (fun _ => rfl) ?_, Loc.upd _ _ _⟩
  intro b y hb hp
  cases b <;> simp [Partner, Bond.basic, k] at hb hp ⊢
  right
  exact ⟨x, hx, hp, n, k, by simpa using c1, by grind, by simpa using c3⟩

theorem wantTyping_bel {t x : Info} (k : t.kind = .touchpad) (hx : x.keyboard = true) : wantTyping t x = true ↔ Bel .typing t x := by
  unfold wantTyping
  simp only [Bel, Twin, k, hx, true_and]
  cases t.extTouchpad <;> simp

/-- A record is added. -/
theorem addRecord {s : St} {d x : Info} (h : Safe s) (hd : d ∈ s.devs) (hx : x ∈ s.devs) (n : x.id ≠ d.id) (r : Role)
    (hr : (r = .typing ∧ d.kind = .touchpad) ∨ (r = .lidKey ∧ d.kind = .fallback)) (hbel : Bel (bondOf r) d x) (b : Bool)
    (hb : r = .typing → b = true) {s' : St} (e1 : s'.devs = s.devs) (e2 : s'.ser = s.ser + 1)
    (e3 : s'.lst = if b then { src := x.id, owner := d.id, role := r, ser := s.ser } :: s.lst else s.lst)
    (e4 : s'.mem = (s.upd d.id fun m => { m with kbds := (s.ser, x.id) :: m.kbds }).mem) (e5 : s'.crashed = s.crashed) :
    Safe s' ∧ Loc s s' d.id := by
  have a := h.at_ d hd
  have hm : s'.mem d.id = { s.mem d.id with kbds := (s.ser, x.id) :: (s.mem d.id).kbds } := by rw [e4, upd_self]
  have hin : ∀ l, l ∈ s'.lst → l = { src := x.id, owner := d.id, role := r, ser := s.ser } ∨ l ∈ s.lst := by
    intro l hl
    rw [e3] at hl
    split at hl
    · exact List.mem_cons.mp hl
    · exact Or.inr hl
  have hin' : ∀ l, l ∈ s.lst → l ∈ s'.lst := by
    intro l hl
    rw [e3]
    split
    · exact List.mem_cons_of_mem _ hl
    · exact hl
  have L : Loc s s' d.id := by
    refine ⟨e1, by omega, ?_, ?_, e5⟩
    · intro o ho; rw [e4, upd_ne _ _ ho]
    · intro l hl
      constructor
      · intro hl'
        rcases hin l hl' with rfl | e
        · exact absurd rfl hl
        · exact e
      · exact hin' l
  refine ⟨L.safe h hd ?_, L⟩
  refine a.relink r e1 ?_ ?_ ?_ ?_ ?_ ?_ ?_ ?_ <;> (try rw [hm])
  · simp only [List.map_cons, List.nodup_cons]
    refine ⟨?_, a.fst⟩
    intro hc
    obtain ⟨k, hk, e⟩ := List.mem_map.mp hc
    have := a.lt k hk
    omega
  · intro k hk
    rw [e2]
    rcases List.mem_cons.mp hk with rfl | hk
    · simp
    · have := a.lt k hk; omega
  · intro l hl
    unfold Entry
    rcases hr with ⟨rfl, hk⟩ | ⟨rfl, hk⟩ <;> cases hl' : l.role <;> simp_all
  · intro b y hb
    rcases hr with ⟨rfl, hk⟩ | ⟨rfl, hk⟩ <;> cases b <;> simp_all [Partner, bondOf]
  · intro y hp
    rcases hr with ⟨rfl, hk⟩ | ⟨rfl, hk⟩
    · obtain ⟨_, m, hm'⟩ := hp
      rcases List.mem_cons.mp hm' with e | e
      · exact ⟨x, hx, (congrArg Prod.snd e).symm, n, hbel⟩
      · exact a.bel .typing y ⟨hk, m, e⟩
    · obtain ⟨_, m, hm'⟩ := hp
      rcases List.mem_cons.mp hm' with e | e
      · exact ⟨x, hx, (congrArg Prod.snd e).symm, n, hbel⟩
      · exact a.bel .lidKey y ⟨hk, m, e⟩
  · intro l ho hl
    constructor
    · intro h'
      rcases hin l h' with rfl | e
      · exact absurd rfl hl
      · exact e
    · exact hin' l
  · intro l hl ho hlr
    rcases hin l hl with rfl | e
    · unfold Entry
      rcases hr with ⟨rfl, hk⟩ | ⟨rfl, hk⟩ <;> exact ⟨hk, List.mem_cons_self⟩
    · have := a.own l e ho
      unfold Entry at this ⊢
      rw [hlr] at this ⊢
      rcases hr with ⟨rfl, hk⟩ | ⟨rfl, hk⟩ <;> exact ⟨hk, List.mem_cons_of_mem _ this.2⟩
  · intro l ho hlr hne he
    rcases hr with ⟨rfl, hk⟩ | ⟨rfl, hk⟩
    · unfold Entry at he
      rw [hlr] at he
      rcases List.mem_cons.mp he.2 with e | e
      · have : l = { src := x.id, owner := d.id, role := .typing, ser := s.ser } := by
          cases l; simp_all
        rw [e3, hb rfl, this]; exact List.mem_cons_self
      · refine hin' l (a.heard l ho (by rw [hlr]; simp) ?_)
        unfold Entry; rw [hlr]; exact ⟨hk, e⟩
    · exact absurd rfl hne

theorem pairTyping_spec {s : St} {t x : Info} (h : Safe s) (ht : t ∈ s.devs) (hx : x ∈ s.devs) (n : x.id ≠ t.id)
    (k : t.kind = .touchpad) : Safe (pairTyping s t x) ∧ Loc s (pairTyping s t x) t.id := by
  unfold pairTyping
  (repeat' (split; exact ⟨h, Loc.refl _ _⟩))
  rename_i c1 c2
  have hb : Bel .typing t x := (wantTyping_bel k (by simpa using c1)).mp (by simpa using c2)
  dsimp only
  rw [listen_eq (s := { s with ser := s.ser + 1, heap := s.ser :: s.heap }) (by
    intro l hl a b c
    have := (h.at_ t ht).own l hl a
    unfold Entry at this
    rw [b] at this
    have := (h.at_ t ht).lt _ this.2
    simp at c; omega)]
  exact addRecord h ht hx n .typing (Or.inl ⟨rfl, k⟩) hb true (fun _ => rfl) rfl rfl rfl rfl rfl

theorem lidPair_spec {s : St} {d x : Info} (h : Safe s) (hd : d ∈ s.devs) (hx : x ∈ s.devs) (n : x.id ≠ d.id)
    (k : d.kind = .fallback) : Safe (lidPair s d x) ∧ Loc s (lidPair s d x) d.id := by
  unfold lidPair
  (repeat' (split; exact ⟨h, Loc.refl _ _⟩))
  rename_i c1 c2
  have hb : Bel .lidKey d x := ⟨k, by grind, by grind, by simpa using c2⟩
  dsimp only
  split
  · rw [listen_eq (by
      intro l hl a b c
      have := (h.at_ d hd).own l hl a
      unfold Entry at this
      rw [b] at this
      have := (h.at_ d hd).lt _ this.2
      simp at c; omega)]
    exact addRecord h hd hx n .lidKey (Or.inr ⟨rfl, k⟩) hb true (fun _ => rfl) rfl rfl rfl rfl rfl
  · exact addRecord h hd hx n .lidKey (Or.inr ⟨rfl, k⟩) hb false (fun e => by simp at e) rfl rfl rfl rfl rfl

/-! ## Letting go -/

theorem tpNoStick_spec {s : St} {t x : Info} (h : Safe s) (ht : t ∈ s.devs) (k : t.kind = .touchpad) :
    Safe (tpNoStick s t x) ∧ Loc s (tpNoStick s t x) t.id := by
  unfold tpNoStick
  split
  · rename_i hc
    have a := h.at_ t ht
    have key : Safe ((s.drop t.id .stick 0).upd t.id fun m => { m with stick := none }) ∧
        Loc s ((s.drop t.id .stick 0).upd t.id fun m => { m with stick := none }) t.id :=
      unlink h ht .stick (fun m => { m with stick := none }) (fun _ => rfl)
        (by intro l hr; unfold Entry; cases hl : l.role <;> first | exact absurd hl hr | exact Iff.rfl)
        (by intro b y hb; cases b <;> first | exact absurd rfl hb | exact id)
        (by intro y hp; simp [Partner, bondOf] at hp)
        (by intro l hr; unfold Entry; rw [hr]; simp)
        (by intro l hr; unfold Entry; rw [hr]; exact fun e => e.2.2.1)
    split
    · rename_i hm
      rw [unlisten_eq (l := { src := x.id, owner := t.id, role := .stick })
        (a.heard _ rfl (by simp) ⟨k, hc, rfl, hm⟩) rfl rfl rfl]
      exact key
    · rename_i hm
      have : s.drop t.id .stick 0 = s := by
        have : s.lst.filter (fun l => !(l.owner == t.id && l.role == .stick && l.ser == 0)) = s.lst := by
          rw [List.filter_eq_self]
          intro l hl
          simp only [Bool.not_eq_true', Bool.and_eq_false_iff, beq_eq_false_iff_ne]
          by_cases ho : l.owner = t.id
          · by_cases hr : l.role = .stick
            · have := a.own l hl ho
              unfold Entry at this; rw [hr] at this
              exact absurd this.2.2.2 hm
            · exact Or.inl (Or.inr hr)
          · exact Or.inl (Or.inl ho)
        unfold St.drop
        rw [this]
      rw [this] at key
      exact key
  · exact ⟨h, Loc.refl _ _⟩

theorem tpNoLid_spec {s : St} {t x : Info} (h : Safe s) (ht : t ∈ s.devs) (k : t.kind = .touchpad) :
    Safe (tpNoLid s t x) ∧ (tpNoLid s t x).devs = s.devs := by
  unfold tpNoLid
  split
  · rename_i hc
    have a := h.at_ t ht
    have key := unlink h ht .lid (fun m => { m with lid := none }) (fun _ => rfl)
        (by intro l hr; unfold Entry; cases hl : l.role <;> first | exact absurd hl hr | exact Iff.rfl)
        (by intro b y hb; cases b <;> first | exact absurd rfl hb | exact id)
        (by intro y hp; simp [Partner, bondOf] at hp)
        (by intro l hr; unfold Entry; rw [hr]; simp)
        (by intro l hr; unfold Entry; rw [hr]; exact fun e => e.2.2)
    rw [unlisten_eq (l := { src := x.id, owner := t.id, role := .lid })
      (a.heard _ rfl (by simp) ⟨k, hc, rfl⟩) rfl rfl rfl]
    have r := tpResume_safe key.1 (key.2.devs ▸ ht) .lid
    exact ⟨r.1, r.2.trans key.2.devs⟩
  · exact ⟨h, rfl⟩

theorem unlinkTablet {s : St} {d : Info} (h : Safe s) (hd : d ∈ s.devs) :
    Safe ((s.drop d.id .tablet 0).upd d.id fun m => { m with tablet := none }) ∧
      Loc s ((s.drop d.id .tablet 0).upd d.id fun m => { m with tablet := none }) d.id :=
  unlink h hd .tablet (fun m => { m with tablet := none }) (fun _ => rfl)
    (by intro l hr; unfold Entry; cases hl : l.role <;> first | exact absurd hl hr | exact Iff.rfl)
    (by intro b y hb; cases b <;> first | exact absurd rfl hb | exact id)
    (by intro y hp; simp [Partner, bondOf] at hp)
    (by intro l hr; unfold Entry; rw [hr]; simp)
    (by intro l hr; unfold Entry; rw [hr]; exact fun e => e.2.2)

theorem tpNoTablet_spec {s : St} {t x : Info} (h : Safe s) (ht : t ∈ s.devs) (k : t.kind = .touchpad) :
    Safe (tpNoTablet s t x) ∧ (tpNoTablet s t x).devs = s.devs := by
  unfold tpNoTablet
  split
  · rename_i hc
    have a := h.at_ t ht
    have key := unlinkTablet h ht
    rw [unlisten_eq (l := { src := x.id, owner := t.id, role := .tablet })
      (a.heard _ rfl (by simp) ⟨Or.inl k, hc, rfl⟩) rfl rfl rfl]
    have r := tpResume_safe key.1 (key.2.devs ▸ ht) .tablet
    exact ⟨r.1, r.2.trans key.2.devs⟩
  · exact ⟨h, rfl⟩

theorem fbNoTablet_spec {s : St} {d x : Info} (h : Safe s) (hd : d ∈ s.devs) :
    Safe (fbNoTablet s d x) ∧ Loc s (fbNoTablet s d x) d.id := by
  unfold fbNoTablet
  split
  · exact unlinkTablet h hd
  · exact ⟨h, Loc.refl _ _⟩

theorem tpNoPen_spec {s : St} {t x : Info} (h : Safe s) (ht : t ∈ s.devs) :
    Safe (tpNoPen s t x) ∧ Loc s (tpNoPen s t x) t.id := by
  unfold tpNoPen
  split
  · refine ⟨Loc.quiet_safe h ht (fun _ => rfl) (fun _ => rfl) (fun _ => rfl) (fun _ => rfl) ?_, Loc.upd _ _ _⟩
    intro b y hb hp
    left
    cases b <;> simp_all [Partner, Bond.basic]
  · exact ⟨h, Loc.refl _ _⟩

/-- The records of a list are taken out one by one. -/
theorem fold_drop (d : Nat) (r : Role) (g : St → (Nat × Nat) → St) :
    ∀ (ks : List (Nat × Nat)) (s : St), (ks.map Prod.fst).Nodup →
      (∀ s k, (∃ l ∈ s.lst, l.owner = d ∧ l.role = r ∧ l.ser = k.1) ∨ r = .lidKey →
        (g s k).devs = s.devs ∧ (g s k).mem = s.mem ∧ (g s k).ser = s.ser ∧ (g s k).crashed = s.crashed ∧ (g s k).log = s.log ∧
          (g s k).lst = (s.drop d r k.1).lst) →
      (∀ k ∈ ks, ∃ l ∈ s.lst, l.owner = d ∧ l.role = r ∧ l.ser = k.1) ∨ r = .lidKey →
      (ks.foldl g s).devs = s.devs ∧ (ks.foldl g s).mem = s.mem ∧ (ks.foldl g s).ser = s.ser ∧
        (ks.foldl g s).crashed = s.crashed ∧ (ks.foldl g s).log = s.log ∧
        ∀ l, l ∈ (ks.foldl g s).lst ↔ l ∈ s.lst ∧ ¬(l.owner = d ∧ l.role = r ∧ ∃ k ∈ ks, l.ser = k.1) := by
  intro ks
  induction ks with
  | nil => intro s _ _ _; exact ⟨rfl, rfl, rfl, rfl, rfl, by simp⟩
  | cons k ks ih =>
    intro s hn hg hs
    simp only [List.map_cons, List.nodup_cons] at hn
    obtain ⟨g1, g2, g3, g4, g5, g6⟩ := hg s k (by
      rcases hs with hs | hs
      · exact Or.inl (hs k List.mem_cons_self)
      · exact Or.inr hs)
    obtain ⟨i1, i2, i3, i4, i5, i6⟩ := ih (g s k) hn.2 hg (by
      rcases hs with hs | hs
      · left
        intro k' hk'
        obtain ⟨l, hl, e1, e2, e3⟩ := hs k' (List.mem_cons_of_mem _ hk')
        refine ⟨l, ?_, e1, e2, e3⟩
        rw [g6, mem_drop]
        refine ⟨hl, fun c => hn.1 ?_⟩
        rw [← c.2.2, e3]
        exact List.mem_map_of_mem hk'
      · exact Or.inr hs)
    rw [List.foldl_cons]
    refine ⟨i1.trans g1, i2.trans g2, i3.trans g3, i4.trans g4, i5.trans g5, ?_⟩
    intro l
    rw [i6, g6, mem_drop]
    simp only [List.mem_cons]
    grind

/-- The records of a keyboard are taken out. -/
theorem forget {s s' : St} {d : Info} (h : Safe s) (hd : d ∈ s.devs) (x : Nat) (r : Role)
    (hr : (r = .typing ∧ d.kind = .touchpad) ∨ (r = .lidKey ∧ d.kind = .fallback)) (e1 : s'.devs = s.devs) (e2 : s'.ser = s.ser)
    (e3 : ∀ l, l ∈ s'.lst ↔ l ∈ s.lst ∧ ¬(l.owner = d.id ∧ l.role = r ∧
      ∃ k ∈ (s.mem d.id).kbds.filter (fun k => k.2 == x), l.ser = k.1))
    (e4 : s'.mem = (s.upd d.id fun m => { m with kbds := m.kbds.filter fun k => k.2 != x }).mem) (e5 : s'.crashed = s.crashed) :
    Safe s' ∧ Loc s s' d.id := by
  have a := h.at_ d hd
  have hm : s'.mem d.id = { s.mem d.id with kbds := (s.mem d.id).kbds.filter fun k => k.2 != x } := by rw [e4, upd_self]
  have uni : ∀ n u v, (n, u) ∈ (s.mem d.id).kbds → (n, v) ∈ (s.mem d.id).kbds → u = v := by
    have := a.fst
    revert this
    generalize (s.mem d.id).kbds = K
    intro hK n u v hu hv
    induction K with
    | nil => cases hu
    | cons c K ih =>
      simp only [List.map_cons, List.nodup_cons] at hK
      rcases List.mem_cons.mp hu with rfl | hu' <;> rcases List.mem_cons.mp hv with hv' | hv'
      · exact (congrArg Prod.snd hv').symm
      · exact absurd (List.mem_map_of_mem (f := Prod.fst) hv') hK.1
      · subst hv'; exact absurd (List.mem_map_of_mem (f := Prod.fst) hu') hK.1
      · exact ih hK.2 hu' hv'
  have L : Loc s s' d.id := by
    refine ⟨e1, by omega, ?_, ?_, e5⟩
    · intro o ho; rw [e4, upd_ne _ _ ho]
    · intro l hl
      rw [e3]
      exact ⟨fun e => e.1, fun e => ⟨e, fun c => hl c.1⟩⟩
  refine ⟨L.safe h hd ?_, L⟩
  refine a.relink r e1 ?_ ?_ ?_ ?_ ?_ ?_ ?_ ?_ <;> (try rw [hm])
  · exact List.Sublist.nodup (List.Sublist.map _ List.filter_sublist) a.fst
  · intro k hk
    rw [e2]
    exact a.lt k ((List.mem_filter.mp hk).1)
  · intro l hl
    unfold Entry
    rcases hr with ⟨rfl, hk⟩ | ⟨rfl, hk⟩ <;> cases hl' : l.role <;> simp_all
  · intro b y hb
    rcases hr with ⟨rfl, hk⟩ | ⟨rfl, hk⟩ <;> cases b <;> simp_all [Partner, bondOf]
  · intro y hp
    rcases hr with ⟨rfl, hk⟩ | ⟨rfl, hk⟩
    · obtain ⟨_, m, hm'⟩ := hp
      exact a.bel .typing y ⟨hk, m, (List.mem_filter.mp hm').1⟩
    · obtain ⟨_, m, hm'⟩ := hp
      exact a.bel .lidKey y ⟨hk, m, (List.mem_filter.mp hm').1⟩
  · intro l ho hl
    rw [e3]
    exact ⟨fun e => e.1, fun e => ⟨e, fun c => hl c.2.1⟩⟩
  · intro l hl ho hlr
    rw [e3] at hl
    have own := a.own l hl.1 ho
    unfold Entry at own ⊢
    rw [hlr] at own ⊢
    have hne : ∀ (e : (l.ser, l.src) ∈ (s.mem d.id).kbds), (l.ser, l.src) ∈ (s.mem d.id).kbds.filter fun k => k.2 != x := by
      intro e
      rw [List.mem_filter]
      refine ⟨e, ?_⟩
      simp only [bne_iff_ne]
      intro c
      exact hl.2 ⟨ho, hlr, _, List.mem_filter.mpr ⟨e, by simpa using c⟩, rfl⟩
    rcases hr with ⟨rfl, hk⟩ | ⟨rfl, hk⟩ <;> exact ⟨hk, hne own.2⟩
  · intro l ho hlr hne he
    rcases hr with ⟨rfl, hk⟩ | ⟨rfl, hk⟩
    · unfold Entry at he
      rw [hlr] at he
      have he2 := List.mem_filter.mp he.2
      rw [e3]
      refine ⟨a.heard l ho (by rw [hlr]; simp) (by unfold Entry; rw [hlr]; exact ⟨hk, he2.1⟩), ?_⟩
      rintro ⟨_, _, k, hk', e⟩
      have hk2 := List.mem_filter.mp hk'
      have := uni l.ser l.src k.2 he2.1 (by rw [e]; exact hk2.1)
      have h1 : k.2 = x := by simpa using hk2.2
      have h2 : l.src ≠ x := by simpa using he2.2
      exact h2 (this.trans h1)
    · exact absurd rfl hne

theorem tpNoTyping_spec {s : St} {t x : Info} (h : Safe s) (ht : t ∈ s.devs) (k : t.kind = .touchpad) :
    Safe (tpNoTyping s t x) ∧ Loc s (tpNoTyping s t x) t.id ∧
      (∀ l, l ∈ (tpNoTyping s t x).lst ↔ l ∈ s.lst ∧ ¬(l.owner = t.id ∧ l.role = .typing ∧
        ∃ k ∈ (s.mem t.id).kbds.filter (fun k => k.2 == x.id), l.ser = k.1)) ∧
      (tpNoTyping s t x).mem t.id = { s.mem t.id with kbds := (s.mem t.id).kbds.filter fun k => k.2 != x.id } := by
  have a := h.at_ t ht
  obtain ⟨f1, f2, f3, f4, f5, f6⟩ := fold_drop t.id .typing
    (fun s k => { s.unlisten t.id .typing k.1 with heap := s.heap.filter fun n => n != k.1 })
    ((s.mem t.id).kbds.filter fun k => k.2 == x.id) s
    (List.Sublist.nodup (List.Sublist.map _ List.filter_sublist) a.fst)
    (by
      intro s k hs
      rcases hs with ⟨l, hl, e1, e2, e3⟩ | hs
      · dsimp only
        rw [unlisten_eq hl e1 e2 e3]
        exact ⟨rfl, rfl, rfl, rfl, rfl, rfl⟩
      · simp at hs)
    (by
      left
      intro k' hk'
      have := (List.mem_filter.mp hk').1
      exact ⟨{ src := k'.2, owner := t.id, role := .typing, ser := k'.1 }, a.heard _ rfl (by simp) ⟨k, this⟩, rfl, rfl, rfl⟩)
  have e4 : (tpNoTyping s t x).mem = (s.upd t.id fun m => { m with kbds := m.kbds.filter fun k => k.2 != x.id }).mem := by
    unfold tpNoTyping
    simp only [St.upd, f2]
  have := forget (s' := tpNoTyping s t x) h ht x.id .typing (Or.inl ⟨rfl, k⟩) f1 f3 f6 e4 f4
  exact ⟨this.1, this.2, f6, by rw [e4, upd_self]⟩

theorem fbNoKey_spec {s : St} {d x : Info} (h : Safe s) (hd : d ∈ s.devs) (k : d.kind = .fallback) :
    Safe (fbNoKey s d x) ∧ Loc s (fbNoKey s d x) d.id ∧
      (∀ l, l ∈ (fbNoKey s d x).lst ↔ l ∈ s.lst ∧ ¬(l.owner = d.id ∧ l.role = .lidKey ∧
        ∃ k ∈ (s.mem d.id).kbds.filter (fun k => k.2 == x.id), l.ser = k.1)) ∧
      (fbNoKey s d x).mem d.id = { s.mem d.id with kbds := (s.mem d.id).kbds.filter fun k => k.2 != x.id } := by
  have a := h.at_ d hd
  obtain ⟨f1, f2, f3, f4, f5, f6⟩ := fold_drop d.id .lidKey
    (fun s k => { s.drop d.id .lidKey k.1 with heap := s.heap.filter fun n => n != k.1 })
    ((s.mem d.id).kbds.filter fun k => k.2 == x.id) s
    (List.Sublist.nodup (List.Sublist.map _ List.filter_sublist) a.fst)
    (by intro s k hs; exact ⟨rfl, rfl, rfl, rfl, rfl, rfl⟩) (Or.inr rfl)
  have e4 : (fbNoKey s d x).mem = (s.upd d.id fun m => { m with kbds := m.kbds.filter fun k => k.2 != x.id }).mem := by
    unfold fbNoKey
    simp only [St.upd, f2]
  have := forget (s' := fbNoKey s d x) h hd x.id .lidKey (Or.inr ⟨rfl, k⟩) f1 f3 f6 e4 f4
  exact ⟨this.1, this.2, f6, by rw [e4, upd_self]⟩

end Libinput.Pairing
