import Verif.Pairing.Keep
/-!
Suspending and resuming devices: what is kept, and what is found again.
-/
namespace Libinput.Pairing
open Spec

/-- No touchpad has this address. -/
def NT (D : List Info) (y : Nat) : Prop := ∀ d ∈ D, d.id = y → d.kind ≠ .touchpad

theorem fold_both {f : St → Info → St} {D : List Info} {K S : Nat → Prop} {P : Info → Prop}
    (hf : ∀ s d, P d → Safe s → s.devs = D → d ∈ D → Safe (f s d) ∧ Mv s (f s d) K S) :
    ∀ (ds : List Info) (s : St), (∀ d ∈ ds, d ∈ D ∧ P d) → Safe s → s.devs = D →
      Safe (ds.foldl f s) ∧ Mv s (ds.foldl f s) K S := by
  intro ds
  induction ds with
  | nil => intro s _ h e; exact ⟨h, Mv.refl _ _ _⟩
  | cons d ds ih =>
    intro s hd h e
    have a := hf s d (hd d List.mem_cons_self).2 h e (hd d List.mem_cons_self).1
    have b := ih _ (fun d' hd' => hd d' (List.mem_cons_of_mem _ hd')) a.1 (a.2.devs.trans e)
    exact ⟨b.1, a.2.trans b.2⟩

theorem suspendedReact_spec {s : St} {d x : Info} (h : Safe s) (hd : d ∈ s.devs) :
    Safe (suspendedReact s d x) ∧ Mv s (suspendedReact s d x) (· ≠ x.id) (NT s.devs) := by
  unfold suspendedReact
  split
  · rename_i k
    have := fbRemoved_spec (x := x) h hd k
    exact ⟨this.1, this.2.weak (fun _ e => e) (fun _ _ => trivial)⟩
  · rename_i k
    have := tpRemoved_spec (x := x) h hd k
    exact ⟨this.1, this.2.weak (fun _ e => e) (fun y hy e => hy d hd e.symm k)⟩
  · exact ⟨totemRemoved_safe h hd, (totemRemoved_mv _ _ _).weak (fun _ _ => trivial) (fun _ _ => trivial)⟩
  · exact ⟨h, Mv.refl _ _ _⟩
  · exact ⟨h, Mv.refl _ _ _⟩

theorem removedReact_spec {s : St} {d x : Info} (h : Safe s) (hd : d ∈ s.devs) :
    Safe (removedReact s d x) ∧ Mv s (removedReact s d x) (· ≠ x.id) (NT s.devs) := by
  unfold removedReact
  split
  · exact ⟨tabletRemoved_safe h hd, (tabletRemoved_mv _ _ _).weak (fun _ _ => trivial) (fun _ _ => trivial)⟩
  · exact suspendedReact_spec h hd

theorem suspendDev_spec {s : St} {f : Info} (h : Safe s) (hf : f ∈ s.devs) :
    Safe (suspendDev s f) ∧ Mv s (suspendDev s f) (· ≠ f.id) (fun y => y ≠ f.id ∧ NT s.devs y) ∧
      ((suspendDev s f).mem f.id).suspended = true := by
  unfold suspendDev
  split
  · rename_i hs
    exact ⟨h, Mv.refl _ _ _, hs⟩
  · have := fold_both (f := fun s d => suspendedReact s d f) (D := s.devs) (K := (· ≠ f.id)) (S := NT s.devs) (P := fun _ => True)
      (by
        intro s' d _ h' e hd
        have := suspendedReact_spec (x := f) h' (e ▸ hd)
        rw [e] at this
        exact this) (s.others f.id) s (fun d hd => ⟨(others_mem.mp hd).1, trivial⟩) h rfl
    refine ⟨this.1.flag (this.2.devs ▸ hf) (fun _ => rfl) (fun _ => rfl) (fun _ => rfl) (fun _ => rfl) (fun _ => rfl)
      (fun _ => rfl) (fun _ => rfl), ?_, by simp⟩
    exact (this.2.weak (fun _ e => e) (fun _ e => e.2)).trans ((flag_mv _ _ _).weak (fun _ _ => trivial) (fun _ e => e.1))

theorem folds_iff {d : Info} : ¬(d.externalKbd = true) ∧ ¬((if d.trackpoint then d.extMouse else !d.internalKbd) = true) ↔ Folds d := by
  unfold Folds
  cases d.externalKbd <;> cases d.trackpoint <;> cases d.extMouse <;> cases d.internalKbd <;> simp

theorem fbPairTablet_eq {s : St} {d x : Info} (k : d.kind = .fallback) :
    (Bel .tablet d x ∧ (s.mem d.id).tablet = none →
      fbPairTablet s d x =
        (let s' := (s.listen { src := x.id, owner := d.id, role := .tablet }).upd d.id fun m => { m with tablet := some x.id }
         if (s'.mem x.id).on then suspendDev s' d else s')) ∧
    (¬(Bel .tablet d x ∧ (s.mem d.id).tablet = none) → fbPairTablet s d x = s) := by
  have key : (Bel .tablet d x ∧ (s.mem d.id).tablet = none) ↔
      (¬(d.externalKbd = true) ∧ ¬((if d.trackpoint then d.extMouse else !d.internalKbd) = true)) ∧ ¬(d.noSuspend = true) ∧
        ¬(x.tabletSw = false) ∧ ¬((s.mem d.id).tablet ≠ none) := by
    rw [folds_iff]
    simp [Bel, k]
    grind
  rw [key]
  constructor
  · rintro ⟨⟨c1, c2⟩, c3, c4, c5⟩
    unfold fbPairTablet
    rw [if_neg c1, if_neg c2, if_neg c3, if_neg c4, if_neg c5]
  · intro c
    unfold fbPairTablet
    by_cases c1 : d.externalKbd = true
    · rw [if_pos c1]
    by_cases c2 : (if d.trackpoint then d.extMouse else !d.internalKbd) = true
    · rw [if_neg c1, if_pos c2]
    by_cases c3 : d.noSuspend = true
    · rw [if_neg c1, if_neg c2, if_pos c3]
    by_cases c4 : x.tabletSw = false
    · rw [if_neg c1, if_neg c2, if_neg c3, if_pos c4]
    by_cases c5 : (s.mem d.id).tablet ≠ none
    · rw [if_neg c1, if_neg c2, if_neg c3, if_neg c4, if_pos c5]
    exact absurd ⟨⟨c1, c2⟩, c3, c4, c5⟩ c

theorem fbPairTablet_spec {s : St} {d x : Info} (h : Safe s) (hd : d ∈ s.devs) (hx : x ∈ s.devs) (n : x.id ≠ d.id)
    (k : d.kind = .fallback) :
    Safe (fbPairTablet s d x) ∧ Mv s (fbPairTablet s d x) (· ≠ d.id) (fun y => y ≠ d.id ∧ NT s.devs y) ∧
      (Mv s (fbPairTablet s d x) All All ∨ ((fbPairTablet s d x).mem d.id).suspended = true) ∧
      (¬ Bel .tablet d x → Mv s (fbPairTablet s d x) All All) := by
  by_cases c : Bel .tablet d x ∧ (s.mem d.id).tablet = none
  · rw [(fbPairTablet_eq k).1 c]
    have L := linkTablet h hd hx n c.1 c.2
    have m := linkTablet_mv c.2 L.2.1
    revert L m
    generalize ((s.listen { src := x.id, owner := d.id, role := .tablet }).upd d.id fun m => { m with tablet := some x.id }) = s1
    intro L m
    dsimp only
    split
    · have a := suspendDev_spec L.1 (m.devs ▸ hd)
      rw [m.devs] at a
      exact ⟨a.1, (m.weak (fun _ _ => trivial) (fun _ _ => trivial)).trans a.2.1, Or.inr a.2.2, fun c' => absurd c.1 c'⟩
    · exact ⟨L.1, m.weak (fun _ _ => trivial) (fun _ _ => trivial), Or.inl m, fun _ => m⟩
  · rw [(fbPairTablet_eq k).2 c]
    exact ⟨h, Mv.refl _ _ _, Or.inl (Mv.refl _ _ _), fun _ => Mv.refl _ _ _⟩

/-- What a device does when another one is there (again). -/
structure Gains (s s' : St) (d x : Info) : Prop where
  safe : Safe s'
  mv : Mv s s' (· ≠ d.id) (fun y => y ≠ d.id ∧ NT s.devs y)
  self : d.kind = .fallback → Mv s s' All All ∨ (s'.mem d.id).suspended = true
  plain : ¬ Bel .tablet d x → Mv s s' All (NT s.devs)

theorem fbAdded_spec {s : St} {d x : Info} (h : Safe s) (hd : d ∈ s.devs) (hx : x ∈ s.devs) (n : x.id ≠ d.id)
    (k : d.kind = .fallback) : Gains s (fbAdded s d x) d x := by
  unfold fbAdded
  have a1 := lidPair_spec h hd hx n k
  have m1 := lidPair_mv a1.2
  revert a1 m1; generalize lidPair s d x = s1; intro a1 m1
  have a2 := fbPairTablet_spec a1.1 (m1.devs ▸ hd) (m1.devs ▸ hx) n k
  rw [m1.devs] at a2
  refine ⟨a2.1, (m1.weak (fun _ _ => trivial) (fun _ _ => trivial)).trans a2.2.1, ?_, ?_⟩
  · intro _
    rcases a2.2.2.1 with m | e
    · exact Or.inl (m1.trans m)
    · exact Or.inr e
  · intro c
    exact (m1.trans (a2.2.2.2 c)).weak (fun _ _ => trivial) (fun _ _ => trivial)

theorem resumedReact_spec {s : St} {d x : Info} (h : Safe s) (hd : d ∈ s.devs) (hx : x ∈ s.devs) (n : x.id ≠ d.id) :
    Gains s (resumedReact s d x) d x := by
  unfold resumedReact
  split
  · rename_i k
    exact fbAdded_spec h hd hx n k
  · rename_i k
    have := tpAdded_spec h hd hx n k
    refine ⟨this.1, this.2.weak (fun _ _ => trivial) (fun _ e => e.1), fun e => ?_, fun _ => ?_⟩
    · rw [k] at e; cases e
    · exact this.2.weak (fun _ _ => trivial) (fun y hy e => hy d hd e.symm k)
  · rename_i k
    have m := totemAdded_mv s d x
    exact ⟨totemAdded_safe h hd hx n k, m.weak (fun _ _ => trivial) (fun _ _ => trivial), fun _ => Or.inl m,
      fun _ => m.weak (fun _ _ => trivial) (fun _ _ => trivial)⟩
  all_goals exact ⟨h, Mv.refl _ _ _, fun _ => Or.inl (Mv.refl _ _ _), fun _ => Mv.refl _ _ _⟩

theorem addedReact_spec {s : St} {d x : Info} (h : Safe s) (hd : d ∈ s.devs) (hx : x ∈ s.devs) (n : x.id ≠ d.id) :
    Gains s (addedReact s d x) d x := by
  unfold addedReact
  split
  · rename_i k
    have m := tabletAdded_mv s d x
    exact ⟨tabletAdded_safe h hd hx n k, m.weak (fun _ _ => trivial) (fun _ _ => trivial), fun _ => Or.inl m,
      fun _ => m.weak (fun _ _ => trivial) (fun _ _ => trivial)⟩
  · exact resumedReact_spec h hd hx n

/-- Nobody who stays is lost, and nobody is resumed. -/
def Mono (s s' : St) : Prop :=
  s'.devs = s.devs ∧ ∀ y ∈ s.devs, y.kind = .fallback → (s'.mem y.id).suspended = false →
    (s.mem y.id).suspended = false ∧ Keeps s s' y.id

theorem Mono.refl (s : St) : Mono s s := ⟨rfl, fun _ _ _ h => ⟨h, Keeps.refl _ _⟩⟩

theorem Mono.trans {a b c : St} (h : Mono a b) (k : Mono b c) : Mono a c := by
  refine ⟨k.1.trans h.1, ?_⟩
  intro y hy hk hs
  obtain ⟨s1, k1⟩ := k.2 y (h.1 ▸ hy) hk hs
  obtain ⟨s2, k2⟩ := h.2 y hy hk s1
  exact ⟨s2, k2.trans k1⟩

theorem Safe.nt {s : St} (h : Safe s) {y : Info} (hy : y ∈ s.devs) (k : y.kind ≠ .touchpad) : NT s.devs y.id := by
  intro d hd e
  rw [h.inj hd hy e]; exact k

theorem Mv.mono {s s' : St} (h : Safe s) (m : Mv s s' All (NT s.devs)) : Mono s s' := by
  refine ⟨m.devs, ?_⟩
  intro y hy hk hs
  have := m.susp y.id (h.nt hy (by rw [hk]; simp))
  exact ⟨this ▸ hs, m.keep _ trivial⟩

theorem Gains.mono {s s' : St} {d x : Info} (h : Safe s) (hd : d ∈ s.devs) (g : Gains s s' d x) : Mono s s' := by
  refine ⟨g.mv.devs, ?_⟩
  intro y hy hk hs
  by_cases e : y.id = d.id
  · have := h.inj hy hd e
    subst this
    rcases g.self hk with m | e'
    · exact ⟨m.susp y.id trivial ▸ hs, m.keep _ trivial⟩
    · rw [e'] at hs; cases hs
  · exact ⟨g.mv.susp y.id ⟨e, h.nt hy (by rw [hk]; simp)⟩ ▸ hs, g.mv.keep _ e⟩

theorem suspendDev_mono {s : St} {f : Info} (h : Safe s) (hf : f ∈ s.devs) : Mono s (suspendDev s f) := by
  have a := suspendDev_spec h hf
  refine ⟨a.2.1.devs, ?_⟩
  intro y hy hk hs
  by_cases e : y.id = f.id
  · rw [e, a.2.2] at hs; cases hs
  · exact ⟨a.2.1.susp y.id ⟨e, h.nt hy (by rw [hk]; simp)⟩ ▸ hs, a.2.1.keep _ e⟩

/-! ## What is gained -/

/-- The machine has one such device at most, or there may be many. -/
def Sole (A : List Info) (b : Bond) (o : Info) : Prop := b = .typing ∨ b = .lidKey ∨ Alone A b o

theorem ptr_free {A : List Info} {s : St} {t x : Info} {b : Bond} (h : Safe s) (hA : ∀ d ∈ s.devs, d ∈ A) (ht : t ∈ s.devs) (hx : x ∈ s.devs)
    (ha : Alone A b t) (hb : Bel b t x) {y : Nat} (hp : Partner (s.mem t.id) t b y) : y = x.id := by
  obtain ⟨Y, hY, e, _, hbY⟩ := (h.at_ t ht).bel b y hp
  rw [← e]
  exact ha Y (hA Y hY) x (hA x hx) hbY hb

theorem pairStick_gain {A : List Info} {s : St} {t x : Info} (h : Safe s) (hA : ∀ d ∈ s.devs, d ∈ A) (ht : t ∈ s.devs) (hx : x ∈ s.devs)
    (ha : Alone A .stick t) (hb : Bel .stick t x) : Partner ((pairStick s t x).mem t.id) t .stick x.id := by
  refine ⟨hb.1, ?_⟩
  unfold pairStick
  rw [if_neg (by rw [hb.2.1]; simp)]
  split
  · dsimp only
    split <;> simp [listen_mem]
  · rename_i c
    cases e : (s.mem t.id).stick with
    | none => exact absurd ⟨e, hb.2.2⟩ c
    | some y => rw [ptr_free h hA ht hx ha hb ⟨hb.1, e⟩]

theorem pairLid_gain {A : List Info} {s : St} {t x : Info} (h : Safe s) (hA : ∀ d ∈ s.devs, d ∈ A) (ht : t ∈ s.devs) (hx : x ∈ s.devs)
    (ha : Alone A .lid t) (hb : Bel .lid t x) : Partner ((pairLid s t x).mem t.id) t .lid x.id := by
  refine ⟨hb.1, ?_⟩
  unfold pairLid
  rw [if_neg (by rw [hb.2.2]; simp), if_neg (by rw [hb.2.1]; simp)]
  split
  · simp [listen_mem]
  · rename_i c
    cases e : (s.mem t.id).lid with
    | none => exact absurd e c
    | some y => rw [ptr_free h hA ht hx ha hb ⟨hb.1, e⟩]

theorem pairTyping_gain {s : St} {t x : Info} (hb : Bel .typing t x) : Partner ((pairTyping s t x).mem t.id) t .typing x.id := by
  refine ⟨hb.1, ?_⟩
  unfold pairTyping
  rw [if_neg (by rw [hb.2.1]; simp), if_neg (by rw [(wantTyping_bel hb.1 hb.2.1).mpr hb]; simp)]
  exact ⟨s.ser, by simp [listen_mem]⟩

theorem lidPair_gain {s : St} {d x : Info} (hb : Bel .lidKey d x) : Partner ((lidPair s d x).mem d.id) d .lidKey x.id := by
  refine ⟨hb.1, ?_⟩
  unfold lidPair
  rw [if_neg (by rw [hb.2.1, hb.2.2.1]; simp), if_neg (by rw [hb.2.2.2]; simp)]
  refine ⟨s.ser, ?_⟩
  dsimp only
  split <;> simp [listen_mem]

theorem pairTablet_gain {A : List Info} {s : St} {t x : Info} (h : Safe s) (hA : ∀ d ∈ s.devs, d ∈ A) (ht : t ∈ s.devs) (hx : x ∈ s.devs)
    (k : t.kind = .touchpad) (ha : Alone A .tablet t) (hb : Bel .tablet t x) :
    Partner ((pairTablet s t x).mem t.id) t .tablet x.id := by
  have hext : t.extTouchpad = false := by
    rcases hb.2.2 with e | e
    · exact e.2
    · rw [k] at e; cases e.1
  cases e : (s.mem t.id).tablet with
  | some y =>
    have : pairTablet s t x = s := by unfold pairTablet; simp [e, hb.1]
    rw [this]
    exact ⟨Or.inl k, by rw [e, ptr_free h hA ht hx ha hb ⟨Or.inl k, e⟩]⟩
  | none =>
    unfold pairTablet
    rw [if_neg (by rw [hb.1]; simp), if_neg (by rw [e]; simp), if_neg (by rw [hext]; simp), if_neg (by rw [hb.2.1]; simp)]
    have p : Partner (((s.listen { src := x.id, owner := t.id, role := .tablet }).upd t.id
        fun m => { m with tablet := some x.id }).mem t.id) t .tablet x.id := ⟨Or.inl k, by simp⟩
    dsimp only
    split
    · exact ((tpSuspend_mv _ t .tablet).keep _ trivial).part t .tablet rfl p
    · exact p

theorem fbPairTablet_gain {A : List Info} {s : St} {d x : Info} (h : Safe s) (hA : ∀ d ∈ s.devs, d ∈ A) (hd : d ∈ s.devs) (hx : x ∈ s.devs)
    (n : x.id ≠ d.id) (k : d.kind = .fallback) (ha : Alone A .tablet d) (hb : Bel .tablet d x) :
    Partner ((fbPairTablet s d x).mem d.id) d .tablet x.id := by
  cases e : (s.mem d.id).tablet with
  | some y =>
    rw [(fbPairTablet_eq k).2 (by rw [e]; simp)]
    exact ⟨Or.inr k, by rw [e, ptr_free h hA hd hx ha hb ⟨Or.inr k, e⟩]⟩
  | none =>
    rw [(fbPairTablet_eq k).1 ⟨hb, e⟩]
    have L := linkTablet h hd hx n hb e
    have p : Partner (((s.listen { src := x.id, owner := d.id, role := .tablet }).upd d.id
        fun m => { m with tablet := some x.id }).mem d.id) d .tablet x.id := ⟨Or.inr k, by simp⟩
    dsimp only
    split
    · exact ((suspendDev_spec L.1 (L.2.1.devs ▸ hd)).2.1.keep _ n).part d .tablet rfl p
    · exact p

theorem resumedReact_gain {A : List Info} {s : St} {d x : Info} {b : Bond} (h : Safe s) (hA : ∀ d ∈ s.devs, d ∈ A) (hd : d ∈ s.devs)
    (hx : x ∈ s.devs) (n : x.id ≠ d.id) (hbb : b.basic = true) (hs : Sole A b d) (hb : Bel b d x) :
    Partner ((resumedReact s d x).mem d.id) d b x.id := by
  have fb : d.kind = .fallback → Partner ((resumedReact s d x).mem d.id) d b x.id := by
    intro k
    have e : resumedReact s d x = fbAdded s d x := by unfold resumedReact; rw [k]
    rw [e]
    unfold fbAdded
    have a1 := lidPair_spec h hd hx n k
    have m1 := lidPair_mv a1.2
    cases b <;> simp [Bond.basic] at hbb
    · exact absurd (k.symm.trans hb.1) (by simp)
    · have p := lidPair_gain (s := s) hb
      exact ((fbPairTablet_spec a1.1 (m1.devs ▸ hd) (m1.devs ▸ hx) n k).2.1.keep _ n).part d .lidKey rfl p
    · exact absurd (k.symm.trans hb.1) (by simp)
    · rcases hs with e | e | e
      · cases e
      · cases e
      exact fbPairTablet_gain a1.1 (m1.devs ▸ hA) (m1.devs ▸ hd) (m1.devs ▸ hx) n k e hb
    · exact absurd (k.symm.trans hb.1) (by simp)
  have tp : d.kind = .touchpad → Partner ((resumedReact s d x).mem d.id) d b x.id := by
    intro k
    have e : resumedReact s d x = tpAdded s d x := by unfold resumedReact; rw [k]
    rw [e]
    unfold tpAdded
    have a1 := pairStick_spec h hd hx n k
    have m1 := pairStick_mv a1.2
    have g1 : b = .stick → Partner ((pairStick s d x).mem d.id) d b x.id := by
      rintro rfl
      rcases hs with e | e | e
      · cases e
      · cases e
      exact pairStick_gain h hA hd hx e hb
    revert a1 m1 g1; generalize pairStick s d x = s1; intro a1 m1 g1
    have a2 := pairTyping_spec a1.1 (m1.devs ▸ hd) (m1.devs ▸ hx) n k
    have m2 := pairTyping_mv a2.2
    have g2 : b = .stick ∨ b = .typing → Partner ((pairTyping s1 d x).mem d.id) d b x.id := by
      rintro (e | rfl)
      · exact (m2.keep _ trivial).part d b hbb (g1 e)
      · exact pairTyping_gain hb
    have m2' := m1.trans m2
    clear m2
    revert a2 g2 m2'; generalize pairTyping s1 d x = s2; intro a2 g2 m2
    have a3 := pairLid_spec a2.1 (m2.devs ▸ hd) (m2.devs ▸ hx) n k
    have m3 := pairLid_mv a3.2
    have g3 : b = .stick ∨ b = .typing ∨ b = .lid → Partner ((pairLid s2 d x).mem d.id) d b x.id := by
      rintro (e | e | rfl)
      · exact (m3.keep _ trivial).part d b hbb (g2 (Or.inl e))
      · exact (m3.keep _ trivial).part d b hbb (g2 (Or.inr e))
      · rcases hs with e | e | e
        · cases e
        · cases e
        exact pairLid_gain a2.1 (m2.devs ▸ hA) (m2.devs ▸ hd) (m2.devs ▸ hx) e hb
    have m3' := m2.trans m3
    clear m3
    revert a3 g3 m3'; generalize pairLid s2 d x = s3; intro a3 g3 m3
    have m4 := pairTablet_mv a3.1 (m3.devs ▸ hd) (m3.devs ▸ hx) n k
    have g4 : Partner ((pairTablet s3 d x).mem d.id) d b x.id := by
      by_cases e : b = .tablet
      · subst e
        rcases hs with e | e | e
        · cases e
        · cases e
        exact pairTablet_gain a3.1 (m3.devs ▸ hA) (m3.devs ▸ hd) (m3.devs ▸ hx) k e hb
      · refine (m4.keep _ trivial).part d b hbb (g3 ?_)
        cases b <;> simp [Bond.basic] at hbb e ⊢
        exact absurd (k.symm.trans hb.1) (by simp)
    exact ((pairPen_mv _ _ _).keep _ trivial).part d b hbb g4
  cases b <;> simp [Bond.basic] at hbb
  · exact tp hb.1
  · exact fb hb.1
  · exact tp hb.1
  · rcases hb.2.2 with e | e
    · exact tp e.1
    · exact fb e.1
  · exact tp hb.1

theorem basic_kind {b : Bond} {o x : Info} (hbb : b.basic = true) (hb : Bel b o x) : o.kind = .touchpad ∨ o.kind = .fallback := by
  cases b <;> simp [Bond.basic] at hbb
  · exact Or.inl hb.1
  · exact Or.inr hb.1
  · exact Or.inl hb.1
  · rcases hb.2.2 with e | e
    · exact Or.inl e.1
    · exact Or.inr e.1
  · exact Or.inl hb.1

theorem bel_fallback {b : Bond} {o x : Info} (hbb : b.basic = true) (hb : Bel b o x) (hr : Real x) : x.kind = .fallback := by
  cases hk : x.kind <;> first | rfl | skip
  all_goals
    have := hr (by rw [hk]; simp)
    cases b <;> simp [Bond.basic] at hbb
    · rw [hb.2.1] at this; cases this.1
    · rw [hb.2.2.1] at this; cases this.1
    · rw [hb.2.2] at this; cases this.2.2.1
    · rw [hb.1] at this; cases this.2.2.2
    · rw [hb.2.1] at this; cases this.2.1

theorem addedReact_gain {A : List Info} {s : St} {d x : Info} {b : Bond} (h : Safe s) (hA : ∀ d ∈ s.devs, d ∈ A) (hd : d ∈ s.devs)
    (hx : x ∈ s.devs) (n : x.id ≠ d.id) (hbb : b.basic = true) (hs : Sole A b d) (hb : Bel b d x) :
    Partner ((addedReact s d x).mem d.id) d b x.id := by
  have e : addedReact s d x = resumedReact s d x := by
    unfold addedReact
    rcases basic_kind hbb hb with k | k <;> rw [k]
  rw [e]
  exact resumedReact_gain h hA hd hx n hbb hs hb

/-! ## Resuming -/

/-- Everybody holds on to what belongs to it and is switched on. -/
def Full (A : List Info) (s : St) : Prop :=
  ∀ b (o x : Info), b.basic = true → o ∈ s.devs → x ∈ s.devs → x.id ≠ o.id → Bel b o x → Sole A b o →
    (s.mem x.id).suspended = false → Partner (s.mem o.id) o b x.id

theorem Full.mono {A : List Info} {s s' : St} (h : Safe s) (f : Full A s) (m : Mono s s') : Full A s' := by
  intro b o x hbb ho hx n hb hs hx'
  rw [m.1] at ho hx
  obtain ⟨s1, k1⟩ := m.2 x hx (bel_fallback hbb hb (h.real x hx)) hx'
  exact k1.part o b hbb (f b o x hbb ho hx n hb hs s1)

/-- The loop of resuming a device. -/
theorem resume_loop {A : List Info} {f : Info} {D : List Info} (hf : f ∈ D) (hA : ∀ d ∈ D, d ∈ A) :
    ∀ (ds : List Info) (s : St), (∀ d ∈ ds, d ∈ D ∧ d.id ≠ f.id) → Safe s → s.devs = D →
      Safe (ds.foldl (fun s d => resumedReact s d f) s) ∧ Mono s (ds.foldl (fun s d => resumedReact s d f) s) ∧
      Keeps s (ds.foldl (fun s d => resumedReact s d f) s) f.id ∧
      (∀ y, (∀ d ∈ ds, Bel .tablet d f → d.id ≠ y) → Keeps s (ds.foldl (fun s d => resumedReact s d f) s) y) ∧
      (∀ y, ((ds.foldl (fun s d => resumedReact s d f) s).mem y).disabled = (s.mem y).disabled ∧
        ((ds.foldl (fun s d => resumedReact s d f) s).mem y).on = (s.mem y).on) ∧
      (∀ y ∈ D, y.kind ≠ .touchpad → (∀ d ∈ ds, Bel .tablet d f → d.id ≠ y.id) →
        ((ds.foldl (fun s d => resumedReact s d f) s).mem y.id).suspended = (s.mem y.id).suspended) ∧
      (ds.foldl (fun s d => resumedReact s d f) s).log = s.log ∧
      ∀ d ∈ ds, ∀ b, b.basic = true → Sole A b d → Bel b d f →
        Partner ((ds.foldl (fun s d => resumedReact s d f) s).mem d.id) d b f.id := by
  intro ds
  induction ds with
  | nil =>
    intro s _ h e
    exact ⟨h, Mono.refl _, Keeps.refl _ _, fun _ _ => Keeps.refl _ _, fun _ => ⟨rfl, rfl⟩, fun _ _ _ _ => rfl, rfl,
      fun d hd => absurd hd (by simp)⟩
  | cons d ds ih =>
    intro s hds h e
    obtain ⟨hdD, hdf⟩ := hds d List.mem_cons_self
    have g := resumedReact_spec (x := f) h (e ▸ hdD) (e ▸ hf) (fun c => hdf c.symm)
    have m := g.mono h (e ▸ hdD)
    obtain ⟨i1, i2, i3, i4, i5, i6, i7, i8⟩ := ih (resumedReact s d f) (fun d' h' => hds d' (List.mem_cons_of_mem _ h')) g.safe
      (g.mv.devs.trans e)
    rw [List.foldl_cons]
    refine ⟨i1, m.trans i2, (g.mv.keep _ (fun c => hdf c.symm)).trans i3, ?_, ?_, ?_, i7.trans g.mv.log, ?_⟩
    · intro y hy
      refine Keeps.trans ?_ (i4 y fun d' h' => hy d' (List.mem_cons_of_mem _ h'))
      by_cases hb : Bel .tablet d f
      · exact g.mv.keep y (fun c => hy d List.mem_cons_self hb c.symm)
      · exact (g.plain hb).keep y trivial
    · intro y
      exact ⟨(i5 y).1.trans (g.mv.mode y), (i5 y).2.trans (g.mv.on y)⟩
    · intro y hyD hyk hy
      refine (i6 y hyD hyk fun d' h' => hy d' (List.mem_cons_of_mem _ h')).trans ?_
      have nt : NT s.devs y.id := h.nt (e ▸ hyD) hyk
      by_cases hb : Bel .tablet d f
      · exact g.mv.susp y.id ⟨fun c => hy d List.mem_cons_self hb c.symm, nt⟩
      · exact (g.plain hb).susp y.id nt
    · intro d' hd' b hbb hs hb
      rcases List.mem_cons.mp hd' with rfl | hd'
      · exact i3.part d' b hbb (resumedReact_gain h (e ▸ hA) (e ▸ hdD) (e ▸ hf) (fun c => hdf c.symm) hbb hs hb)
      · exact i8 d' hd' b hbb hs hb

theorem resumeDev_spec {A : List Info} {s : St} {f : Info} (h : Safe s) (hf : f ∈ s.devs) (hA : ∀ d ∈ s.devs, d ∈ A) (F : Full A s) :
    Safe (resumeDev s f) ∧ (resumeDev s f).devs = s.devs ∧ Full A (resumeDev s f) ∧
      (∀ y, (∀ d ∈ s.devs, Bel .tablet d f → d.id ≠ y) → Keeps s (resumeDev s f) y) ∧
      (∀ y, ((resumeDev s f).mem y).disabled = (s.mem y).disabled ∧ ((resumeDev s f).mem y).on = (s.mem y).on) ∧
      (∀ y ∈ s.devs, y.kind ≠ .touchpad → y.id ≠ f.id → (∀ d ∈ s.devs, Bel .tablet d f → d.id ≠ y.id) →
        ((resumeDev s f).mem y.id).suspended = (s.mem y.id).suspended) ∧
      (resumeDev s f).log = s.log ∧ ((resumeDev s f).mem f.id).suspended = false := by
  unfold resumeDev
  split
  · rename_i hs
    obtain ⟨i1, i2, i3, i4, i5, i6, i7, i8⟩ := resume_loop hf hA (s.others f.id) s (fun d hd => others_mem.mp hd) h rfl
    revert i1 i2 i3 i4 i5 i6 i7 i8
    generalize (s.others f.id).foldl (fun s d => resumedReact s d f) s = s1
    intro i1 i2 i3 i4 i5 i6 i7 i8
    have fm := flag_mv s1 f.id false
    refine ⟨i1.flag (i2.1 ▸ hf) (fun _ => rfl) (fun _ => rfl) (fun _ => rfl) (fun _ => rfl) (fun _ => rfl) (fun _ => rfl)
      (fun _ => rfl), i2.1, ?_, ?_, ?_, ?_, ?_, by simp⟩
    · intro b o x hbb ho hx n hb hso hx'
      refine (fm.keep x.id trivial).part o b hbb ?_
      rw [upd_devs, i2.1] at ho hx
      by_cases e : x.id = f.id
      · have := h.inj hx hf e
        subst this
        exact i8 o (others_mem.mpr ⟨ho, fun c => n c.symm⟩) b hbb hso hb
      · rw [fm.susp x.id e] at hx'
        exact (F.mono h i2) b o x hbb (i2.1 ▸ ho) (i2.1 ▸ hx) n hb hso hx'
    · intro y hy
      exact (i4 y fun d hd => hy d (others_mem.mp hd).1).trans (fm.keep y trivial)
    · intro y
      exact ⟨(fm.mode y).trans (i5 y).1, (fm.on y).trans (i5 y).2⟩
    · intro y hyD hyk hyf hy
      exact (fm.susp y.id hyf).trans (i6 y hyD hyk fun d hd => hy d (others_mem.mp hd).1)
    · exact i7
  · rename_i hs
    exact ⟨h, rfl, F, fun _ _ => Keeps.refl _ _, fun _ => ⟨rfl, rfl⟩, fun _ _ _ _ _ => rfl, rfl, by simpa using hs⟩

end Libinput.Pairing
