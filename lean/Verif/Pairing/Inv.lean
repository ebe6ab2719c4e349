import Verif.Pairing.Steps
/-!
The invariant is kept by everything that can happen.
-/
namespace Libinput.Pairing
open Spec

structure Inv (A : List Info) (s : St) : Prop where
  safe : Safe s
  full : Full A s
  sub : ∀ d ∈ s.devs, d ∈ A

/-- Nobody comes or goes, and all listeners are still there. -/
def Kept (s s' : St) : Prop := s'.devs = s.devs ∧ ∀ l ∈ s.lst, l ∈ s'.lst

theorem Kept.refl (s : St) : Kept s s := ⟨rfl, fun _ h => h⟩
theorem Kept.trans {a b c : St} (h : Kept a b) (k : Kept b c) : Kept a c := ⟨k.1.trans h.1, fun l hl => k.2 l (h.2 l hl)⟩

theorem Mv.kept {s s' : St} {S : Nat → Prop} (m : Mv s s' All S) : Kept s s' := ⟨m.devs, fun l hl => (m.keep l.src trivial).lst l hl rfl⟩

theorem At.cong {s s' : St} {o : Info} (a : At s o) (e1 : s'.devs = s.devs) (e2 : s'.mem = s.mem) (e3 : s'.lst = s.lst)
    (e4 : s'.ser = s.ser) : At s' o :=
  ⟨by rw [e2, e3]; exact a.own, by rw [e1, e2]; exact a.bel, by rw [e2, e3]; exact a.heard, by rw [e2]; exact a.fst,
    by rw [e2, e4]; exact a.lt⟩

theorem Inv.log {A : List Info} {s : St} (h : Inv A s) (o : List Out) : Inv A { s with log := o } :=
  ⟨⟨h.safe.fine, h.safe.ids, h.safe.real, h.safe.owner, fun d hd => (h.safe.at_ d hd).cong rfl rfl rfl rfl⟩, h.full, h.sub⟩

theorem Inv.flag {A : List Info} {s : St} {d : Info} (h : Inv A s) (hd : d ∈ s.devs) {f : Dyn → Dyn} (hk : ∀ m, (f m).kbds = m.kbds)
    (hl : ∀ m, (f m).lid = m.lid) (ht : ∀ m, (f m).tablet = m.tablet) (hs : ∀ m, (f m).stick = m.stick)
    (hp : ∀ m, (f m).pen = m.pen) (hu : ∀ m, (f m).touch = m.touch) (hr : ∀ m, (f m).turned = m.turned)
    (hz : ∀ m, (f m).suspended = m.suspended) : Inv A (s.upd d.id f) := by
  refine ⟨h.safe.flag hd hk hl ht hs hp hu hr, ?_, h.sub⟩
  have key : ∀ j, (s.upd d.id f).mem j = f (s.mem j) ∨ (s.upd d.id f).mem j = s.mem j := by
    intro j
    by_cases e : j = d.id
    · subst e; exact Or.inl (upd_self _ _ _)
    · exact Or.inr (upd_ne _ _ e)
  intro b o x hbb ho hx n hb hso hx'
  have hx'' : (s.mem x.id).suspended = false := by
    rcases key x.id with e | e
    · rw [e, hz] at hx'; exact hx'
    · rw [e] at hx'; exact hx'
  have p := h.full b o x hbb ho hx n hb hso hx''
  rcases key o.id with e | e
  · rw [e]
    cases b <;> simp_all only [Partner, Bond.basic] <;> simp_all
  · rw [e]; exact p

theorem Inv.mono {A : List Info} {s s' : St} (h : Inv A s) (h' : Safe s') (m : Mono s s') : Inv A s' :=
  ⟨h', h.full.mono h.safe m, by rw [m.1]; exact h.sub⟩

theorem tp_nt {s : St} {t : Info} (ht : t ∈ s.devs) (k : t.kind = .touchpad) {y : Nat} (hy : NT s.devs y) : y ≠ t.id :=
  fun e => hy t ht e.symm k

theorem tpSuspend_inv {A : List Info} {s : St} {t : Info} (h : Inv A s) (ht : t ∈ s.devs) (k : t.kind = .touchpad) (w : Why) :
    Inv A (tpSuspend s t w) :=
  h.mono (tpSuspend_safe h.safe ht w).1 (((tpSuspend_mv s t w).weak (fun _ _ => trivial) (fun _ hy => tp_nt ht k hy)).mono h.safe)

theorem tpResume_inv {A : List Info} {s : St} {t : Info} (h : Inv A s) (ht : t ∈ s.devs) (k : t.kind = .touchpad) (w : Why) :
    Inv A (tpResume s t w) :=
  h.mono (tpResume_safe h.safe ht w).1 (((tpResume_mv s t w).weak (fun _ _ => trivial) (fun _ hy => tp_nt ht k hy)).mono h.safe)

theorem find_some {s : St} {i : Nat} {o : Info} (h : s.find i = some o) : o ∈ s.devs ∧ o.id = i := by
  unfold St.find at h
  exact ⟨List.mem_of_find?_eq_some h, by simpa using List.find?_some h⟩

theorem find_of {s : St} (h : Safe s) {o : Info} (ho : o ∈ s.devs) : s.find o.id = some o := by
  cases e : s.find o.id with
  | none =>
    unfold St.find at e
    rw [List.find?_eq_none] at e
    exact absurd (e o ho) (by simp)
  | some p =>
    have := find_some e
    rw [h.inj this.1 ho this.2]

/-- The one who listens. -/
theorem listener_find {s : St} (h : Safe s) {l : Listener} (hl : l ∈ s.lst) :
    ∃ o ∈ s.devs, o.id = l.owner ∧ s.find l.owner = some o ∧ Entry (s.mem o.id) o l := by
  obtain ⟨o, ho, e⟩ := h.owner l hl
  exact ⟨o, ho, e, by rw [← e]; exact find_of h ho, (h.at_ o ho).own l hl e.symm⟩

theorem deliver_inv {call : St → Listener → St} {x : Nat} {I : St → Prop}
    (hc : ∀ s l, I s → l ∈ s.lst → l.src = x → I (call s l) ∧ ∀ l' ∈ s.lst, l'.src = x → l' ∈ (call s l).lst) :
    ∀ (rest pre : List Listener) (s : St), I s → (∀ l ∈ pre, l.src = x → l ∈ s.lst) → (∀ l ∈ rest, l.src = x) →
      I (deliver call pre s rest) := by
  intro rest
  induction rest with
  | nil => intro pre s h _ _; exact h
  | cons l rest ih =>
    intro pre s h hp hr
    unfold deliver
    split
    · exact ih pre s h hp fun l' h' => hr l' (List.mem_cons_of_mem _ h')
    · rename_i c
      have hl : l ∈ s.lst := hp l (by simpa using c) (hr l List.mem_cons_self)
      rw [if_neg (by simpa using hl)]
      have a := hc s l h hl (hr l List.mem_cons_self)
      exact ih s.lst _ a.1 a.2 fun l' h' => hr l' (List.mem_cons_of_mem _ h')

theorem of_src {s : St} {x : Nat} : ∀ l ∈ s.of x, l.src = x := by
  intro l hl
  simpa using (List.mem_filter.mp hl).2

theorem callLid_inv {A : List Info} (c : Bool) {s : St} {l : Listener} (h : Inv A s) (hl : l ∈ s.lst) :
    Inv A (callLid c s l) ∧ Kept s (callLid c s l) := by
  obtain ⟨o, ho, e, hf, he⟩ := listener_find h.safe hl
  unfold callLid
  rw [hf]
  dsimp only
  split
  · rename_i hr
    unfold Entry at he
    rw [hr] at he
    split
    · exact ⟨tpSuspend_inv h ho he.1 _, (tpSuspend_mv _ _ _).kept⟩
    · exact ⟨tpResume_inv h ho he.1 _, (tpResume_mv _ _ _).kept⟩
  · exact ⟨h, Kept.refl _⟩

theorem notifyLid_inv {A : List Info} {s : St} {x : Info} (h : Inv A s) (hx : x ∈ s.devs) :
    Inv A (notifyLid s x.id) ∧ Kept s (notifyLid s x.id) := by
  unfold notifyLid
  split
  · have := deliver_inv (call := callLid (s.mem x.id).closed) (x := x.id) (I := fun s' => Inv A s' ∧ Kept s s')
      (by
        intro s' l hI hl _
        have a := callLid_inv (s.mem x.id).closed hI.1 hl
        exact ⟨⟨a.1, hI.2.trans a.2⟩, fun l' h' _ => a.2.2 l' h'⟩)
      (s.of x.id) s.lst s ⟨h, Kept.refl _⟩ (fun _ hl _ => hl) of_src
    dsimp only
    revert this
    generalize deliver (callLid (s.mem x.id).closed) s.lst s (s.of x.id) = s1
    intro ⟨i, k⟩
    refine ⟨?_, k⟩
    exact (i.log (s1.log ++ [.lid x.id (s.mem x.id).closed])).flag (d := x) (f := fun m => { m with client := m.closed }) (k.1 ▸ hx) (fun _ => rfl) (fun _ => rfl) (fun _ => rfl) (fun _ => rfl) (fun _ => rfl)
      (fun _ => rfl) (fun _ => rfl) (fun _ => rfl)
  · exact ⟨h, Kept.refl _⟩

theorem suspendDev_inv {A : List Info} {s : St} {f : Info} (h : Inv A s) (hf : f ∈ s.devs) : Inv A (suspendDev s f) :=
  h.mono (suspendDev_spec h.safe hf).1 (suspendDev_mono h.safe hf)

theorem resumeDev_inv {A : List Info} {s : St} {f : Info} (h : Inv A s) (hf : f ∈ s.devs) : Inv A (resumeDev s f) := by
  have r := resumeDev_spec h.safe hf h.sub h.full
  exact ⟨r.1, r.2.2.1, by rw [r.2.1]; exact h.sub⟩

/-- The other one is no switch that this one follows. -/
theorem not_both {A : List Info} (M : Machine A) {s : St} (h : Inv A s) {o X : Info} (ho : o ∈ s.devs) (hX : X ∈ s.devs)
    (n : X.id ≠ o.id) (k : o.kind = .fallback) (hb : Bel .tablet o X) : ∀ d ∈ s.devs, Bel .tablet d o → d.id ≠ X.id := by
  intro d hd hbd e
  have := h.safe.inj hd hX e
  subst this
  have kd : d.kind = .fallback := bel_fallback (b := .tablet) rfl hb (M.real d (h.sub d hd))
  have hd' : Both d := by
    refine ⟨kd, hb.1, hbd.2.1, ?_⟩
    rcases hbd.2.2 with a | a
    · rw [kd] at a; cases a.1
    · exact a.2
  have ho' : Both o := by
    refine ⟨k, hbd.1, hb.2.1, ?_⟩
    rcases hb.2.2 with a | a
    · rw [k] at a; cases a.1
    · exact a.2
  exact n (M.one d (h.sub d hd) o (h.sub o ho) hd' ho')

theorem call_inv {A : List Info} (M : Machine A) (ev : Ev) {s : St} {l : Listener} (h : Inv A s) (hl : l ∈ s.lst) :
    Inv A (call ev s l) ∧ (call ev s l).devs = s.devs ∧ ∀ l' ∈ s.lst, l'.src = l.src → l' ∈ (call ev s l).lst := by
  have kept : ∀ {s'}, Kept s s' → s'.devs = s.devs ∧ ∀ l' ∈ s.lst, l'.src = l.src → l' ∈ s'.lst :=
    fun k => ⟨k.1, fun l' h' _ => k.2 l' h'⟩
  obtain ⟨o, ho, e, hf, he⟩ := listener_find h.safe hl
  unfold call
  rw [hf]
  dsimp only
  split
  · exact ⟨h.log _, rfl, fun _ h' _ => h'⟩
  · exact ⟨h.log _, rfl, fun _ h' _ => h'⟩
  · split
    · have a := notifyLid_inv (s := s.upd o.id fun m => { m with closed := false }) (x := o)
        (h.flag ho (fun _ => rfl) (fun _ => rfl) (fun _ => rfl) (fun _ => rfl) (fun _ => rfl) (fun _ => rfl) (fun _ => rfl)
          (fun _ => rfl)) ho
      exact ⟨a.1, kept a.2⟩
    · exact ⟨h, kept (Kept.refl _)⟩
  · rename_i on hr
    unfold Entry at he
    rw [hr] at he
    obtain ⟨X, hX, eX, nX, bX⟩ := (h.safe.at_ o ho).bel .tablet l.src ⟨he.1, he.2.1⟩
    split
    · rename_i k
      split
      · exact ⟨tpSuspend_inv h ho k _, kept (tpSuspend_mv _ _ _).kept⟩
      · exact ⟨tpResume_inv h ho k _, kept (tpResume_mv _ _ _).kept⟩
    · rename_i k
      have k' : o.kind = .fallback := he.1.resolve_left k
      split
      · have a := suspendDev_spec h.safe ho
        refine ⟨suspendDev_inv h ho, a.2.1.devs, fun l' h' e' => (a.2.1.keep l'.src ?_).lst l' h' rfl⟩
        rw [e', ← eX]; exact nX
      · split
        · exact ⟨h, kept (Kept.refl _)⟩
        · have r := resumeDev_spec h.safe ho h.sub h.full
          refine ⟨resumeDev_inv h ho, r.2.1, fun l' h' e' => (r.2.2.2.1 l'.src ?_).lst l' h' rfl⟩
          rw [e', ← eX]
          exact not_both M h ho hX nX k' bX
  · exact ⟨h, kept (Kept.refl _)⟩

theorem post_inv {A : List Info} (M : Machine A) (ev : Ev) {s : St} (x : Nat) (h : Inv A s) :
    Inv A (post s x ev) ∧ (post s x ev).devs = s.devs := by
  unfold post
  exact deliver_inv (call := call ev) (x := x) (I := fun s' => Inv A s' ∧ s'.devs = s.devs)
    (by
      intro s' l hI hl hx
      have a := call_inv M ev hI.1 hl
      exact ⟨⟨a.1, a.2.1.trans hI.2⟩, fun l' h' e => a.2.2 l' h' (e.trans hx.symm)⟩)
    (s.of x) s.lst s ⟨h, rfl⟩ (fun _ hl _ => hl) of_src

/-! ## Switches -/

theorem toggle_one {A : List Info} {s : St} {x : Info} (h : Inv A s) (hx : x ∈ s.devs) (k : x.kind = .fallback) (closed : Bool)
    (p : Nat × Nat) (hp : p ∈ (s.mem x.id).kbds) {s' : St}
    (e : s' = if closed then (s.drop x.id .lidKey p.1).listen { src := p.2, owner := x.id, role := .lidKey, ser := p.1 }
      else s.drop x.id .lidKey p.1) : Inv A s' ∧ s'.devs = s.devs ∧ s'.mem = s.mem := by
  have hlst : s'.devs = s.devs ∧ s'.mem = s.mem ∧ s'.ser = s.ser ∧ s'.crashed = s.crashed ∧
      ∀ l, l ∈ s'.lst ↔ (closed = true ∧ l = { src := p.2, owner := x.id, role := .lidKey, ser := p.1 }) ∨
        (l ∈ s.lst ∧ ¬(l.owner = x.id ∧ l.role = .lidKey ∧ l.ser = p.1)) := by
    rw [e]
    split
    · rename_i c
      rw [listen_eq (by intro l hl a b d; exact (mem_drop.mp hl).2 ⟨a, b, d⟩)]
      refine ⟨rfl, rfl, rfl, rfl, ?_⟩
      intro l
      rw [List.mem_cons, mem_drop]
      simp [c]
    · rename_i c
      refine ⟨rfl, rfl, rfl, rfl, ?_⟩
      intro l
      rw [mem_drop]
      simp [c]
  obtain ⟨e1, e2, e3, e4, e5⟩ := hlst
  have L : Loc s s' x.id := by
    refine ⟨e1, by omega, fun _ _ => by rw [e2], ?_, e4⟩
    intro l hl
    rw [e5]
    constructor
    · rintro (⟨_, rfl⟩ | a)
      · exact absurd rfl hl
      · exact a.1
    · intro a; exact Or.inr ⟨a, fun c => hl c.1⟩
  have a := h.safe.at_ x hx
  have S : Safe s' := by
    refine L.safe h.safe hx (a.relink .lidKey e1 ?_ ?_ ?_ ?_ ?_ ?_ ?_ ?_) <;> (try rw [e2])
    · exact a.fst
    · rw [e3]; exact a.lt
    · intro _ _; exact Iff.rfl
    · intro _ _ _; exact id
    · intro y hy; exact a.bel .lidKey y hy
    · intro l _ hr
      rw [e5]
      constructor
      · rintro (⟨_, rfl⟩ | c)
        · exact absurd rfl hr
        · exact c.1
      · intro c; exact Or.inr ⟨c, fun d => hr d.2.1⟩
    · intro l hl ho hr
      rcases (e5 l).mp hl with ⟨_, rfl⟩ | c
      · exact ⟨k, hp⟩
      · exact a.own l c.1 ho
    · intro _ _ _ hne; exact absurd rfl hne
  refine ⟨⟨S, ?_, by rw [e1]; exact h.sub⟩, e1, e2⟩
  intro b o y
  rw [e1, e2]
  exact h.full b o y

theorem toggleKeys_inv {A : List Info} {s : St} {x : Info} (h : Inv A s) (hx : x ∈ s.devs) (k : x.kind = .fallback) (closed : Bool) :
    Inv A (toggleKeys s x.id closed) ∧ (toggleKeys s x.id closed).devs = s.devs ∧ (toggleKeys s x.id closed).mem = s.mem := by
  unfold toggleKeys
  have : ∀ (ks : List (Nat × Nat)) (s' : St), (∀ p ∈ ks, p ∈ (s.mem x.id).kbds) → Inv A s' → s'.devs = s.devs → s'.mem = s.mem →
      let r := ks.foldl (fun s k =>
        let s := s.drop x.id .lidKey k.1
        if closed then s.listen { src := k.2, owner := x.id, role := .lidKey, ser := k.1 } else s) s'
      Inv A r ∧ r.devs = s.devs ∧ r.mem = s.mem := by
    intro ks
    induction ks with
    | nil => intro s' _ h' e1 e2; exact ⟨h', e1, e2⟩
    | cons p ks ih =>
      intro s' hp h' e1 e2
      have a := toggle_one h' (e1 ▸ hx) k closed p (by rw [e2]; exact hp p List.mem_cons_self) rfl
      exact ih _ (fun q hq => hp q (List.mem_cons_of_mem _ hq)) a.1 (a.2.1.trans e1) (a.2.2.trans e2)
  exact this _ s (fun _ hp => hp) h rfl rfl

theorem lidEvent_inv {A : List Info} {s : St} {x : Info} (h : Inv A s) (hx : x ∈ s.devs) (k : x.kind = .fallback) (closed : Bool) :
    Inv A (lidEvent s x.id closed) ∧ (lidEvent s x.id closed).devs = s.devs := by
  unfold lidEvent
  have a := toggleKeys_inv h hx k closed
  revert a
  generalize toggleKeys s x.id closed = s1
  intro a
  dsimp only
  split
  · exact ⟨a.1, a.2.1⟩
  · have b := notifyLid_inv (s := s1.upd x.id fun m => { m with closed := closed }) (x := x)
      (a.1.flag (a.2.1 ▸ hx) (fun _ => rfl) (fun _ => rfl) (fun _ => rfl) (fun _ => rfl) (fun _ => rfl) (fun _ => rfl) (fun _ => rfl)
        (fun _ => rfl)) (a.2.1 ▸ hx)
    exact ⟨b.1, b.2.1.trans a.2.1⟩

theorem tabletEvent_inv {A : List Info} (M : Machine A) {s : St} {x : Info} (h : Inv A s) (hx : x ∈ s.devs) (on : Bool) :
    Inv A (tabletEvent s x.id on) ∧ (tabletEvent s x.id on).devs = s.devs := by
  unfold tabletEvent
  split
  · exact ⟨h, rfl⟩
  · exact post_inv M _ _ (h.flag hx (fun _ => rfl) (fun _ => rfl) (fun _ => rfl) (fun _ => rfl) (fun _ => rfl) (fun _ => rfl)
      (fun _ => rfl) (fun _ => rfl))

theorem initialState_inv {A : List Info} (M : Machine A) {s : St} {x : Info} (h : Inv A s) (hx : x ∈ s.devs) :
    Inv A (initialState s x) ∧ (initialState s x).devs = s.devs := by
  unfold initialState
  have a : Inv A (if x.lidSw then
        let s := s.upd x.id fun m => { m with closed := x.closed0, client := false }
        if x.closed0 && x.reliable then notifyLid s x.id else s
      else s) ∧ (if x.lidSw then
        let s := s.upd x.id fun m => { m with closed := x.closed0, client := false }
        if x.closed0 && x.reliable then notifyLid s x.id else s
      else s).devs = s.devs := by
    split
    · have b : Inv A (s.upd x.id fun m => { m with closed := x.closed0, client := false }) :=
        h.flag hx (fun _ => rfl) (fun _ => rfl) (fun _ => rfl) (fun _ => rfl) (fun _ => rfl) (fun _ => rfl) (fun _ => rfl)
          (fun _ => rfl)
      dsimp only
      split
      · have c := notifyLid_inv b (x := x) hx
        exact ⟨c.1, c.2.1⟩
      · exact ⟨b, rfl⟩
    · exact ⟨h, rfl⟩
  revert a
  generalize (if x.lidSw then
        let s := s.upd x.id fun m => { m with closed := x.closed0, client := false }
        if x.closed0 && x.reliable then notifyLid s x.id else s
      else s) = s1
  intro a
  dsimp only
  split
  · have b := post_inv M (.tablet true) x.id a.1
    exact ⟨b.1, b.2.trans a.2⟩
  · exact a

/-! ## Devices come -/

theorem enter_safe {s : St} {x : Info} (h : Safe s) (hx : ∀ d ∈ s.devs, d.id ≠ x.id) (hr : Real x) : Safe (enter s x) := by
  have hmem : ∀ o, o ≠ x.id → (enter s x).mem o = s.mem o := by intro o ho; simp [enter, ho]
  have hx0 : (enter s x).mem x.id = { on := x.tabletSw && x.on0 } := by simp [enter]
  refine ⟨h.fine, ?_, ?_, ?_, ?_⟩
  · show ((s.devs ++ [x]).map Info.id).Nodup
    rw [List.map_append, List.nodup_append]
    refine ⟨h.ids, by simp, ?_⟩
    intro a ha b hb
    obtain ⟨d, hd, rfl⟩ := List.mem_map.mp ha
    have : b = x.id := by simpa using hb
    rw [this]; exact hx d hd
  · intro d hd
    rcases List.mem_append.mp hd with hd | hd
    · exact h.real d hd
    · rw [List.mem_singleton.mp hd]; exact hr
  · intro l hl
    obtain ⟨o, ho, e⟩ := h.owner l hl
    exact ⟨o, List.mem_append_left _ ho, e⟩
  · intro o ho
    rcases List.mem_append.mp ho with ho | ho
    · have a := h.at_ o ho
      have e := hmem o.id (hx o ho)
      refine ⟨?_, ?_, ?_, ?_, ?_⟩
      · rw [e]; exact a.own
      · rw [e]
        intro b y hp
        obtain ⟨X, hX, r⟩ := a.bel b y hp
        exact ⟨X, List.mem_append_left _ hX, r⟩
      · rw [e]; exact a.heard
      · rw [e]; exact a.fst
      · rw [e]; exact a.lt
    · rw [List.mem_singleton.mp ho]
      refine ⟨?_, ?_, ?_, ?_, ?_⟩
      · intro l hl hlo
        obtain ⟨o', ho', e⟩ := h.owner l hl
        exact absurd (e.trans hlo) (hx o' ho')
      · intro b y hp
        rw [hx0] at hp
        cases b <;> simp [Partner] at hp
      · intro l hlo _ he
        rw [hx0] at he
        unfold Entry at he
        cases hr : l.role <;> simp [hr] at he
      · rw [hx0]; simp
      · rw [hx0]; simp

/-- While a device is being introduced to the others: it and those in `done` know each other. -/
def Part (A : List Info) (x : Info) (done : List Info) (s : St) : Prop :=
  ∀ b (o y : Info), b.basic = true → o ∈ s.devs → y ∈ s.devs → y.id ≠ o.id → Bel b o y → Sole A b o →
    (s.mem y.id).suspended = false → (o.id = x.id → y ∈ done) → (y.id = x.id → o ∈ done) → Partner (s.mem o.id) o b y.id

theorem Part.mono {A : List Info} {x : Info} {done : List Info} {s s' : St} (h : Safe s) (f : Part A x done s) (m : Mono s s') :
    Part A x done s' := by
  intro b o y hbb ho hy n hb hs hy' d1 d2
  rw [m.1] at ho hy
  obtain ⟨s1, k1⟩ := m.2 y hy (bel_fallback hbb hb (h.real y hy)) hy'
  exact k1.part o b hbb (f b o y hbb ho hy n hb hs s1 d1 d2)

theorem greet_part {A : List Info} {s : St} {x d : Info} {done : List Info} (h : Safe s) (hA : ∀ d ∈ s.devs, d ∈ A) (hx : x ∈ s.devs)
    (hd : d ∈ s.devs) (n : x.id ≠ d.id) (p : Part A x done s) :
    Safe (greet x s d) ∧ (greet x s d).devs = s.devs ∧ Part A x (d :: done) (greet x s d) := by
  unfold greet
  dsimp only
  have g1 := addedReact_spec h hd hx n
  have m1 := g1.mono h hd
  have p1 : Part A x done (addedReact s d x) := p.mono h m1
  have q1 : ∀ b, b.basic = true → Sole A b d → Bel b d x → Partner ((addedReact s d x).mem d.id) d b x.id :=
    fun b hbb hs hb => addedReact_gain h hA hd hx n hbb hs hb
  revert g1 m1 p1 q1
  generalize addedReact s d x = s1
  intro g1 m1 p1 q1
  have hd1 : d ∈ s1.devs := m1.1 ▸ hd
  have hx1 : x ∈ s1.devs := m1.1 ▸ hx
  have g2 := addedReact_spec g1.safe hx1 hd1 (fun e => n e.symm)
  have m2 := g2.mono g1.safe hx1
  have p2 : Part A x done (addedReact s1 x d) := p1.mono g1.safe m2
  have q2 : ∀ b, b.basic = true → Sole A b x → Bel b x d → Partner ((addedReact s1 x d).mem x.id) x b d.id :=
    fun b hbb hs hb => addedReact_gain g1.safe (m1.1 ▸ hA) hx1 hd1 (fun e => n e.symm) hbb hs hb
  revert g2 m2 p2 q2
  generalize addedReact s1 x d = s2
  intro g2 m2 p2 q2
  have hd2 : d ∈ s2.devs := m2.1 ▸ hd1
  have hx2 : x ∈ s2.devs := m2.1 ▸ hx1
  have fin : ∀ s3, Safe s3 → Mono s2 s3 →
      Safe s3 ∧ s3.devs = s.devs ∧ Part A x (d :: done) s3 := by
    intro s3 h3 m3
    refine ⟨h3, m3.1.trans (m2.1.trans m1.1), ?_⟩
    have p3 := p2.mono g2.safe m3
    intro b o y hbb ho hy hn hb hs hy' d1 d2
    have hodev : o ∈ s.devs := (m3.1.trans (m2.1.trans m1.1)) ▸ ho
    have hydev : y ∈ s.devs := (m3.1.trans (m2.1.trans m1.1)) ▸ hy
    have ky := bel_fallback hbb hb (h.real y hydev)
    by_cases e1 : o.id = x.id
    · have eo := h.inj hodev hx e1
      subst eo
      rcases List.mem_cons.mp (d1 rfl) with e | e
      · subst e
        exact ((m3.2 y hd2 ky hy').2).part o b hbb (q2 b hbb hs hb)
      · exact p3 b o y hbb ho hy hn hb hs hy' (fun _ => e) (fun c => absurd c hn)
    · by_cases e2 : y.id = x.id
      · have ey := h.inj hydev hx e2
        subst ey
        rcases List.mem_cons.mp (d2 rfl) with e | e
        · subst e
          obtain ⟨c3, k3⟩ := m3.2 y hx2 ky hy'
          obtain ⟨c2, k2⟩ := m2.2 y hx1 ky c3
          exact k3.part o b hbb (k2.part o b hbb (q1 b hbb hs hb))
        · exact p3 b o y hbb ho hy hn hb hs hy' (fun c => absurd c e1) (fun _ => e)
      · exact p3 b o y hbb ho hy hn hb hs hy' (fun c => absurd c e1) (fun c => absurd c e2)
  split
  · rename_i c
    have r := suspendedReact_spec (d := x) (x := d) g2.safe hx2
    refine fin _ r.1 ⟨r.2.devs, ?_⟩
    intro y hy hk hs
    have es := r.2.susp y.id (g2.safe.nt hy (by rw [hk]; simp))
    refine ⟨es ▸ hs, r.2.keep y.id ?_⟩
    intro e
    rw [es, e, c] at hs
    cases hs
  · exact fin s2 g2.safe (Mono.refl _)

theorem greet_all {A : List Info} {x : Info} {D : List Info} (hA : ∀ d ∈ D, d ∈ A) (hx : x ∈ D) :
    ∀ (ds done : List Info) (s : St), (∀ d ∈ ds, d ∈ D ∧ x.id ≠ d.id) → Safe s → s.devs = D → Part A x done s →
      Safe (ds.foldl (greet x) s) ∧ (ds.foldl (greet x) s).devs = D ∧ Part A x (ds.reverse ++ done) (ds.foldl (greet x) s) := by
  intro ds
  induction ds with
  | nil => intro done s _ h e p; exact ⟨h, e, p⟩
  | cons d ds ih =>
    intro done s hds h e p
    obtain ⟨hd, n⟩ := hds d List.mem_cons_self
    obtain ⟨a1, a2, a3⟩ := greet_part h (e ▸ hA) (e ▸ hx) (e ▸ hd) n p
    have := ih (d :: done) _ (fun d' h' => hds d' (List.mem_cons_of_mem _ h')) a1 (a2.trans e) a3
    rw [List.foldl_cons, List.reverse_cons, List.append_assoc]
    exact this

theorem greets_inv {A : List Info} (M : Machine A) {s : St} {x : Info} (h : Inv A s) (hx : ∀ d ∈ s.devs, d.id ≠ x.id) (hxA : x ∈ A) :
    Inv A (s.devs.foldl (greet x) (enter s x)) ∧ (s.devs.foldl (greet x) (enter s x)).devs = s.devs ++ [x] := by
  have h0 := enter_safe h.safe hx (M.real x hxA)
  have hA0 : ∀ d ∈ s.devs ++ [x], d ∈ A := by
    intro d hd
    rcases List.mem_append.mp hd with hd | hd
    · exact h.sub d hd
    · rw [List.mem_singleton.mp hd]; exact hxA
  have hmem : ∀ o, o ≠ x.id → (enter s x).mem o = s.mem o := by intro o ho; simp [enter, ho]
  have p0 : Part A x [] (enter s x) := by
    intro b o y hbb ho hy n hb hs hy' d1 d2
    have eo : o.id ≠ x.id := fun e => absurd (d1 e) (by simp)
    have ey : y.id ≠ x.id := fun e => absurd (d2 e) (by simp)
    have back : ∀ z : Info, z ∈ (enter s x).devs → z.id ≠ x.id → z ∈ s.devs := by
      intro z hz ez
      rcases List.mem_append.mp hz with hz | hz
      · exact hz
      · exact absurd (congrArg Info.id (List.mem_singleton.mp hz)) ez
    rw [hmem _ eo]
    rw [hmem _ ey] at hy'
    exact h.full b o y hbb (back o ho eo) (back y hy ey) n hb hs hy'
  have g := greet_all (A := A) (x := x) (D := s.devs ++ [x]) hA0 (by simp) s.devs [] (enter s x)
    (fun d hd => ⟨List.mem_append_left _ hd, fun e => hx d hd e.symm⟩) h0 rfl p0
  revert g
  generalize s.devs.foldl (greet x) (enter s x) = s1
  intro ⟨g1, g2, g3⟩
  have i1 : Inv A s1 := by
    refine ⟨g1, ?_, by rw [g2]; exact hA0⟩
    intro b o y hbb ho hy n hb hs hy'
    have back : ∀ z : Info, z ∈ s1.devs → z.id ≠ x.id → z ∈ s.devs.reverse ++ [] := by
      intro z hz ez
      rw [g2] at hz
      rcases List.mem_append.mp hz with hz | hz
      · simpa using hz
      · exact absurd (congrArg Info.id (List.mem_singleton.mp hz)) ez
    exact g3 b o y hbb ho hy n hb hs hy' (fun e => back y hy (fun c => n (c.trans e.symm))) (fun e => back o ho (fun c => n (e.trans c.symm)))
  exact ⟨i1, g2⟩

theorem addDev_inv {A : List Info} (M : Machine A) {s : St} {x : Info} (h : Inv A s) (hx : ∀ d ∈ s.devs, d.id ≠ x.id) (hxA : x ∈ A) :
    Inv A (addDev s x) ∧ (addDev s x).devs = s.devs ++ [x] := by
  unfold addDev
  obtain ⟨i1, g2⟩ := greets_inv M h hx hxA
  revert i1 g2
  generalize s.devs.foldl (greet x) (enter s x) = s1
  intro i1 g2
  dsimp only
  split
  · have := initialState_inv M i1 (x := x) (by rw [g2]; simp)
    exact ⟨this.1, this.2.trans g2⟩
  · exact ⟨i1, g2⟩

end Libinput.Pairing
