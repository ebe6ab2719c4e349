import Verif.Pairing.Effects
/-!
A device that the client disabled stays off.
-/
namespace Libinput.Pairing
open Spec

/-- The devices of the fallback implementation that are disabled are suspended. -/
def Off (s : St) : Prop := ∀ d ∈ s.devs, d.kind = .fallback → (s.mem d.id).disabled = true → (s.mem d.id).suspended = true

theorem Off.mono {s s' : St} (h : Off s) (m : Mono s s') (e : ∀ y, (s'.mem y).disabled = (s.mem y).disabled) : Off s' := by
  intro d hd k hdis
  rw [m.1] at hd
  rw [e] at hdis
  have := h d hd k hdis
  cases c : (s'.mem d.id).suspended with
  | true => rfl
  | false =>
    have := (m.2 d hd k c).1
    simp_all

theorem Off.mv {s s' : St} {S : Nat → Prop} (h : Off s) (hs : Safe s) (m : Mv s s' All S) (w : ∀ y, NT s.devs y → S y) : Off s' :=
  h.mono ((m.weak (fun _ h => h) w).mono hs) m.mode

theorem Off.flag {s : St} (h : Off s) {i : Nat} {f : Dyn → Dyn} (hd : ∀ m, (f m).disabled = m.disabled)
    (hs : ∀ m, (f m).suspended = m.suspended) : Off (s.upd i f) := by
  intro d hdv k
  by_cases e : d.id = i
  · rw [e, upd_self, hd, hs, ← e]; exact h d hdv k
  · rw [upd_ne _ _ e]; exact h d hdv k

theorem callLid_off {A : List Info} (c : Bool) {s : St} {l : Listener} (h : Inv A s) (hl : l ∈ s.lst) (ho : Off s) :
    Off (callLid c s l) := by
  rcases callLid_cases c h hl with ⟨_, e⟩ | ⟨_, o, hd, _, ko, _, e⟩
  · rw [e]; exact ho
  · rw [e]; split
    · exact ho.mv h.safe (tpSuspend_mv _ _ _) (fun y hy => tp_nt hd ko hy)
    · exact ho.mv h.safe (tpResume_mv _ _ _) (fun y hy => tp_nt hd ko hy)

theorem notifyLid_off {A : List Info} {s : St} {x : Nat} (h : Inv A s) (ho : Off s) : Off (notifyLid s x) := by
  unfold notifyLid
  split
  · have := deliver_inv (call := callLid (s.mem x).closed) (x := x) (I := fun s' => Inv A s' ∧ Off s')
      (by
        intro s' l hI hl _
        have a := callLid_inv (s.mem x).closed hI.1 hl
        exact ⟨⟨a.1, callLid_off _ hI.1 hl hI.2⟩, fun l' h' _ => a.2.2 l' h'⟩)
      (s.of x) s.lst s ⟨h, ho⟩ (fun _ hl _ => hl) of_src
    dsimp only
    exact Off.flag (s := { deliver (callLid (s.mem x).closed) s.lst s (s.of x) with
        log := (deliver (callLid (s.mem x).closed) s.lst s (s.of x)).log ++ [.lid x (s.mem x).closed] })
      (f := fun m => { m with client := m.closed }) this.2 (fun _ => rfl) (fun _ => rfl)
  · exact ho

theorem suspendDev_off {s : St} {f : Info} (h : Safe s) (hf : f ∈ s.devs) (ho : Off s) : Off (suspendDev s f) :=
  ho.mono (suspendDev_mono h hf) (suspendDev_spec h hf).2.1.mode

/-- Resuming a device does not resume another one. -/
theorem resumeDev_others {s : St} {f : Info} (h : Safe s) (hf : f ∈ s.devs) :
    ∀ d ∈ s.devs, d.kind = .fallback → d.id ≠ f.id → ((resumeDev s f).mem d.id).suspended = false → (s.mem d.id).suspended = false := by
  unfold resumeDev
  split
  · have : ∀ (ds : List Info) (s' : St), (∀ d ∈ ds, d ∈ s.devs ∧ d.id ≠ f.id) → Safe s' → s'.devs = s.devs →
        Mono s' (ds.foldl (fun s d => resumedReact s d f) s') := by
      intro ds
      induction ds with
      | nil => intro s' _ _ _; exact Mono.refl _
      | cons d ds ih =>
        intro s' hds hs e
        obtain ⟨hd, n⟩ := hds d List.mem_cons_self
        have g := resumedReact_spec (d := d) (x := f) hs (e ▸ hd) (e ▸ hf) (fun c => n c.symm)
        exact (g.mono hs (e ▸ hd)).trans (ih _ (fun d' h' => hds d' (List.mem_cons_of_mem _ h')) g.safe (g.mv.devs.trans e))
    have m := this (s.others f.id) s (fun d hd => others_mem.mp hd) h rfl
    intro d hd k n c
    rw [upd_ne _ _ n] at c
    exact (m.2 d hd k c).1
  · intro d _ _ _ c; exact c

theorem resumeDev_off {A : List Info} {s : St} {f : Info} (h : Inv A s) (hf : f ∈ s.devs)
    (ho : ∀ d ∈ s.devs, d.kind = .fallback → d.id ≠ f.id → (s.mem d.id).disabled = true → (s.mem d.id).suspended = true) :
    ∀ d ∈ s.devs, d.kind = .fallback → d.id ≠ f.id → ((resumeDev s f).mem d.id).disabled = true → ((resumeDev s f).mem d.id).suspended = true := by
  intro d hd k n hdis
  rw [((resumeDev_spec h.safe hf h.sub h.full).2.2.2.2.1 d.id).1] at hdis
  have a := ho d hd k n hdis
  cases c : ((resumeDev s f).mem d.id).suspended with
  | true => rfl
  | false =>
    have := resumeDev_others h.safe hf d hd k n c
    simp_all

theorem call_off {A : List Info} (ev : Ev) {s : St} {l : Listener} (h : Inv A s) (hl : l ∈ s.lst) (ho : Off s) : Off (call ev s l) := by
  obtain ⟨o, hd, e, hf, he⟩ := listener_find h.safe hl
  unfold call
  rw [hf]
  dsimp only
  split
  · exact ho
  · exact ho
  · split
    · exact notifyLid_off (h.flag hd (f := fun m => { m with closed := false }) (fun _ => rfl) (fun _ => rfl) (fun _ => rfl) (fun _ => rfl)
        (fun _ => rfl) (fun _ => rfl) (fun _ => rfl) (fun _ => rfl)) (ho.flag (fun _ => rfl) (fun _ => rfl))
    · exact ho
  · split
    · rename_i k
      split
      · exact ho.mv h.safe (tpSuspend_mv _ _ _) (fun y hy => tp_nt hd k hy)
      · exact ho.mv h.safe (tpResume_mv _ _ _) (fun y hy => tp_nt hd k hy)
    · split
      · exact suspendDev_off h.safe hd ho
      · split
        · exact ho
        · rename_i c
          have r := resumeDev_spec h.safe hd h.sub h.full
          intro d hd' k hdis
          rw [r.2.1] at hd'
          by_cases n : d.id = o.id
          · rw [n, (r.2.2.2.2.1 o.id).1] at hdis
            exact absurd hdis c
          · exact resumeDev_off h hd (fun d h1 h2 _ => ho d h1 h2) d hd' k n hdis
  · exact ho

theorem post_off {A : List Info} (M : Machine A) (ev : Ev) {s : St} (x : Nat) (h : Inv A s) (ho : Off s) : Off (post s x ev) := by
  unfold post
  exact (deliver_inv (call := call ev) (x := x) (I := fun s' => Inv A s' ∧ Off s')
    (by
      intro s' l hI hl hx
      have a := call_inv M ev hI.1 hl
      exact ⟨⟨a.1, call_off ev hI.1 hl hI.2⟩, fun l' h' e => a.2.2 l' h' (e.trans hx.symm)⟩)
    (s.of x) s.lst s ⟨h, ho⟩ (fun _ hl _ => hl) of_src).2

theorem greets_off {x : Info} {D : List Info} (hx : x ∈ D) :
    ∀ (ds : List Info) (s : St), (∀ d ∈ ds, d ∈ D ∧ x.id ≠ d.id) → Safe s → s.devs = D → Off s → Off (ds.foldl (greet x) s) := by
  intro ds
  induction ds with
  | nil => intro s _ _ _ h; exact h
  | cons d ds ih =>
    intro s hds h e ho
    obtain ⟨hd, n⟩ := hds d List.mem_cons_self
    have g1 := addedReact_spec (x := x) h (e ▸ hd) (e ▸ hx) n
    have e1 := g1.mv.devs.trans e
    have g2 := addedReact_spec (d := x) (x := d) g1.safe (e1 ▸ hx) (e1 ▸ hd) (fun c => n c.symm)
    have e2 := g2.mv.devs.trans e1
    have o1 := ho.mono (g1.mono h (e ▸ hd)) g1.mv.mode
    have o2 := o1.mono (g2.mono g1.safe (e1 ▸ hx)) g2.mv.mode
    have fin : Safe (greet x s d) ∧ (greet x s d).devs = D ∧ Off (greet x s d) := by
      unfold greet
      dsimp only
      split
      · have r := suspendedReact_spec (d := x) (x := d) g2.safe (e2 ▸ hx)
        refine ⟨r.1, r.2.devs.trans e2, ?_⟩
        intro y hy k hdis
        rw [r.2.mode] at hdis
        have hy2 := r.2.devs ▸ hy
        rw [r.2.susp y.id (g2.safe.nt hy2 (by rw [k]; simp))]
        exact o2 y hy2 k hdis
      · exact ⟨g2.safe, e2, o2⟩
    exact ih _ (fun d' h' => hds d' (List.mem_cons_of_mem _ h')) fin.1 fin.2.1 fin.2.2

theorem initialState_off {A : List Info} (M : Machine A) {s : St} {x : Info} (h : Inv A s) (hx : x ∈ s.devs) (ho : Off s) :
    Off (initialState s x) := by
  unfold initialState
  have a : Off (if x.lidSw then
        let s := s.upd x.id fun m => { m with closed := x.closed0, client := false }
        if x.closed0 && x.reliable then notifyLid s x.id else s
      else s) ∧ Inv A (if x.lidSw then
        let s := s.upd x.id fun m => { m with closed := x.closed0, client := false }
        if x.closed0 && x.reliable then notifyLid s x.id else s
      else s) := by
    split
    · have b : Inv A (s.upd x.id fun m => { m with closed := x.closed0, client := false }) :=
        h.flag hx (fun _ => rfl) (fun _ => rfl) (fun _ => rfl) (fun _ => rfl) (fun _ => rfl) (fun _ => rfl) (fun _ => rfl)
          (fun _ => rfl)
      have o1 : Off (s.upd x.id fun m => { m with closed := x.closed0, client := false }) := ho.flag (fun _ => rfl) (fun _ => rfl)
      dsimp only
      split
      · exact ⟨notifyLid_off b o1, (notifyLid_inv b (x := x) hx).1⟩
      · exact ⟨o1, b⟩
    · exact ⟨ho, h⟩
  revert a
  generalize (if x.lidSw then
        let s := s.upd x.id fun m => { m with closed := x.closed0, client := false }
        if x.closed0 && x.reliable then notifyLid s x.id else s
      else s) = s1
  intro a
  dsimp only
  split
  · exact post_off M _ x.id a.2 a.1
  · exact a.1

theorem step_off {A : List Info} (M : Machine A) {s : St} {op : Op} (h : Inv A s) (ho : Off s) (hop : ∀ x, op = .add x → x ∈ A) :
    Off (step s op) := by
  unfold step
  rw [if_neg (by rw [h.safe.fine]; simp)]
  dsimp only
  have h0 := h.log []
  have o0 : Off ({ s with log := [] } : St) := ho
  revert h0 o0
  generalize ({ s with log := [] } : St) = s0
  intro h0 o0
  have ev : ∀ (id : Nat) (ok : Info → Bool) (f : St → St), (∀ x ∈ s0.devs, x.id = id → x.kind = .fallback → Off (f s0)) →
      Off (event s0 id ok f) := by
    intro id ok f hf
    unfold event
    split
    · exact o0
    · rename_i x e
      split
      · rename_i c
        exact hf x (find_some e).1 (find_some e).2 c.1
      · exact o0
  cases op with
  | add x =>
    dsimp only
    split
    · exact o0
    · rename_i c
      have hx : ∀ d ∈ s0.devs, d.id ≠ x.id := by
        intro d hd e
        refine c (Option.isSome_iff_exists.mpr ⟨d, ?_⟩)
        rw [← e]; exact find_of h0.safe hd
      have hxA := hop x rfl
      unfold addDev
      dsimp only
      have g := greets_inv M h0 hx hxA
      have oe : Off (enter s0 x) := by
        intro d hd k
        rcases List.mem_append.mp hd with hd | hd
        · have n := hx d hd
          have : (enter s0 x).mem d.id = s0.mem d.id := by simp [enter, n]
          rw [this]; exact o0 d hd k
        · have e : d = x := by simpa using hd
          subst e
          intro c; simp [enter] at c
      have gl := greets_off (x := x) (D := s0.devs ++ [x]) (by simp) s0.devs (enter s0 x)
        (fun d hd => ⟨by simp [hd], fun e => hx d hd e.symm⟩) (enter_safe h0.safe hx (M.real x hxA)) rfl oe
      revert g gl
      generalize s0.devs.foldl (greet x) (enter s0 x) = s1
      intro g gl
      split
      · exact initialState_off M g.1 (by rw [g.2]; simp) gl
      · exact gl
  | remove i =>
    dsimp only
    split
    · exact o0
    · rename_i x c
      have hx := (find_some c).1
      unfold removeDev
      dsimp only
      obtain ⟨i1, i2, _⟩ := removed_loop (x := x) (D := s0.devs) (s0.others x.id) s0 (fun d hd => others_mem.mp hd) h0.safe rfl
      obtain ⟨j1, j2, _⟩ := suspendDev_spec i1 (i2.devs ▸ hx)
      obtain ⟨k1, _, _, _, k5, _⟩ := leave_spec j1 (j2.devs ▸ i2.devs ▸ hx)
      have e1 := i2.devs
      have e2 := j2.devs
      intro d hd k
      have hd' := List.mem_filter.mp hd
      have n : d.id ≠ x.id := by simpa using hd'.2
      have hdm := hd'.1
      rw [k1, j2.devs, i2.devs] at hdm
      have nt : NT s0.devs d.id := h0.safe.nt hdm (by rw [k]; simp)
      show ((leave _ x).mem d.id).disabled = true → ((leave _ x).mem d.id).suspended = true
      rw [k5 _ n, j2.mode, i2.mode, j2.susp d.id ⟨n, by rw [i2.devs]; exact nt⟩, i2.susp d.id nt]
      exact o0 d hdm k
  | mode i v =>
    dsimp only
    split
    · exact o0
    · rename_i x c
      have hx := (find_some c).1
      unfold setMode
      split
      · exact o0
      · dsimp only
        have key : ∀ s' : St, s'.devs = s0.devs → (∀ d ∈ s0.devs, d.kind = .fallback → d.id ≠ x.id →
            (s'.mem d.id).disabled = true → (s'.mem d.id).suspended = true) →
            (x.kind = .fallback → v = true → (s'.mem x.id).suspended = true) → Off (s'.upd x.id fun m => { m with disabled := v }) := by
          intro s' e1 e2 e3 d hd k
          have hd' : d ∈ s0.devs := by rw [← e1]; exact hd
          by_cases n : d.id = x.id
          · have : d = x := h0.safe.inj hd' hx n
            subst this
            rw [upd_self]; exact e3 k
          · rw [upd_ne _ _ n]; exact e2 d hd' k n
        split
        · rename_i k
          have w : ∀ s' : St, Mv s0 s' All (· ≠ x.id) → Off (s'.upd x.id fun m => { m with disabled := v }) := by
            intro s' m
            have o1 := o0.mv h0.safe m (fun y hy => tp_nt hx k hy)
            refine key s' m.devs (fun d hd kd _ => o1 d (m.devs ▸ hd) kd) (fun c => ?_)
            rw [k] at c; cases c
          split
          · exact w _ (tpSuspend_mv _ _ _)
          · exact w _ (tpResume_mv _ _ _)
        · rename_i k
          exact key s0 rfl (fun d hd kd _ => o0 d hd kd) (fun c => by rw [k] at c; cases c)
        · split
          · have o1 := suspendDev_off h0.safe hx o0
            have sp := suspendDev_spec h0.safe hx
            exact key _ sp.2.1.devs (fun d hd kd _ => o1 d (sp.2.1.devs ▸ hd) kd) (fun _ _ => sp.2.2)
          · rename_i hv
            have r := resumeDev_spec h0.safe hx h0.sub h0.full
            exact key _ r.2.1 (fun d hd kd n => resumeDev_off h0 hx (fun d h1 h2 _ => o0 d h1 h2) d hd kd n) (fun _ c => absurd c hv)
  | lid i v =>
    refine ev _ _ _ fun x hx e k => ?_
    subst e
    unfold lidEvent
    have a := toggleKeys_inv h0 hx k v
    revert a
    generalize toggleKeys s0 x.id v = s1
    intro a
    dsimp only
    have n1 : Off s1 := by intro d; rw [a.2.1, a.2.2]; exact o0 d
    split
    · exact n1
    · exact notifyLid_off (s := s1.upd x.id fun m => { m with closed := v }) (x := x.id)
        (a.1.flag (a.2.1 ▸ hx) (fun _ => rfl) (fun _ => rfl) (fun _ => rfl) (fun _ => rfl) (fun _ => rfl) (fun _ => rfl) (fun _ => rfl)
        (fun _ => rfl)) (n1.flag (fun _ => rfl) (fun _ => rfl))
  | tablet i v =>
    refine ev _ _ _ fun x hx e k => ?_
    subst e
    unfold tabletEvent
    split
    · exact o0
    · exact post_off (s := s0.upd x.id fun m => { m with on := v }) M _ x.id
        (h0.flag hx (fun _ => rfl) (fun _ => rfl) (fun _ => rfl) (fun _ => rfl) (fun _ => rfl) (fun _ => rfl)
      (fun _ => rfl) (fun _ => rfl)) (o0.flag (fun _ => rfl) (fun _ => rfl))
  | key i => exact ev _ _ _ fun x hx e k => post_off M _ _ h0 o0
  | pointer i => exact ev _ _ _ fun x hx e k => post_off M _ _ h0 o0

theorem run_off {A : List Info} (M : Machine A) : ∀ (ops : List Op) (s : St), Inv A s → Off s → (∀ x ∈ adds ops, x ∈ A) →
    Off (run s ops) := by
  intro ops
  induction ops with
  | nil => intro s _ h _; exact h
  | cons op ops ih =>
    intro s h hf hA
    have hop : ∀ x, op = .add x → x ∈ A := fun x e => hA x (mem_adds List.mem_cons_self e)
    exact ih (step s op) (step_inv M (op := op) h hop).1 (step_off M h hf hop) (fun x hx => hA x (by cases op <;> simp [adds, hx]))

theorem history_off {ops : List Op} (M : Machine (adds ops)) : Off (run {} ops) :=
  run_off M ops {} (init_inv _) (by intro t ht; cases ht) (fun _ h => h)

end Libinput.Pairing
