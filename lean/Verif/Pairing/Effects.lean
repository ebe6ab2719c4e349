import Verif.Pairing.Reasons
/-!
What devices hear, and what the switches do.
-/
namespace Libinput.Pairing
open Spec

/-- Only lids are heard of. -/
def OnlyLid (o : List Out) : Prop := ∀ e ∈ o, ∃ x c, e = .lid x c

theorem callLid_log {A : List Info} (c : Bool) {s : St} {l : Listener} (h : Inv A s) (hl : l ∈ s.lst) : (callLid c s l).log = s.log := by
  rcases callLid_cases c h hl with ⟨_, e⟩ | ⟨_, o, _, _, _, _, e⟩
  · rw [e]
  · rw [e]; split
    · exact (tpSuspend_mv _ _ _).log
    · exact (tpResume_mv _ _ _).log

theorem notifyLid_log {A : List Info} {s : St} {x : Nat} (h : Inv A s) :
    (notifyLid s x).log = s.log ∨ ((s.mem x).closed ≠ (s.mem x).client ∧ (notifyLid s x).log = s.log ++ [.lid x (s.mem x).closed]) := by
  unfold notifyLid
  split
  · rename_i c
    have := deliver_inv (call := callLid (s.mem x).closed) (x := x) (I := fun s' => Inv A s' ∧ s'.log = s.log)
      (by
        intro s' l hI hl _
        have a := callLid_inv (s.mem x).closed hI.1 hl
        exact ⟨⟨a.1, (callLid_log _ hI.1 hl).trans hI.2⟩, fun l' h' _ => a.2.2 l' h'⟩)
      (s.of x) s.lst s ⟨h, rfl⟩ (fun _ hl _ => hl) of_src
    refine Or.inr ⟨by simpa using c, ?_⟩
    dsimp only
    rw [upd_log, this.2]
  · exact Or.inl rfl

theorem call_log {A : List Info} (ev : Ev) {s : St} {l : Listener} (h : Inv A s) (hl : l ∈ s.lst) :
    ∃ r, (call ev s l).log = s.log ++ r ∧ ∀ e ∈ r, (∃ x c, e = .lid x c) ∨ (ev = .key ∧ l.role = .typing ∧ e = .typing l.owner l.src) ∨
      (ev = .pointer ∧ l.role = .stick ∧ e = .stick l.owner l.src) := by
  obtain ⟨o, ho, e, hf, he⟩ := listener_find h.safe hl
  have nil : ∀ s' : St, s'.log = s.log → ∃ r, s'.log = s.log ++ r ∧
      ∀ e ∈ r, (∃ x c, e = .lid x c) ∨ (ev = .key ∧ l.role = .typing ∧ e = .typing l.owner l.src) ∨
      (ev = .pointer ∧ l.role = .stick ∧ e = .stick l.owner l.src) := by
    intro s' es
    exact ⟨[], by simpa using es, fun e he => by cases he⟩
  unfold call
  rw [hf]
  dsimp only
  split
  · rename_i hr
    exact ⟨[.typing o.id l.src], rfl, fun e' h' => Or.inr (Or.inl ⟨rfl, hr, by rw [List.mem_singleton.mp h', e]⟩)⟩
  · rename_i hr
    exact ⟨[.stick o.id l.src], rfl, fun e' h' => Or.inr (Or.inr ⟨rfl, hr, by rw [List.mem_singleton.mp h', e]⟩)⟩
  · split
    · have i1 := h.flag ho (f := fun m => { m with closed := false }) (fun _ => rfl) (fun _ => rfl) (fun _ => rfl) (fun _ => rfl) (fun _ => rfl)
        (fun _ => rfl) (fun _ => rfl) (fun _ => rfl)
      rcases notifyLid_log (x := o.id) i1 with a | a
      · exact nil _ a
      · exact ⟨_, a.2, fun e' h' => Or.inl ⟨_, _, List.mem_singleton.mp h'⟩⟩
    · exact nil _ rfl
  · split
    · split
      · exact nil _ (tpSuspend_mv _ _ _).log
      · exact nil _ (tpResume_mv _ _ _).log
    · split
      · exact nil _ (suspendDev_spec h.safe ho).2.1.log
      · split
        · exact nil _ rfl
        · exact nil _ (resumeDev_spec h.safe ho h.sub h.full).2.2.2.2.2.2.1
  · exact nil _ rfl

/-- What is heard of an event. -/
theorem post_log {A : List Info} (M : Machine A) (ev : Ev) {s : St} (x : Nat) (h : Inv A s) (hlog : OnlyLid s.log) :
    ∀ e ∈ (post s x ev).log, (∃ y c, e = .lid y c) ∨
      (ev = .key ∧ ∃ t ∈ s.devs, ∃ k ∈ s.devs, k.id = x ∧ Bel .typing t k ∧ e = .typing t.id x) ∨
      (ev = .pointer ∧ ∃ t ∈ s.devs, ∃ k ∈ s.devs, k.id = x ∧ Bel .stick t k ∧ t.monitor = true ∧ e = .stick t.id x) := by
  unfold post
  have := deliver_inv (call := call ev) (x := x) (I := fun s' => Inv A s' ∧ s'.devs = s.devs ∧
      ∀ e ∈ s'.log, (∃ y c, e = .lid y c) ∨
      (ev = .key ∧ ∃ t ∈ s.devs, ∃ k ∈ s.devs, k.id = x ∧ Bel .typing t k ∧ e = .typing t.id x) ∨
      (ev = .pointer ∧ ∃ t ∈ s.devs, ∃ k ∈ s.devs, k.id = x ∧ Bel .stick t k ∧ t.monitor = true ∧ e = .stick t.id x))
    (by
      intro s' l ⟨i, d, g⟩ hl hs
      have a := call_inv M ev i hl
      refine ⟨⟨a.1, a.2.1.trans d, ?_⟩, fun l' h' e => a.2.2 l' h' (e.trans hs.symm)⟩
      obtain ⟨r, hr, hall⟩ := call_log ev i hl
      intro e he
      rw [hr] at he
      rcases List.mem_append.mp he with he | he
      · exact g e he
      · obtain ⟨o, ho, eo, _, hent⟩ := listener_find i.safe hl
        unfold Entry at hent
        rcases hall e he with a | ⟨a, b, c⟩ | ⟨a, b, c⟩
        · exact Or.inl a
        · rw [b] at hent
          obtain ⟨X, hX, eX, _, bX⟩ := (i.safe.at_ o ho).bel .typing l.src ⟨hent.1, _, hent.2⟩
          exact Or.inr (Or.inl ⟨a, o, d ▸ ho, X, d ▸ hX, eX.trans hs, bX, by rw [c, hs, eo]⟩)
        · rw [b] at hent
          obtain ⟨X, hX, eX, _, bX⟩ := (i.safe.at_ o ho).bel .stick l.src ⟨hent.1, hent.2.1⟩
          exact Or.inr (Or.inr ⟨a, o, d ▸ ho, X, d ▸ hX, eX.trans hs, bX, hent.2.2.2, by rw [c, hs, eo]⟩))
    (s.of x) s.lst s ⟨h, rfl, fun e he => Or.inl (hlog e he)⟩ (fun _ hl _ => hl) of_src
  exact this.2.2

theorem call_grows {A : List Info} (ev : Ev) {s : St} {l : Listener} (h : Inv A s) (hl : l ∈ s.lst) {e : Out} (he : e ∈ s.log) :
    e ∈ (call ev s l).log := by
  obtain ⟨r, hr, _⟩ := call_log ev h hl
  rw [hr]; exact List.mem_append_left _ he

/-- A key is heard by whoever listens. -/
theorem post_key {A : List Info} (M : Machine A) {s : St} {t k : Info} (h : Inv A s) (ht : t ∈ s.devs) (kt : t.kind = .touchpad)
    (hp : Partner (s.mem t.id) t .typing k.id) : .typing t.id k.id ∈ (post s k.id .key).log := by
  obtain ⟨_, n, hn⟩ := hp
  have hlst : ({ src := k.id, owner := t.id, role := .typing, ser := n } : Listener) ∈ s.lst :=
    (h.safe.at_ t ht).heard _ rfl (by simp) ⟨kt, hn⟩
  unfold post
  refine deliver_reach (call := call .key) (x := k.id) (I := fun s' => Inv A s')
    (l := { src := k.id, owner := t.id, role := .typing, ser := n }) (Q := fun s' => .typing t.id k.id ∈ s'.log) ?_ ?_ ?_
    (s.of k.id) s.lst s h (fun _ hl _ => hl) of_src (Or.inl ⟨List.mem_filter.mpr ⟨hlst, by simp⟩, hlst⟩)
  · intro s' l hI hl hs
    have a := call_inv M .key hI hl
    exact ⟨a.1, fun l' h' e => a.2.2 l' h' (e.trans hs.symm)⟩
  · intro s' hI hl
    obtain ⟨o, ho, e, hf, _⟩ := listener_find hI.safe hl
    unfold call
    rw [hf]
    dsimp only at e ⊢
    rw [e]; simp
  · intro s' l' hI hq hl _
    exact call_grows _ hI hl hq

theorem post_pointer {A : List Info} (M : Machine A) {s : St} {t p : Info} (h : Inv A s) (ht : t ∈ s.devs) (kt : t.kind = .touchpad)
    (hm : t.monitor = true) (hp : Partner (s.mem t.id) t .stick p.id) : .stick t.id p.id ∈ (post s p.id .pointer).log := by
  have hlst : ({ src := p.id, owner := t.id, role := .stick } : Listener) ∈ s.lst :=
    (h.safe.at_ t ht).heard _ rfl (by simp) ⟨kt, hp.2, rfl, hm⟩
  unfold post
  refine deliver_reach (call := call .pointer) (x := p.id) (I := fun s' => Inv A s')
    (l := { src := p.id, owner := t.id, role := .stick }) (Q := fun s' => .stick t.id p.id ∈ s'.log) ?_ ?_ ?_
    (s.of p.id) s.lst s h (fun _ hl _ => hl) of_src (Or.inl ⟨List.mem_filter.mpr ⟨hlst, by simp⟩, hlst⟩)
  · intro s' l hI hl hs
    have a := call_inv M .pointer hI hl
    exact ⟨a.1, fun l' h' e => a.2.2 l' h' (e.trans hs.symm)⟩
  · intro s' hI hl
    obtain ⟨o, ho, e, hf, _⟩ := listener_find hI.safe hl
    unfold call
    rw [hf]
    dsimp only at e ⊢
    rw [e]; simp
  · intro s' l' hI hq hl _
    exact call_grows _ hI hl hq

/-! ## What else is heard -/

theorem greets_log {A : List Info} {x : Info} {D : List Info} (hx : x ∈ D) :
    ∀ (ds : List Info) (s : St), (∀ d ∈ ds, d ∈ D ∧ x.id ≠ d.id) → Safe s → s.devs = D → (ds.foldl (greet x) s).log = s.log := by
  intro ds
  induction ds with
  | nil => intro s _ _ _; rfl
  | cons d ds ih =>
    intro s hds h e
    obtain ⟨hd, n⟩ := hds d List.mem_cons_self
    have g1 := addedReact_spec (x := x) h (e ▸ hd) (e ▸ hx) n
    have e1 := g1.mv.devs.trans e
    have g2 := addedReact_spec (d := x) (x := d) g1.safe (e1 ▸ hx) (e1 ▸ hd) (fun c => n c.symm)
    have e2 := g2.mv.devs.trans e1
    have fin : Safe (greet x s d) ∧ (greet x s d).devs = D ∧ (greet x s d).log = s.log := by
      unfold greet
      dsimp only
      split
      · have r := suspendedReact_spec (d := x) (x := d) g2.safe (e2 ▸ hx)
        exact ⟨r.1, r.2.devs.trans e2, r.2.log.trans (g2.mv.log.trans g1.mv.log)⟩
      · exact ⟨g2.safe, e2, g2.mv.log.trans g1.mv.log⟩
    rw [List.foldl_cons, ih _ (fun d' h' => hds d' (List.mem_cons_of_mem _ h')) fin.1 fin.2.1]
    exact fin.2.2

theorem onlyLid_append {a b : List Out} (h : OnlyLid a) (k : OnlyLid b) : OnlyLid (a ++ b) := by
  intro e he
  rcases List.mem_append.mp he with he | he
  · exact h e he
  · exact k e he

theorem notifyLid_only {A : List Info} {s : St} {x : Nat} (h : Inv A s) (hl : OnlyLid s.log) : OnlyLid (notifyLid s x).log := by
  rcases notifyLid_log (x := x) h with a | a
  · rw [a]; exact hl
  · rw [a.2]; exact onlyLid_append hl (fun e he => ⟨_, _, List.mem_singleton.mp he⟩)

theorem post_only {A : List Info} (M : Machine A) (v : Bool) {s : St} (x : Nat) (h : Inv A s) (hl : OnlyLid s.log) :
    OnlyLid (post s x (.tablet v)).log := by
  intro e he
  rcases post_log M (.tablet v) x h hl e he with a | a | a
  · exact a
  · cases a.1
  · cases a.1

theorem initialState_only {A : List Info} (M : Machine A) {s : St} {x : Info} (h : Inv A s) (hx : x ∈ s.devs) (hl : OnlyLid s.log) :
    OnlyLid (initialState s x).log := by
  unfold initialState
  have a : OnlyLid (if x.lidSw then
        let s := s.upd x.id fun m => { m with closed := x.closed0, client := false }
        if x.closed0 && x.reliable then notifyLid s x.id else s
      else s).log ∧ Inv A (if x.lidSw then
        let s := s.upd x.id fun m => { m with closed := x.closed0, client := false }
        if x.closed0 && x.reliable then notifyLid s x.id else s
      else s) := by
    split
    · have b : Inv A (s.upd x.id fun m => { m with closed := x.closed0, client := false }) :=
        h.flag hx (fun _ => rfl) (fun _ => rfl) (fun _ => rfl) (fun _ => rfl) (fun _ => rfl) (fun _ => rfl) (fun _ => rfl)
          (fun _ => rfl)
      dsimp only
      split
      · exact ⟨notifyLid_only b hl, (notifyLid_inv b (x := x) hx).1⟩
      · exact ⟨hl, b⟩
    · exact ⟨hl, h⟩
  revert a
  generalize (if x.lidSw then
        let s := s.upd x.id fun m => { m with closed := x.closed0, client := false }
        if x.closed0 && x.reliable then notifyLid s x.id else s
      else s) = s1
  intro a
  dsimp only
  split
  · exact post_only M true x.id a.2 a.1
  · exact a.1

theorem toggleKeys_log (s : St) (x : Nat) (c : Bool) : (toggleKeys s x c).log = s.log := by
  unfold toggleKeys
  generalize (s.mem x).kbds = ks
  induction ks generalizing s with
  | nil => rfl
  | cons p ks ih =>
    rw [List.foldl_cons, ih]
    dsimp only
    split
    · rw [listen_log]; rfl
    · rfl

/-- What is heard in one step. -/
theorem step_log {A : List Info} (M : Machine A) {s : St} {op : Op} (h : Inv A s) (hop : ∀ x, op = .add x → x ∈ A) :
    ∀ e ∈ (step s op).log, (∃ y c, e = .lid y c) ∨
      (∃ t ∈ s.devs, ∃ k ∈ s.devs, op = .key k.id ∧ (s.mem k.id).suspended = false ∧ Bel .typing t k ∧ e = .typing t.id k.id) ∨
      (∃ t ∈ s.devs, ∃ k ∈ s.devs, op = .pointer k.id ∧ (s.mem k.id).suspended = false ∧ Bel .stick t k ∧ t.monitor = true ∧
        e = .stick t.id k.id) := by
  have only : ∀ l : List Out, OnlyLid l → ∀ e ∈ l, (∃ y c, e = .lid y c) ∨
      (∃ t ∈ s.devs, ∃ k ∈ s.devs, op = .key k.id ∧ (s.mem k.id).suspended = false ∧ Bel .typing t k ∧ e = .typing t.id k.id) ∨
      (∃ t ∈ s.devs, ∃ k ∈ s.devs, op = .pointer k.id ∧ (s.mem k.id).suspended = false ∧ Bel .stick t k ∧ t.monitor = true ∧
        e = .stick t.id k.id) := fun l hl e he => Or.inl (hl e he)
  unfold step
  rw [if_neg (by rw [h.safe.fine]; simp)]
  dsimp only
  have h0 := h.log []
  have l0 : ({ s with log := [] } : St).log = [] := rfl
  have e0 : ({ s with log := [] } : St).devs = s.devs := rfl
  have m0 : ({ s with log := [] } : St).mem = s.mem := rfl
  revert h0 l0 e0 m0
  generalize ({ s with log := [] } : St) = s0
  intro h0 l0 e0 m0
  have nil : OnlyLid s0.log := by rw [l0]; intro e he; cases he
  have ev : ∀ (id : Nat) (ok : Info → Bool) (f : St → St), (∀ x ∈ s0.devs, x.id = id → x.kind = .fallback → OnlyLid (f s0).log) →
      OnlyLid (event s0 id ok f).log := by
    intro id ok f hf
    unfold event
    split
    · exact nil
    · rename_i x e
      split
      · rename_i c
        exact hf x (find_some e).1 (find_some e).2 c.1
      · exact nil
  cases op with
  | add x =>
    refine only _ ?_
    dsimp only
    split
    · exact nil
    · rename_i c
      have hx : ∀ d ∈ s0.devs, d.id ≠ x.id := by
        intro d hd e
        refine c (Option.isSome_iff_exists.mpr ⟨d, ?_⟩)
        rw [← e]; exact find_of h0.safe hd
      have hxA := hop x rfl
      unfold addDev
      dsimp only
      have g := greets_inv M h0 hx hxA
      have gl := greets_log (A := A) (x := x) (D := s0.devs ++ [x]) (by simp) s0.devs (enter s0 x)
        (fun d hd => ⟨by simp [hd], fun e => hx d hd e.symm⟩) (enter_safe h0.safe hx (M.real x hxA)) rfl
      revert g gl
      generalize s0.devs.foldl (greet x) (enter s0 x) = s1
      intro g gl
      have n1 : OnlyLid s1.log := by rw [gl]; exact nil
      split
      · exact initialState_only M g.1 (by rw [g.2]; simp) n1
      · exact n1
  | remove i =>
    refine only _ ?_
    dsimp only
    split
    · exact nil
    · rename_i x c
      have hx := (find_some c).1
      unfold removeDev
      dsimp only
      obtain ⟨i1, i2, _⟩ := removed_loop (x := x) (D := s0.devs) (s0.others x.id) s0 (fun d hd => others_mem.mp hd) h0.safe rfl
      obtain ⟨j1, j2, _⟩ := suspendDev_spec i1 (i2.devs ▸ hx)
      obtain ⟨_, _, _, k4, _⟩ := leave_spec j1 (j2.devs ▸ i2.devs ▸ hx)
      rw [k4, j2.log, i2.log]; exact nil
  | mode i v =>
    refine only _ ?_
    dsimp only
    split
    · exact nil
    · rename_i x c
      have hx := (find_some c).1
      unfold setMode
      split
      · exact nil
      · dsimp only
        rw [upd_log]
        split
        · split
          · rw [(tpSuspend_mv _ _ _).log]; exact nil
          · rw [(tpResume_mv _ _ _).log]; exact nil
        · exact nil
        · split
          · rw [(suspendDev_spec h0.safe hx).2.1.log]; exact nil
          · rw [(resumeDev_spec h0.safe hx h0.sub h0.full).2.2.2.2.2.2.1]; exact nil
  | lid i v =>
    refine only _ (ev _ _ _ fun x hx e k => ?_)
    subst e
    unfold lidEvent
    have a := toggleKeys_inv h0 hx k v
    have b := toggleKeys_log s0 x.id v
    revert a b
    generalize toggleKeys s0 x.id v = s1
    intro a b
    dsimp only
    have n1 : OnlyLid s1.log := by rw [b]; exact nil
    split
    · exact n1
    · exact notifyLid_only (s := s1.upd x.id fun m => { m with closed := v }) (x := x.id)
        (a.1.flag (a.2.1 ▸ hx) (fun _ => rfl) (fun _ => rfl) (fun _ => rfl) (fun _ => rfl) (fun _ => rfl) (fun _ => rfl) (fun _ => rfl)
        (fun _ => rfl)) n1
  | tablet i v =>
    refine only _ (ev _ _ _ fun x hx e k => ?_)
    subst e
    unfold tabletEvent
    split
    · exact nil
    · exact post_only (s := s0.upd x.id fun m => { m with on := v }) M v x.id
        (h0.flag hx (fun _ => rfl) (fun _ => rfl) (fun _ => rfl) (fun _ => rfl) (fun _ => rfl) (fun _ => rfl)
      (fun _ => rfl) (fun _ => rfl)) nil
  | key i =>
    dsimp only
    unfold event
    split
    · exact only _ nil
    · rename_i x c
      have hx := find_some c
      split
      · rename_i cc
        intro e he
        rcases post_log M .key i h0 nil e he with a | ⟨_, t, ht, k, hk, ek, b, ee⟩ | a
        · exact Or.inl a
        · refine Or.inr (Or.inl ⟨t, e0 ▸ ht, k, e0 ▸ hk, by rw [ek], ?_, b, by rw [ek]; exact ee⟩)
          rw [ek, ← m0]; exact cc.2.1
        · cases a.1
      · exact only _ nil
  | pointer i =>
    dsimp only
    unfold event
    split
    · exact only _ nil
    · rename_i x c
      have hx := find_some c
      split
      · rename_i cc
        intro e he
        rcases post_log M .pointer i h0 nil e he with a | a | ⟨_, t, ht, k, hk, ek, b, m, ee⟩
        · exact Or.inl a
        · cases a.1
        · refine Or.inr (Or.inr ⟨t, e0 ▸ ht, k, e0 ▸ hk, by rw [ek], ?_, b, m, by rw [ek]; exact ee⟩)
          rw [ek, ← m0]; exact cc.2.1
      · exact only _ nil

/-! ## Switches and the devices that follow them -/

/-- The devices of the fallback implementation follow their switch. -/
theorem post_follow {A : List Info} (M : Machine A) {s : St} {d x : Info} (v : Bool) (h : Inv A s) (hd : d ∈ s.devs) (hx : x ∈ s.devs)
    (n : x.id ≠ d.id) (k : d.kind = .fallback) (hb : Bel .tablet d x) (ha : Alone A .tablet d) (hp : Partner (s.mem d.id) d .tablet x.id)
    (hm : v = false → (s.mem d.id).disabled = false) : ((post s x.id (.tablet v)).mem d.id).suspended = v := by
  have hlst : ({ src := x.id, owner := d.id, role := .tablet } : Listener) ∈ s.lst :=
    (h.safe.at_ d hd).heard _ rfl (by simp) ⟨Or.inr k, hp.2, rfl⟩
  have nd : ∀ s' : St, s'.devs = s.devs → NT s'.devs d.id := by
    intro s' e y hy ey ky
    rw [e] at hy
    rw [h.safe.inj hy hd ey, k] at ky; cases ky
  unfold post
  refine deliver_reach (call := call (.tablet v)) (x := x.id)
    (I := fun s' => Inv A s' ∧ s'.devs = s.devs ∧ (s'.mem d.id).disabled = (s.mem d.id).disabled)
    (l := { src := x.id, owner := d.id, role := .tablet }) (Q := fun s' => (s'.mem d.id).suspended = v) ?_ ?_ ?_
    (s.of x.id) s.lst s ⟨h, rfl, rfl⟩ (fun _ hl _ => hl) of_src (Or.inl ⟨List.mem_filter.mpr ⟨hlst, by simp⟩, hlst⟩)
  · intro s' l ⟨i, e1, e2⟩ hl hs
    have a := call_inv M (.tablet v) i hl
    refine ⟨⟨a.1, a.2.1.trans e1, ?_⟩, fun l' h' e => a.2.2 l' h' (e.trans hs.symm)⟩
    rw [← e2]
    rcases call_tablet_cases v i hl with ⟨_, e⟩ | ⟨_, o, ho, _, _, ⟨ko, e⟩ | ⟨ko, e⟩⟩
    · rw [e]
    · rw [e]; exact ((tabletTurn s' o v).2.1 d.id).2.2.1
    · rw [e]; exact (fbTurn_own i ho v d.id).2.1
  · intro s' ⟨i, e1, e2⟩ hl
    rcases call_tablet_cases v i hl with ⟨c, _⟩ | ⟨_, o, ho, eo, _, ⟨ko, e⟩ | ⟨ko, e⟩⟩
    · exact absurd rfl c
    · have : o = d := i.safe.inj ho (e1 ▸ hd) eo
      rw [this, k] at ko; cases ko
    · have : o = d := i.safe.inj ho (e1 ▸ hd) eo
      subst this
      rw [e]
      cases v
      · rw [if_neg (by simp), if_neg (by rw [e2, hm rfl]; simp)]
        exact (resumeDev_spec i.safe ho i.sub i.full).2.2.2.2.2.2.2
      · rw [if_pos rfl]
        exact (suspendDev_spec i.safe ho).2.2
  · intro s' l' ⟨i, e1, e2⟩ hq hl hs
    rcases call_tablet_cases v i hl with ⟨_, e⟩ | ⟨_, o, ho, eo, htab, ⟨ko, e⟩ | ⟨ko, e⟩⟩
    · rw [e]; exact hq
    · rw [e]
      obtain ⟨u, hu⟩ := (tabletTurn s' o v).2.2.1 d.id (fun c => nd s' e1 o ho c.symm ko)
      rw [hu]; exact hq
    · rw [e]
      by_cases c : o.id = d.id
      · have : o = d := i.safe.inj ho (e1 ▸ hd) c
        subst this
        cases v
        · rw [if_neg (by simp), if_neg (by rw [e2, hm rfl]; simp)]
          exact (resumeDev_spec i.safe ho i.sub i.full).2.2.2.2.2.2.2
        · rw [if_pos rfl]
          exact (suspendDev_spec i.safe ho).2.2
      · rw [← hq]
        split
        · exact (suspendDev_spec i.safe ho).2.1.susp d.id ⟨fun c' => c c'.symm, nd s' e1⟩
        · split
          · rfl
          · refine (resumeDev_spec i.safe ho i.sub i.full).2.2.2.2.2.1 d (e1 ▸ hd) (by rw [k]; simp) (fun c' => c c'.symm) ?_
            intro y hy hby ey
            have : y = d := i.safe.inj hy (e1 ▸ hd) ey
            subst this
            have eox : o.id = x.id := ha o (i.sub o ho) x (h.sub x hx) hby hb
            obtain ⟨X, _, eX, nX, _⟩ := (i.safe.at_ o ho).bel .tablet l'.src ⟨Or.inr ko, htab⟩
            exact nX (by rw [eX, hs, eox])

end Libinput.Pairing
