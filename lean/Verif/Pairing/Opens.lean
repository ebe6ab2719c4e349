import Verif.Pairing.Off
/-!
Typing on the keyboard of a laptop shows that its lid is open.
-/
namespace Libinput.Pairing
open Spec

theorem callLid_flags {A : List Info} (c : Bool) {s : St} {l : Listener} (h : Inv A s) (hl : l ∈ s.lst) (y : Nat) :
    Own (s.mem y) ((callLid c s l).mem y) ∧ (NT s.devs y → ((callLid c s l).mem y).suspended = (s.mem y).suspended) := by
  rcases callLid_cases c h hl with ⟨_, e⟩ | ⟨_, o, hd, _, ko, _, e⟩
  · rw [e]; exact ⟨Own.refl _, fun _ => rfl⟩
  · rw [e]
    refine ⟨(lidTurn s o c).2.1 y, fun hy => ?_⟩
    split
    · exact (tpSuspend_mv s o .lid).susp y (tp_nt hd ko hy)
    · exact (tpResume_mv s o .lid).susp y (tp_nt hd ko hy)

/-- Announcing a lid changes nothing else about it, and turns off no keyboard. -/
theorem notifyLid_flags {A : List Info} {s : St} {x : Info} (h : Inv A s) (hx : x ∈ s.devs) :
    (∀ y, ((notifyLid s x.id).mem y).closed = (s.mem y).closed) ∧ ((notifyLid s x.id).mem x.id).client = (s.mem x.id).closed ∧
    (∀ y, y ≠ x.id → ((notifyLid s x.id).mem y).client = (s.mem y).client) ∧
    (∀ y, NT s.devs y → ((notifyLid s x.id).mem y).suspended = (s.mem y).suspended) := by
  unfold notifyLid
  split
  · have := deliver_inv (call := callLid (s.mem x.id).closed) (x := x.id) (I := fun s' => Inv A s' ∧ s'.devs = s.devs ∧
        ∀ y, Own (s.mem y) (s'.mem y) ∧ (NT s.devs y → (s'.mem y).suspended = (s.mem y).suspended))
      (by
        intro s' l hI hl _
        have a := callLid_inv (s.mem x.id).closed hI.1 hl
        refine ⟨⟨a.1, a.2.1.trans hI.2.1, fun y => ?_⟩, fun l' h' _ => a.2.2 l' h'⟩
        have b := callLid_flags (s.mem x.id).closed hI.1 hl y
        refine ⟨?_, fun n => (b.2 (hI.2.1 ▸ n)).trans ((hI.2.2 y).2 n)⟩
        have c := (hI.2.2 y).1
        exact ⟨b.1.1.trans c.1, b.1.2.1.trans c.2.1, b.1.2.2.1.trans c.2.2.1, b.1.2.2.2.trans c.2.2.2⟩)
      (s.of x.id) s.lst s ⟨h, rfl, fun _ => ⟨Own.refl _, fun _ => rfl⟩⟩ (fun _ hl _ => hl) of_src
    dsimp only
    revert this
    generalize deliver (callLid (s.mem x.id).closed) s.lst s (s.of x.id) = s1
    intro ⟨_, _, g⟩
    refine ⟨fun y => ?_, ?_, fun y n => ?_, fun y n => ?_⟩
    · by_cases e : y = x.id
      · subst e; rw [upd_self]; exact (g _).1.2.2.2
      · rw [upd_ne _ _ e]; exact (g y).1.2.2.2
    · rw [upd_self]; exact (g _).1.2.2.2
    · rw [upd_ne _ _ n]; exact (g y).1.2.1
    · by_cases e : y = x.id
      · subst e; rw [upd_self]; exact (g _).2 n
      · rw [upd_ne _ _ e]; exact (g y).2 n
  · rename_i c
    have c : (s.mem x.id).closed = (s.mem x.id).client := by simpa using c
    exact ⟨fun _ => rfl, c.symm, fun _ _ => rfl, fun _ _ => rfl⟩

theorem toggleKeys_on (x : Nat) : ∀ (ks : List (Nat × Nat)) (s : St), (ks.map Prod.fst).Nodup →
    (∀ p ∈ ks, ({ src := p.2, owner := x, role := .lidKey, ser := p.1 } : Listener) ∈
      (ks.foldl (fun s k =>
        let s := s.drop x .lidKey k.1
        if true then s.listen { src := k.2, owner := x, role := .lidKey, ser := k.1 } else s) s).lst) ∧
    (∀ l ∈ s.lst, (l.owner = x → l.role = .lidKey → l.ser ∉ ks.map Prod.fst) →
      l ∈ (ks.foldl (fun s k =>
        let s := s.drop x .lidKey k.1
        if true then s.listen { src := k.2, owner := x, role := .lidKey, ser := k.1 } else s) s).lst) := by
  intro ks
  induction ks with
  | nil => intro s _; exact ⟨fun p hp => (by cases hp), fun l hl _ => hl⟩
  | cons q ks ih =>
    intro s hn
    have hn' : q.1 ∉ ks.map Prod.fst ∧ (ks.map Prod.fst).Nodup := List.nodup_cons.mp hn
    have e : (let s := s.drop x .lidKey q.1
        if true then s.listen { src := q.2, owner := x, role := .lidKey, ser := q.1 } else s) =
        { s.drop x .lidKey q.1 with lst := { src := q.2, owner := x, role := .lidKey, ser := q.1 } :: (s.drop x .lidKey q.1).lst } :=
      listen_eq (by intro l hl a b d; exact (mem_drop.mp hl).2 ⟨a, b, d⟩)
    obtain ⟨i1, i2⟩ := ih (let s := s.drop x .lidKey q.1
        if true then s.listen { src := q.2, owner := x, role := .lidKey, ser := q.1 } else s) hn'.2
    refine ⟨?_, ?_⟩
    · intro p hp
      rcases List.mem_cons.mp hp with rfl | hp
      · exact i2 _ (by rw [e]; exact List.mem_cons_self) (fun _ _ => hn'.1)
      · exact i1 p hp
    · intro l hl hk
      refine i2 l ?_ (fun a b c => hk a b (List.mem_cons_of_mem _ c))
      rw [e]
      refine List.mem_cons_of_mem _ (mem_drop.mpr ⟨hl, ?_⟩)
      rintro ⟨a, b, c⟩
      exact hk a b (by rw [c]; exact List.mem_cons_self)

/-- A lid that closes listens to the keyboards it has. -/
theorem lidEvent_listens {A : List Info} {s : St} {x : Info} {k : Nat} (h : Inv A s) (hx : x ∈ s.devs) (kx : x.kind = .fallback)
    (hp : Partner (s.mem x.id) x .lidKey k) :
    (∃ n, ({ src := k, owner := x.id, role := .lidKey, ser := n } : Listener) ∈ (lidEvent s x.id true).lst) ∧
    ((lidEvent s x.id true).mem x.id).closed = true ∧
    (∀ y, NT s.devs y → ((lidEvent s x.id true).mem y).suspended = (s.mem y).suspended) := by
  obtain ⟨_, n, hn⟩ := hp
  have l0 := (toggleKeys_on x.id (s.mem x.id).kbds s (h.safe.at_ x hx).fst).1 _ hn
  have a := toggleKeys_inv h hx kx true
  unfold lidEvent
  have l1 : ({ src := k, owner := x.id, role := .lidKey, ser := n } : Listener) ∈ (toggleKeys s x.id true).lst := l0
  revert a l1
  generalize toggleKeys s x.id true = s1
  intro ⟨a1, a2, a3⟩ l1
  dsimp only
  split
  · rename_i c
    exact ⟨⟨n, l1⟩, c, fun y _ => by rw [a3]⟩
  · have fl : Inv A (s1.upd x.id fun m => { m with closed := true }) :=
      a1.flag (a2 ▸ hx) (fun _ => rfl) (fun _ => rfl) (fun _ => rfl) (fun _ => rfl) (fun _ => rfl) (fun _ => rfl) (fun _ => rfl)
        (fun _ => rfl)
    have b := notifyLid_inv (x := x) fl (a2 ▸ hx)
    have g := notifyLid_flags (x := x) fl (a2 ▸ hx)
    refine ⟨⟨n, b.2.2 _ l1⟩, ?_, fun y hy => ?_⟩
    · rw [g.1, upd_self]
    · rw [g.2.2.2 y (by show NT s1.devs y; rw [a2]; exact hy)]
      by_cases e : y = x.id
      · subst e; rw [upd_self, a3]
      · rw [upd_ne _ _ e, a3]

/-- Typing is heard by a lid that is closed. -/
theorem post_opens {A : List Info} (M : Machine A) {s : St} {x : Info} {k n : Nat} (h : Inv A s)
    (hl : ({ src := k, owner := x.id, role := .lidKey, ser := n } : Listener) ∈ s.lst)
    (hc : (s.mem x.id).closed = true) (hr : (s.mem x.id).client = true) : .lid x.id false ∈ (post s k .key).log := by
  unfold post
  have opened : ∀ (s' : St) (l' : Listener), Inv A s' → l' ∈ s'.lst → l'.owner = x.id → l'.role = .lidKey →
      (s'.mem x.id).closed = true → (s'.mem x.id).client = true → .lid x.id false ∈ (call .key s' l').log := by
    intro s' l' hI hl' eo er c1 c2
    obtain ⟨o, ho, e, hf, _⟩ := listener_find hI.safe hl'
    have e' : o.id = x.id := e.trans eo
    unfold call
    rw [hf, er]
    dsimp only
    rw [e', if_pos c1]
    have i1 := hI.flag (f := fun m => { m with closed := false }) ho (fun _ => rfl) (fun _ => rfl) (fun _ => rfl) (fun _ => rfl)
      (fun _ => rfl) (fun _ => rfl) (fun _ => rfl) (fun _ => rfl)
    rw [e'] at i1
    unfold notifyLid
    rw [if_pos (by rw [upd_self]; simp [c2])]
    simp [upd_log, upd_self]
  refine deliver_reach (call := call .key) (x := k)
    (I := fun s' => Inv A s' ∧ ((s'.mem x.id).closed = true ∧ (s'.mem x.id).client = true ∨ .lid x.id false ∈ s'.log))
    (l := { src := k, owner := x.id, role := .lidKey, ser := n }) (Q := fun s' => .lid x.id false ∈ s'.log) ?_ ?_ ?_
    (s.of k) s.lst s ⟨h, Or.inl ⟨hc, hr⟩⟩ (fun _ hl _ => hl) of_src (Or.inl ⟨List.mem_filter.mpr ⟨hl, by simp⟩, hl⟩)
  · intro s' l hI hl hs
    have a := call_inv M .key hI.1 hl
    refine ⟨⟨a.1, ?_⟩, fun l' h' e => a.2.2 l' h' (e.trans hs.symm)⟩
    rcases hI.2 with ⟨c1, c2⟩ | c
    · by_cases e : l.owner = x.id ∧ l.role = .lidKey
      · exact Or.inr (opened s' l hI.1 hl e.1 e.2 c1 c2)
      · refine Or.inl ?_
        obtain ⟨o, ho, eo, hf, _⟩ := listener_find hI.1.safe hl
        unfold call
        rw [hf]
        dsimp only
        split
        · exact ⟨c1, c2⟩
        · exact ⟨c1, c2⟩
        · rename_i er _
          have ne : x.id ≠ o.id := fun c => e ⟨eo.symm.trans c.symm, er⟩
          split
          · have g := notifyLid_flags (s := s'.upd o.id fun m => { m with closed := false }) (x := o)
              (hI.1.flag ho (fun _ => rfl) (fun _ => rfl) (fun _ => rfl) (fun _ => rfl)
              (fun _ => rfl) (fun _ => rfl) (fun _ => rfl) (fun _ => rfl)) ho
            rw [g.1, g.2.2.1 _ ne, upd_ne _ _ ne]
            exact ⟨c1, c2⟩
          · exact ⟨c1, c2⟩
        · rename_i _ er; cases er
        · exact ⟨c1, c2⟩
    · exact Or.inr (call_grows _ hI.1 hl c)
  · intro s' hI hl
    rcases hI.2 with ⟨c1, c2⟩ | c
    · exact opened s' _ hI.1 hl rfl rfl c1 c2
    · exact call_grows _ hI.1 hl c
  · intro s' l' hI hq hl _
    exact call_grows _ hI.1 hl hq

end Libinput.Pairing
