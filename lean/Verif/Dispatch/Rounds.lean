import Verif.Dispatch.Reads
/-
`libinput_dispatch`, suspending, resuming and destroying a context.
-/
namespace Libinput.Dispatch
open Spec

/-- What a call of a device's callback does. -/
structure Called (conv : Conv) (c : Call) (d i : Nat) (s t : Ctx) : Prop where
  mono : Mono s t
  monitor : t.monitor = s.monitor
  dev : t.dev d = { s.dev d with mt := (feedAll conv (s.dev d).mt (taken c.reads)).1,
                                 source := if GoesOn (ending c.rc c.reads) then some i else none }
  log : ∃ l, t.log = s.log ++ l ∧ handled l = (feedAll conv (s.dev d).mt (taken c.reads)).2.flatMap (handling d) ∧
    lags l = ((firstRead c.reads).map (lagOf s.dispatchTime d)).getD []
  others : ∀ e, e ≠ d → e < s.ndev → Apart c e → t.dev e = s.dev e
  unwatch : ¬ GoesOn (ending c.rc c.reads) → Did.unwatch i ∈ t.log

theorem alive_of_source {s d i} (h : Inv s) (hs : (s.dev d).source = some i) : (s.dev d).alive = true := by
  rcases ha : (s.dev d).alive with _ | _
  · have := (h.gone d (.inr ha)).1; rw [hs] at this; simp at this
  · rfl

theorem deviceDispatch_spec {conv c d i s} (ha : Apart c d) (h : Inv s) (hs : (s.dev d).source = some i) :
    Ends id s (RoomC c) (PlainC c) (deviceDispatch conv s d c) (fun t => Called conv c d i s t) := by
  have hal := alive_of_source h hs
  have hd := dev_lt h hal
  unfold deviceDispatch
  rw [if_neg (by rw [hal]; simp)]
  refine Ends.bind (st := Prod.fst) (st' := id) (fun x => if x.2 ≠ EAGAIN ∧ x.2 ≠ EINTR then
      match removeSource x.1 (x.1.dev d).source with
      | .error x => .error x
      | .ok s => .ok (s.setDev d { s.dev d with source := none })
    else .ok x.1) (readLoop_spec c.reads ha h hd) ?_ (fun x hx => by rw [hx]) ?_
  · intro x hx; rw [hx]; obtain ⟨x1, x2⟩ := x; dsimp only
    generalize removeSource x1 (x1.dev d).source = r
    cases r <;> rfl
  rintro ⟨t, rc⟩ ht ⟨hr, hrc⟩
  dsimp only at hr hrc ht ⊢
  subst hrc
  have htd : (t.dev d).source = some i := by rw [hr.dev]; exact hs
  obtain ⟨l, l1, l2, l3⟩ := hr.log
  by_cases hg : GoesOn (ending c.rc c.reads)
  · rw [if_neg (by intro h; rcases hg with e | e; exact h.1 e; exact h.2 e)]
    refine ⟨ht, fun x _ => x, fun x _ => x, hr.mono, hr.monitor, ?_, ⟨l, l1, l2, l3⟩, hr.others, fun h => absurd hg h⟩
    rw [hr.dev, if_pos hg, ← hs]
  · rw [if_pos ⟨fun e => hg (.inl e), fun e => hg (.inr e)⟩, htd]
    obtain ⟨u, h1, h2, h3, h4, h5, _, h7, h8, h9⟩ := unhold_dev ht htd
    rw [h1]
    have hdev : ∀ e, e ≠ d → (u.setDev d { u.dev d with source := none }).dev e = t.dev e := by
      intro e he; rw [setDev_other _ _ _ he, h3]
    refine ⟨h2, fun x _ => ?_, fun x _ => ?_, hr.mono.trans (h4.trans (mono_setDev _ _ _)), h8.trans hr.monitor, ?_, ?_, ?_, fun _ => h7⟩
    · intro e
      show ((u.setDev d { u.dev d with source := none }).dev e).mt ≠ _
      by_cases he : e = d
      · subst he; rw [setDev_same, h3]; exact x e
      · rw [hdev e he]; exact x e
    · intro e
      show ((u.setDev d { u.dev d with source := none }).dev e).mt = _ ∧ ((u.setDev d { u.dev d with source := none }).dev e).needMt = _
      by_cases he : e = d
      · subst he; rw [setDev_same, h3]; exact x e
      · rw [hdev e he]; exact x e
    · rw [setDev_same, h3, hr.dev, if_neg hg]
    · obtain ⟨m, m1, m2, m3⟩ := h5
      refine ⟨l ++ m, ?_, ?_, ?_⟩
      · show u.log = _; rw [m1, l1, List.append_assoc]
      · rw [handled_append, l2, m2]; simp
      · rw [lags_append, l3, m3]; simp
    · intro e he hlt hc
      rw [hdev e he]; exact hr.others e he hlt hc

theorem not_dead {s i f o} (h : Inv s) (hi : s.heap i = some ⟨some f, o⟩) : Did.watch i o ∈ s.log ∧ Did.unwatch i ∉ s.log ∧ Did.free i ∉ s.log := by
  refine ⟨h.logWatch _ _ hi, fun hx => (h.logUnwatch _ hx).2 _ _ hi, fun hx => ?_⟩
  have := (h.logFree _ hx).2; rw [hi] at this; simp at this

/-- Saying that a source is called. -/
theorem inv_call {s i f o} (h : Inv s) (hi : s.heap i = some ⟨some f, o⟩) : Inv (s.say (.call i o)) := by
  have mw : ∀ x, x ∈ (s.say (.call i o)).log ↔ x ∈ s.log ∨ x = .call i o := by intro x; simp [Ctx.say]
  have hh : ∀ o', holder (s.say (.call i o)) o' = holder s o' := by intro o'; cases o' <;> rfl
  constructor
  all_goals try simp only [hh, mw, reduceCtorEq, or_false]
  · exact h.bound
  · exact h.watch
  · exact h.watched
  · exact h.nodup
  · exact h.dead
  · exact h.destroyNodup
  · exact h.held
  · exact h.holds
  · exact h.isOpen
  · exact h.devFd
  · exact h.devOpen
  · exact h.fdDev
  · exact h.fdFd
  · exact h.fileOne
  · exact h.gone
  · exact h.beyond
  · exact h.timerThere
  · exact proper_snoc h.proper (not_dead h hi)
  · exact h.logBound
  · intro j x hx; exact h.logWatch j x hx
  · exact h.logUnwatch
  · exact h.logDead
  · exact h.logFree
  · exact h.logFreed

theorem work_mono {s t : Ctx} (h : ∀ i x, s.heap i = some x → ∃ y, t.heap i = some y ∧ y.owner = x.owner) {r : Nat × Call} {x} (hx : s.heap r.1 = some x) :
    work t r = work s r := by
  obtain ⟨y, hy, ho⟩ := h _ _ hx
  unfold work
  rw [hx, hy]
  obtain ⟨_, o⟩ := x; obtain ⟨_, o'⟩ := y
  simp at ho; subst ho
  cases o' <;> rfl

/-- What a round does. -/
structure Round (conv : Conv) (s t : Ctx) (rs : List (Nat × Call)) : Prop where
  heap : ∀ i x, s.heap i = some x → ∃ y, t.heap i = some y ∧ y.owner = x.owner
  closed : t.closed = s.closed
  monitor : t.monitor = s.monitor
  ndev : s.ndev ≤ t.ndev
  done : ∃ (l : List Did) (done : List (Nat × Call)), t.log = s.log ++ l ∧ done.Sublist rs ∧ calls l = done.map (·.1) ∧
    (∀ i, Did.free i ∉ l) ∧ (∀ r ∈ rs, r ∈ done ∨ Did.unwatch r.1 ∈ t.log) ∧
    (∀ r ∈ done, ∀ d x, s.heap r.1 = some x → x.owner = .dev d → ¬ GoesOn (ending r.2.rc r.2.reads) → Did.unwatch r.1 ∈ t.log) ∧
    (NoMt s → (∀ r ∈ rs, PlainC r.2) → handled l = done.flatMap (work s))
  others : ∀ d i, (s.dev d).source = some i → (∀ r ∈ rs, Apart r.2 d) →
    (∀ r ∈ rs, r.1 = i → GoesOn (ending r.2.rc r.2.reads)) → (t.dev d).source = some i

theorem feedAll_null (conv es) : feedAll conv .null es = (.null, es) := by
  induction es with
  | nil => rfl
  | cons e es ih => simp [feedAll, feed, ih]

theorem callLoop_spec {conv} (rs : List (Nat × Call)) : ∀ {s}, Inv s →
    (∀ r ∈ rs, ∃ x, s.heap r.1 = some x ∧ ∀ d, x.owner = .dev d → Apart r.2 d) →
    Ends id s (∀ r ∈ rs, RoomC r.2) (∀ r ∈ rs, PlainC r.2) (callLoop conv s rs) (fun t => Round conv s t rs) := by
  induction rs with
  | nil =>
    intro s h _
    exact ⟨h, fun x _ => x, fun x _ => x, fun _ x hx => ⟨x, hx, rfl⟩, rfl, rfl, Nat.le_refl _,
      ⟨[], [], by simp, .slnil, rfl, by simp, by simp, by simp, fun _ _ => rfl⟩, fun _ _ h _ _ => h⟩
  | cons r rs ih =>
    intro s h hrs
    obtain ⟨i, c⟩ := r
    obtain ⟨⟨fd, o⟩, hx, hap⟩ := hrs (i, c) List.mem_cons_self
    dsimp only at hx hap
    unfold callLoop
    rw [hx]; dsimp only
    cases fd with
    | none =>
      dsimp only
      refine (ih h (fun r hr => hrs r (List.mem_cons_of_mem _ hr))).weaken (fun x r hr => x r (List.mem_cons_of_mem _ hr))
        (fun x r hr => x r (List.mem_cons_of_mem _ hr)) ?_
      intro t ht
      obtain ⟨l, done, h1, h2, h3, h4, h5, h6, h7⟩ := ht.done
      refine ⟨ht.heap, ht.closed, ht.monitor, ht.ndev, ⟨l, done, h1, h2.cons _, h3, h4, ?_, h6, ?_⟩, ?_⟩
      · intro r hr
        rcases List.mem_cons.1 hr with rfl | hr
        · right; rw [h1, List.mem_append]; left; exact h.logDead _ _ hx
        · exact h5 r hr
      · exact fun a b => h7 a (fun r hr => b r (List.mem_cons_of_mem _ hr))
      · exact fun d j hj a b => ht.others d j hj (fun r hr => a r (List.mem_cons_of_mem _ hr)) (fun r hr => b r (List.mem_cons_of_mem _ hr))
    | some f =>
      dsimp only
      have hc := inv_call h hx
      obtain ⟨s1, hs1⟩ : ∃ s1, s1 = s.say (.call i o) := ⟨_, rfl⟩
      rw [← hs1] at hc ⊢
      have hs1h : s1.heap = s.heap := by rw [hs1]; rfl
      have hs1d : s1.dev = s.dev := by rw [hs1]; rfl
      have hs1l : s1.log = s.log ++ [.call i o] := by rw [hs1]; rfl
      have hs1m : s1.monitor = s.monitor := by rw [hs1]; rfl
      have hs1n : s1.ndev = s.ndev := by rw [hs1]; rfl
      have hs1c : s1.closed = s.closed := by rw [hs1]; rfl
      -- the callback
      have hcb : Ends id s1 (RoomC c) (PlainC c) (callback conv s1 o c) (fun t => Mono s1 t ∧ t.monitor = s1.monitor ∧
          (∃ l, t.log = s1.log ++ l ∧ (NoMt s1 → handled l = work s (i, c))) ∧
          (∀ d, o = .dev d → ¬ GoesOn (ending c.rc c.reads) → Did.unwatch i ∈ t.log) ∧
          (∀ d j, (s.dev d).source = some j → Apart c d → (i = j → GoesOn (ending c.rc c.reads)) → (t.dev d).source = some j)) := by
        unfold callback
        cases o with
        | dev d =>
          have hsrc : (s1.dev d).source = some i := by
            rw [hs1d]; exact h.held _ _ _ hx
          refine (deviceDispatch_spec (conv := conv) (hap d rfl) hc hsrc).weaken id id ?_
          intro t ht
          refine ⟨ht.mono, ht.monitor, ?_, fun _ _ => ht.unwatch, ?_⟩
          · obtain ⟨l, h1, h2, _⟩ := ht.log
            refine ⟨l, h1, fun hn => ?_⟩
            rw [h2, (hn d).1, feedAll_null]; simp [work, hx]
          · intro e j hj hae hij
            by_cases he : e = d
            · subst he
              rw [hs1d, hj] at hsrc; cases hsrc
              rw [ht.dev, if_pos (hij rfl)]
            · rw [ht.others e he ?_ hae, hs1d]; exact hj
              rw [hs1n]; exact dev_lt h (alive_of_source h hj)
        | timer =>
          refine (acts_spec (c.react 0) hc).weaken (fun x => x 0) (fun x => x 0) ?_
          rintro t ⟨hq, hd⟩
          refine ⟨hq.mono, hq.monitor, ?_, fun d hd => by simp at hd, ?_⟩
          · obtain ⟨l, h1, h2, _⟩ := hq.silent
            exact ⟨l, h1, fun _ => by rw [h2]; simp [work, hx]⟩
          · intro e j hj hae _
            rw [hd e (by rw [hs1n]; exact dev_lt h (alive_of_source h hj)) (hae 0), hs1d]; exact hj
        | monitor =>
          refine (acts_spec (c.react 0) hc).weaken (fun x => x 0) (fun x => x 0) ?_
          rintro t ⟨hq, hd⟩
          refine ⟨hq.mono, hq.monitor, ?_, fun d hd => by simp at hd, ?_⟩
          · obtain ⟨l, h1, h2, _⟩ := hq.silent
            exact ⟨l, h1, fun _ => by rw [h2]; simp [work, hx]⟩
          · intro e j hj hae _
            rw [hd e (by rw [hs1n]; exact dev_lt h (alive_of_source h hj)) (hae 0), hs1d]; exact hj
      refine Ends.bindN (st := id) (st' := id) (fun t => callLoop conv t rs)
        (((hcb.of_dev hs1d).weaken (R' := ∀ r ∈ (i, c) :: rs, RoomC r.2) (P' := (∀ r ∈ (i, c) :: rs, PlainC r.2))
          (fun x => x _ List.mem_cons_self) (fun x => x _ List.mem_cons_self) (fun _ x => x)))
        (fun x hx => by rw [hx]) (fun x hx => by rw [hx]) ?_
      rintro t ht hnm ⟨hm, hmon, ⟨l, hl1, hl2⟩, hun, hoth⟩
      have hheap : ∀ i x, s.heap i = some x → ∃ y, t.heap i = some y ∧ y.owner = x.owner := by
        intro j x hj; exact hm.heap j x (by rw [hs1h]; exact hj)
      have hlm : ∃ m, t.log = s1.log ++ m ∧ calls m = [] ∧ ∀ i, Did.free i ∉ m := hm.log
      obtain ⟨m, hm1, hm2, hm3⟩ := hlm
      have hml : m = l := by
        rw [hl1] at hm1; exact (List.append_cancel_left hm1).symm
      subst hml
      have hrec := ih (s := t) ht (fun r hr => by
        obtain ⟨x, hx, ha⟩ := hrs r (List.mem_cons_of_mem _ hr)
        obtain ⟨y, hy, ho⟩ := hheap _ _ hx
        exact ⟨y, hy, fun d hd => ha d (by rw [← ho]; exact hd)⟩)
      refine hrec.weaken (fun x r hr => x r (List.mem_cons_of_mem _ hr)) (fun x r hr => x r (List.mem_cons_of_mem _ hr)) ?_
      intro u hu
      obtain ⟨n, done, h1, h2, h3, h4, h5, h6, h7⟩ := hu.done
      have hlog : u.log = s.log ++ ([.call i o] ++ m ++ n) := by
        rw [h1]; show t.log ++ n = _; rw [hl1, hs1l]; simp
      have hmem : ∀ y, y ∈ t.log → y ∈ u.log := by
        intro y hy; rw [h1]; exact List.mem_append_left _ hy
      refine ⟨?_, ?_, ?_, ?_, ⟨[.call i o] ++ m ++ n, (i, c) :: done, hlog, h2.cons_cons _, ?_, ?_, ?_, ?_, ?_⟩, ?_⟩
      · intro j x hj
        obtain ⟨y, hy, ho⟩ := hheap j x hj
        obtain ⟨z, hz, ho'⟩ := hu.heap j y hy
        exact ⟨z, hz, ho'.trans ho⟩
      · rw [hu.closed, ← hs1c]; exact hm.closed
      · rw [hu.monitor, ← hs1m]; exact hmon
      · exact Nat.le_trans (hs1n ▸ hm.ndev) hu.ndev
      · rw [calls_append, calls_append, hm2, h3]; rfl
      · intro j hj
        rcases List.mem_append.1 hj with hj | hj
        · rcases List.mem_append.1 hj with hj | hj
          · simp at hj
          · exact hm3 j hj
        · exact h4 j hj
      · intro r hr
        rcases List.mem_cons.1 hr with rfl | hr
        · left; exact List.mem_cons_self
        · rcases h5 r hr with h | h
          · left; exact List.mem_cons_of_mem _ h
          · right; exact h
      · intro r hr d x hx' hxd hg
        rcases List.mem_cons.1 hr with rfl | hr
        · dsimp only at hx' hg ⊢
          rw [hx] at hx'; cases hx'
          exact hmem _ (hun d hxd hg)
        · obtain ⟨y, hy, ho⟩ := hheap _ x hx'
          exact h6 r hr d y hy (ho.trans hxd) hg
      · intro a b
        rw [handled_append, handled_append, hl2 (by intro e; rw [hs1d]; exact a e), h7 (hnm a b) (fun r hr => b r (List.mem_cons_of_mem _ hr))]
        have : done.flatMap (work t) = done.flatMap (work s) := by
          have key : ∀ (dl : List (Nat × Call)), (∀ r ∈ dl, r ∈ rs) → dl.flatMap (work t) = dl.flatMap (work s) := by
            intro dl
            induction dl with
            | nil => intro _; rfl
            | cons q dl ih2 =>
              intro hq
              obtain ⟨x, hx', _⟩ := hrs q (List.mem_cons_of_mem _ (hq q List.mem_cons_self))
              simp only [List.flatMap_cons]
              rw [work_mono hheap hx', ih2 (fun r hr => hq r (List.mem_cons_of_mem _ hr))]
          exact key done (fun r hr => h2.subset hr)
        rw [this]; simp [handled]
      · intro d j hj ha hb
        refine hu.others d j ?_ (fun r hr => ha r (List.mem_cons_of_mem _ hr)) (fun r hr => hb r (List.mem_cons_of_mem _ hr))
        exact hoth d j hj (ha _ List.mem_cons_self) (fun e => hb _ List.mem_cons_self e)

end Libinput.Dispatch
