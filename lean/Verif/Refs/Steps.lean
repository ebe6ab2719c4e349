import Verif.Refs.Create
/-
Every step keeps the invariant; what is reachable is what is there.
-/
namespace Libinput.Refs
open Spec

/-! ### Suspending -/

theorem foldRemove_ok {p : Nat → Nat} {c} (notes : Nat → List Note) (ds : List Nat) : ∀ {s : State}, Inv p [] s c → PinsIn p s →
    ds.Nodup → (∀ d ∈ ds, ∃ o, s.heap[d]? = some o ∧ o.linked = true) →
    ∃ s', ds.foldlM (fun s d => removeDev s d (notes d)) s = .ok s' ∧ Inv p [] s' c ∧ Keep ds s s' ∧
      ∀ d ∈ ds, ∃ o, s'.heap[d]? = some o ∧ o.linked = false := by
  induction ds with
  | nil =>
    intro s h _ _ _
    exact ⟨s, rfl, h, Keep.refl s, by intro d hd; cases hd⟩
  | cons d ds ih =>
    intro s h hp hn hl
    rw [List.nodup_cons] at hn
    obtain ⟨o, ho, hol⟩ := hl d (by simp)
    obtain ⟨s1, e1, i1, k1, o1, g1, g2⟩ := removeDev_ok (notes d) h hp ho hol
    obtain ⟨s2, e2, i2, k2, l2⟩ := ih i1 (hp.keep k1) hn.2 (by
      intro x hx
      obtain ⟨ox, a1, a2⟩ := hl x (by simp [hx])
      obtain ⟨ox', b1, _, _, _, _, b6, _⟩ := k1.objs x ox a1
      refine ⟨ox', b1, ?_⟩
      rw [b6 (by simp only [List.mem_singleton]; intro e; subst e; exact hn.1 hx)]
      exact a2)
    refine ⟨s2, ?_, i2, (k1.trans k2).weaken (by simp), ?_⟩
    · simp only [List.foldlM_cons, e1, Bind.bind, Except.bind]
      exact e2
    · intro x hx
      simp only [List.mem_cons] at hx
      rcases hx with rfl | hx
      · obtain ⟨o2, b1, _, _, _, _, _, b7⟩ := k2.objs x o1 g1
        refine ⟨o2, b1, ?_⟩
        cases hb : o2.linked with
        | false => rfl
        | true => rw [b7 hb] at g2; cases g2
      · exact l2 x hx

/-- Kinds stay and no device comes back to its seat's list. -/
structure Calm (s s' : State) : Prop where
  udev : s'.udev = s.udev
  objs : ∀ (x : Nat) (o : Obj), s.heap[x]? = some o → ∃ o', s'.heap[x]? = some o' ∧ o'.kind = o.kind ∧
    (o'.linked = true → o.linked = true)
  fresh : ∀ (x : Nat) (o' : Obj), s'.heap[x]? = some o' → s.heap[x]? = none → o'.linked = false

theorem Keep.calm {L s s'} (k : Keep L s s') : Calm s s' := by
  refine ⟨k.udev, ?_, fun x o' h1 h2 => (k.fresh x o' h1 h2).1⟩
  intro x o hx
  obtain ⟨o', a1, a2, _, _, _, _, a7⟩ := k.objs x o hx
  exact ⟨o', a1, a2, a7⟩

theorem Frame.calm {n s s'} (f : Frame n s s') : Calm s s' := by
  refine ⟨f.udev, ?_, ?_⟩
  · intro x o hx
    obtain ⟨o', a1, a2, _, _, a5, _⟩ := f.objs x o hx
    exact ⟨o', a1, a2, fun h => a5 ▸ h⟩
  · intro x o' h1 h2
    have := lt_of_some h1
    rw [f.len] at this
    rw [List.getElem?_eq_getElem this] at h2
    cases h2

theorem Calm.trans {a b c : State} (h1 : Calm a b) (h2 : Calm b c) : Calm a c := by
  refine ⟨h2.udev.trans h1.udev, ?_, ?_⟩
  · intro x o hx
    obtain ⟨o1, a1, a2, a3⟩ := h1.objs x o hx
    obtain ⟨o2, b1, b2, b3⟩ := h2.objs x o1 a1
    exact ⟨o2, b1, b2.trans a2, fun h => a3 (b3 h)⟩
  · intro x o' hx hn
    cases hb : b.heap[x]? with
    | none => exact h2.fresh x o' hx hb
    | some o1 =>
      have := h1.fresh x o1 hb hn
      obtain ⟨o2, b1, _, b3⟩ := h2.objs x o1 hb
      rw [hx] at b1
      cases b1
      cases hl : o'.linked with
      | false => rfl
      | true =>
        rw [b3 hl] at this
        cases this

/-- What is linked in the end was linked in the beginning. -/
theorem Calm.back {s s'} (h : Calm s s') {x : Nat} {o' : Obj} (hx : s'.heap[x]? = some o') (hl : o'.linked = true) :
    ∃ o, s.heap[x]? = some o ∧ o.kind = o'.kind ∧ o.linked = true := by
  cases hs : s.heap[x]? with
  | none =>
    rw [h.fresh x o' hx hs] at hl
    cases hl
  | some o =>
    obtain ⟨o1, a1, a2, a3⟩ := h.objs x o hs
    rw [hx] at a1
    cases a1
    exact ⟨o, rfl, a2.symm, a3 hl⟩

theorem fetch_inv {s : State} {i : Nat} {o : Obj} (h : fetch s i = .ok o) : s.heap[i]? = some o ∧ o.alive = true := by
  unfold fetch at h
  split at h
  · rename_i o' ho
    split at h
    · cases h
      exact ⟨ho, ‹_›⟩
    · cases h
  · cases h

theorem put_put (s : State) (i : Nat) (o o' : Obj) : put (put s i o) i o' = put s i o' := by
  simp [put, List.set_set]

theorem bind_inv {α β : Type} {x : M α} {f : α → M β} {b : β} (h : (x >>= f) = .ok b) : ∃ a, x = .ok a ∧ f a = .ok b := by
  cases x with
  | error e => cases h
  | ok a => exact ⟨a, rfl, h⟩

theorem drop_inv {s s1 : State} {i : Nat} {g : Bool} (h : drop s i = .ok (s1, g)) : ∃ o, s.heap[i]? = some o ∧ o.alive = true ∧
    o.refs ≠ 0 ∧ s1 = put s i { o with refs := o.refs - 1 } ∧ g = (o.refs == 1) := by
  obtain ⟨o, h1, h2⟩ := bind_inv h
  obtain ⟨h3, h4⟩ := fetch_inv h1
  split at h2
  · cases h2
  · cases h2
    exact ⟨o, h3, h4, ‹_›, rfl, rfl⟩

theorem free_inv {s s1 : State} {i : Nat} (h : free s i = .ok s1) : ∃ o, s.heap[i]? = some o ∧ o.alive = true ∧
    s1 = put s i { o with alive := false } := by
  obtain ⟨o, h1, h2⟩ := bind_inv h
  obtain ⟨h3, h4⟩ := fetch_inv h1
  cases h2
  exact ⟨o, h3, h4, rfl⟩

theorem unrefLeaf_inv {s s' : State} {i : Nat} (h : unrefLeaf s i = .ok s') : ∃ o, s.heap[i]? = some o ∧ o.alive = true ∧
    o.refs ≠ 0 ∧ s' = put s i { o with refs := o.refs - 1, alive := !(o.refs == 1) } := by
  obtain ⟨⟨s1, g⟩, h1, h2⟩ := bind_inv h
  obtain ⟨o, a1, a2, a3, a4, a5⟩ := drop_inv h1
  refine ⟨o, a1, a2, a3, ?_⟩
  simp only at h2
  cases hg : g with
  | true =>
    rw [if_pos hg] at h2
    obtain ⟨_, _, h3⟩ := bind_inv h2
    obtain ⟨o1, b1, _, b3⟩ := free_inv h3
    rw [a4, put_get_self a1] at b1
    cases b1
    rw [b3, a4, put_put, ← a5, hg]
    rfl
  | false =>
    rw [if_neg (by rw [hg]; simp)] at h2
    cases h2
    rw [a4, ← a5, hg, Bool.not_false, ← a2]

theorem unrefLeaf_only {s s' : State} {i : Nat} (h : unrefLeaf s i = .ok s') {x : Nat} (hx : x ≠ i) : s'.heap[x]? = s.heap[x]? := by
  obtain ⟨o, _, _, _, rfl⟩ := unrefLeaf_inv h
  exact put_get_ne (fun e => hx e.symm)

theorem mem_devicesOf {s : State} {seat d : Nat} :
    d ∈ devicesOf s seat ↔ ∃ o sys, s.heap[d]? = some o ∧ o.linked = true ∧ o.kind = .dev sys seat := by
  simp only [devicesOf, List.mem_filter, List.mem_range]
  constructor
  · rintro ⟨h1, h2⟩
    rw [List.getElem?_eq_getElem h1] at h2 ⊢
    simp only [Bool.and_eq_true] at h2
    obtain ⟨h2, h3⟩ := h2
    cases hk : (s.heap[d]).kind with
    | dev sys st =>
      rw [hk] at h3
      simp only [beq_iff_eq] at h3
      exact ⟨_, sys, rfl, h2, by rw [hk, h3]⟩
    | _ => rw [hk] at h3; cases h3
  · rintro ⟨o, sys, h1, h2, h3⟩
    refine ⟨lt_of_some h1, ?_⟩
    rw [h1]
    simp [h2, h3]

theorem mem_seatsOf {s : State} {i : Nat} :
    i ∈ seatsOf s ↔ ∃ o n, s.heap[i]? = some o ∧ o.alive = true ∧ o.kind = .seat n := by
  simp only [seatsOf, List.mem_reverse, List.mem_filter, List.mem_range]
  constructor
  · rintro ⟨h1, h2⟩
    rw [List.getElem?_eq_getElem h1] at h2 ⊢
    simp only [Bool.and_eq_true] at h2
    obtain ⟨h2, h3⟩ := h2
    cases hk : (s.heap[i]).kind with
    | seat n => exact ⟨_, n, rfl, h2, hk⟩
    | _ => rw [hk] at h3; cases h3
  · rintro ⟨o, n, h1, h2, h3⟩
    refine ⟨lt_of_some h1, ?_⟩
    rw [h1]
    simp [h2, h3]

theorem seat_home {p : Nat → Nat} {s c} (h : Inv p [] s c) {i : Nat} {o : Obj} {n : Nat} (hi : s.heap[i]? = some o)
    (hk : o.kind = .seat n) : o.home = none := by
  cases hh : o.home with
  | none => rfl
  | some x =>
    obtain ⟨hw, _⟩ := h.wf.home i o x hi hh
    rw [hk] at hw
    rcases hw with hw | ⟨_, _, hw⟩ <;> cases hw

theorem suspendSeat_ok {s c} (notes : Nat → List Note) {i : Nat} {o : Obj} {n : Nat} (h : Inv (fun _ => 0) [] s c)
    (hse : Seated none s) (hi : s.heap[i]? = some o) (ha : o.alive = true) (hk : o.kind = .seat n) :
    ∃ s', suspendSeat notes s i = .ok s' ∧ Inv (fun _ => 0) [] s' c ∧ Seated none s' ∧ Calm s s' ∧
      (∀ (d : Nat) (od : Obj) (sys : Nat), s'.heap[d]? = some od → od.kind = .dev sys i → od.linked = false) ∧
      (∀ (x : Nat) (ox : Obj), x ≠ i → s.heap[x]? = some ox →
        ∃ ox', s'.heap[x]? = some ox' ∧ ox'.kind = ox.kind ∧ ox'.alive = ox.alive) := by
  obtain ⟨e1, i1⟩ := ref_ok h hi ha (by simp) (by intro d hd; rw [hk] at hd; cases hd)
  have k1 := Keep.put hi (o.refs + 1)
  obtain ⟨s1, es1⟩ : ∃ x, x = put s i { o with refs := o.refs + 1 } := ⟨_, rfl⟩
  rw [← es1] at e1 i1 k1
  have hi1 : s1.heap[i]? = some { o with refs := o.refs + 1 } := by rw [es1]; exact put_get_self hi
  have hp1 : PinsIn (addl (fun _ => 0) [i]) s1 := PinsIn.addl (fun _ _ => rfl) (by
    intro j hj
    simp only [List.mem_singleton] at hj
    subst hj
    exact lt_of_some hi1)
  obtain ⟨s2, e2, i2, k2, l2⟩ := foldRemove_ok notes (devicesOf s1 i) i1 hp1
    (List.Nodup.sublist List.filter_sublist List.nodup_range) (by
      intro d hd
      obtain ⟨od, _, a1, a2, _⟩ := mem_devicesOf.mp hd
      exact ⟨od, a1, a2⟩)
  obtain ⟨o2, b1, b2, b3, b4, _⟩ := k2.objs i _ hi1
  obtain ⟨s3, e3, i3, f3⟩ := unrefLeaf_ok i2 b1 (by rw [b2, hk]; rfl) (by
    intro x hx
    rw [seat_home i2 b1 (b2.trans hk)] at hx
    cases hx)
  have c12 : Calm s1 s3 := k2.calm.trans f3.calm
  refine ⟨s3, ?_, i3, (hse.keep (k1.trans k2)).frame f3, k1.calm.trans c12, ?_, ?_⟩
  · simp only [suspendSeat, e1, Bind.bind, Except.bind, e2]
    exact e3
  · intro d od sys hd hkd
    cases hl : od.linked with
    | false => rfl
    | true =>
      obtain ⟨o1, q1, q2, q3⟩ := c12.back hd hl
      obtain ⟨o2', r1, r2⟩ := l2 d (mem_devicesOf.mpr ⟨o1, sys, q1, q3, q2.trans hkd⟩)
      obtain ⟨o3, t1, _, t3⟩ := f3.calm.objs d o2' r1
      rw [hd] at t1
      cases t1
      rw [t3 hl] at r2
      cases r2
  · intro x ox hne hx
    obtain ⟨o2', r1, r2, _, r4, _⟩ := (k1.trans k2).objs x ox hx
    exact ⟨o2', by rw [unrefLeaf_only e3 hne]; exact r1, r2, r4⟩

theorem foldSeats_ok {c} (notes : Nat → List Note) (l : List Nat) : ∀ {s : State}, Inv (fun _ => 0) [] s c → Seated none s → l.Nodup →
    (∀ i ∈ l, ∃ o n, s.heap[i]? = some o ∧ o.alive = true ∧ o.kind = .seat n) →
    ∃ s', l.foldlM (suspendSeat notes) s = .ok s' ∧ Inv (fun _ => 0) [] s' c ∧ Seated none s' ∧ Calm s s' ∧
      ∀ (d : Nat) (od : Obj) (sys i : Nat), i ∈ l → s'.heap[d]? = some od → od.kind = .dev sys i → od.linked = false := by
  induction l with
  | nil =>
    intro s h hse _ _
    exact ⟨s, rfl, h, hse, (Keep.refl s).calm, by intro d od sys i hi; cases hi⟩
  | cons i l ih =>
    intro s h hse hn hl
    rw [List.nodup_cons] at hn
    obtain ⟨o, n, a1, a2, a3⟩ := hl i (by simp)
    obtain ⟨s1, e1, i1, se1, c1, u1, r1⟩ := suspendSeat_ok notes h hse a1 a2 a3
    obtain ⟨s2, e2, i2, se2, c2, u2⟩ := ih i1 se1 hn.2 (by
      intro x hx
      obtain ⟨ox, nx, b1, b2, b3⟩ := hl x (by simp [hx])
      obtain ⟨ox', q1, q2, q3⟩ := r1 x ox (by intro e; subst e; exact hn.1 hx) b1
      exact ⟨ox', nx, q1, q3.trans b2, q2.trans b3⟩)
    refine ⟨s2, ?_, i2, se2, c1.trans c2, ?_⟩
    · simp only [List.foldlM_cons, e1, Bind.bind, Except.bind]
      exact e2
    · intro d od sys x hx hd hk
      simp only [List.mem_cons] at hx
      rcases hx with rfl | hx
      · cases hlk : od.linked with
        | false => rfl
        | true =>
          obtain ⟨o1, q1, q2, q3⟩ := c2.back hd hlk
          rw [u1 d o1 sys q1 (q2.trans hk)] at q3
          cases q3
      · exact u2 d od sys x hx hd hk

theorem suspend_ok {s c} (notes : Nat → List Note) (h : Inv (fun _ => 0) [] s c) (hse : Seated none s) :
    ∃ s', suspend s notes = .ok s' ∧ Inv (fun _ => 0) [] s' c ∧ Seated none s' ∧ s'.udev = s.udev ∧
      ∀ (d : Nat) (od : Obj), s'.heap[d]? = some od → od.linked = false := by
  obtain ⟨s', e, i, se, ca, u⟩ := foldSeats_ok notes (seatsOf s) h hse
    (by
      have hn : ((List.range s.heap.length).filter fun i =>
          match s.heap[i]? with
          | some o => o.alive && (match o.kind with | .seat _ => true | _ => false)
          | none => false).Nodup := List.Nodup.sublist List.filter_sublist List.nodup_range
      exact List.pairwise_reverse.mpr (List.Pairwise.imp (fun h => h.symm) hn)) (fun i hi => mem_seatsOf.mp hi)
  refine ⟨s', e, i, se, ca.udev, ?_⟩
  intro d od hd
  cases hl : od.linked with
  | false => rfl
  | true =>
    obtain ⟨o, q1, q2, q3⟩ := ca.back hd hl
    obtain ⟨sys, st, hk⟩ := h.wf.linked d o q1 q3
    obtain ⟨os, n, r1, r2, r3, _⟩ := seat_alive h q1 q3 hk
    rw [u d od sys st (mem_seatsOf.mpr ⟨os, n, r1, r3, r2⟩) hd (q2.symm.trans hk)] at hl
    cases hl

/-! ### What is reachable is there -/

theorem Spec.Reach.alive {p : Nat → Nat} {s c} (h : Inv p [] s c) {i : Nat} (hr : Reach s c i) : ∃ o, s.heap[i]? = some o ∧ o.alive = true := by
  induction hr with
  | device hi hl => exact ⟨_, hi, (linked_alive h hi hl).1⟩
  | @seat i o n hi hk hp =>
    refine ⟨o, hi, (h.alive hi ?_).1⟩
    simp only [total, ctx, hi, ctxOf, hk, hp]
    simp
    omega
  | @tool i o ty ser hi hk hh =>
    refine ⟨o, hi, (h.alive hi ?_).1⟩
    simp only [total, ctx, hi, ctxOf, hk, hh]
    simp
    omega
  | @unread i hi =>
    obtain ⟨o, d, ho, _⟩ := h.wf.events i (.inl hi)
    have := List.count_pos_iff.mpr hi
    exact ⟨o, ho, (h.alive ho (by simp only [total]; omega)).1⟩
  | @event i hi =>
    obtain ⟨o, d, ho, _⟩ := h.wf.events i (.inr hi)
    have := List.count_pos_iff.mpr hi
    exact ⟨o, ho, (h.alive ho (by simp only [total]; omega)).1⟩
  | @caller i hi =>
    obtain ⟨o, ho, _⟩ := h.wf.refs i hi
    exact ⟨o, ho, (h.alive ho (by simp only [total]; omega)).1⟩
  | @via x o i hx ho hi ih =>
    obtain ⟨ox, a1, a2⟩ := ih
    rw [ho] at a1
    cases a1
    obtain ⟨oy, b1, _⟩ := h.wf.out x o ho i hi
    have := inc_pos (D := []) ho a2 (by simp) hi
    exact ⟨oy, b1, (h.alive b1 (by simp only [total]; omega)).1⟩

theorem alive_reach {s c} (h : Inv (fun _ => 0) [] s c) : ∀ (k : Nat) {i : Nat} {o : Obj}, s.heap[i]? = some o → o.alive = true →
    3 ≤ k + rank o.kind → Reach s c i := by
  intro k
  induction k with
  | zero =>
    intro i o _ _ hr
    cases hk : o.kind <;> rw [hk] at hr <;> simp [rank] at hr
  | succ k ih =>
    intro i o hi ha hr
    obtain ⟨_, hpos⟩ := h.live i o hi ha (by simp)
    by_cases h1 : 0 < ctx s i
    · simp only [ctx, hi, ctxOf] at h1
      split at h1
      · refine .device hi ?_
        split at h1
        · assumption
        · omega
      · rename_i n hk
        refine .seat hi hk ?_
        split at h1
        · omega
        · simpa using ‹¬ s.udev = true›
      · rename_i ty ser hk
        refine .tool hi hk ?_
        split at h1
        · assumption
        · omega
      · omega
    · by_cases h2 : 0 < s.queue.count i
      · exact .unread (List.count_pos_iff.mp h2)
      · by_cases h3 : 0 < c.held.count i
        · exact .event (List.count_pos_iff.mp h3)
        · by_cases h4 : 0 < c.refs i
          · exact .caller h4
          · have h5 : 0 < inc s [] i := by simp only [total] at hpos; omega
            obtain ⟨x, hx, hw⟩ := pos_of_sum _ _ h5
            simp only [wtAt] at hw
            split at hw
            · rename_i ox hox
              simp only [wt] at hw
              split at hw
              · rename_i hal
                have hm := List.count_pos_iff.mp hw
                obtain ⟨oi, b1, b2, _⟩ := h.wf.out x ox hox i hm
                rw [hi] at b1
                cases b1
                exact .via (ih hox hal.1 (by omega)) hox hm
              · omega
            · omega

theorem reach_iff {s c} (h : Inv (fun _ => 0) [] s c) (i : Nat) : Reach s c i ↔ ∃ o, s.heap[i]? = some o ∧ o.alive = true :=
  ⟨fun hr => hr.alive h, fun ⟨_, h1, h2⟩ => alive_reach h 3 h1 h2 (by omega)⟩

/-! ### Steps -/

theorem init_inv (udev : Bool) : Inv (fun _ => 0) [] (init udev) Client.nothing := by
  refine ⟨⟨?_, ?_, ?_, ?_, ?_, ?_, ?_⟩, ?_, ?_, ?_⟩
  all_goals first
    | (intro x o h; simp [init] at h; done)
    | (intro x o d h; simp [init] at h; done)
    | (intro x o d e h; simp [init] at h; done)
    | (intro x h; simp [init, Client.nothing] at h; done)

theorem step_ok {s c} {op : Op} (h : Inv (fun _ => 0) [] s c) (hse : Seated none s) (ha : Allowed s c op) :
    ∃ s', step s op = .ok s' ∧ Inv (fun _ => 0) [] s' (c.after s op) ∧ Seated none s' := by
  have hp0 : PinsIn (fun _ => 0) s := fun _ _ => rfl
  cases op with
  | add name sys ident what => exact addDev_ok name sys ident what h hse
  | remove d notes =>
    obtain ⟨hr, o, sys, st, ho, hk⟩ := ha
    obtain ⟨o', b1, b2⟩ := hr.alive h
    rw [ho] at b1
    cases b1
    exact remove_ok notes h ho b2 hk hse
  | suspend notes =>
    obtain ⟨s', e, i, se, _⟩ := suspend_ok notes h hse
    exact ⟨s', e, i, se⟩
  | post d n =>
    obtain ⟨o, ho, hl⟩ := ha
    obtain ⟨h1, sys, st, hk⟩ := linked_alive h ho hl
    obtain ⟨s', e, i, k⟩ := post_ok n h hp0 ho h1 hk
    exact ⟨s', e, i, hse.keep k⟩
  | getEvent =>
    refine ⟨_, rfl, ?_, hse⟩
    refine h.requeue (s.queue.drop 1) ?_ ?_ h.wf.refs
    · intro i
      have := congrArg (List.count i) (List.take_append_drop 1 s.queue)
      simp only [List.count_append] at this
      simp only [Client.after, List.count_append]
      omega
    · intro e he
      apply h.wf.events e
      simp only [Client.after, List.mem_append] at he
      rcases he with he | he | he
      · exact .inl (List.mem_of_mem_drop he)
      · exact .inl (List.mem_of_mem_take he)
      · exact .inr he
  | destroyEvent e =>
    obtain ⟨s', e1, i1, f1⟩ := destroyEvent_ok h ha
    exact ⟨s', e1, i1, hse.frame f1⟩
  | ref i =>
    obtain ⟨hr, o, ho, hk⟩ := ha
    obtain ⟨o', b1, b2⟩ := hr.alive h
    rw [ho] at b1
    cases b1
    obtain ⟨e1, i1⟩ := ref_ok h ho b2 (by simp) hk
    refine ⟨_, e1, ?_, hse.keep (Keep.put ho _)⟩
    refine i1.requeue (c' := c.after s (.ref i)) (put s i { o with refs := o.refs + 1 }).queue ?_ i1.wf.events ?_
    · intro j
      simp only [Client.after, addl, List.count_cons, List.count_nil]
      by_cases e : j = i
      · subst e
        simp
        omega
      · have : ¬ (i == j) = true := by simp; omega
        simp [e, this]
    · intro j hj
      simp only [Client.after] at hj
      by_cases e : j = i
      · subst e
        exact ⟨_, put_get_self ho, hk⟩
      · rw [if_neg e] at hj
        exact i1.wf.refs j hj
  | unref i =>
    obtain ⟨hpos, hhome⟩ := ha
    obtain ⟨o, ho, hk⟩ := h.wf.refs i hpos
    obtain ⟨hal, _⟩ := h.alive ho (by simp only [total]; omega)
    have i1 : Inv (addl (fun _ => 0) [i]) [] s (c.after s (.unref i)) := by
      refine h.requeue (p' := addl (fun _ => 0) [i]) (c' := c.after s (.unref i)) s.queue ?_ h.wf.events ?_
      · intro j
        simp only [Client.after, addl, List.count_cons, List.count_nil]
        by_cases e : j = i
        · subst e
          simp
          omega
        · have : ¬ (i == j) = true := by simp; omega
          simp [e, this]
      · intro j hj
        simp only [Client.after] at hj
        refine h.wf.refs j ?_
        split at hj <;> omega
    by_cases hr : rank o.kind = 1
    · obtain ⟨s', e1, i2, f1⟩ := unrefDev_ok i1 ho hr
      obtain ⟨sys, st, hks⟩ := rank_one hr
      refine ⟨s', ?_, i2, hse.frame f1⟩
      simp only [step, Refs.unref, fetch_ok ho hal, Bind.bind, Except.bind, hks]
      exact e1
    · have hr0 : rank o.kind = 0 := by
        cases hkk : o.kind with
        | event d => exact absurd hkk (hk d)
        | dev a b => rw [hkk] at hr; exact absurd rfl hr
        | _ => rfl
      obtain ⟨s', e1, i2, f1⟩ := unrefLeaf_ok i1 ho hr0 (fun x hx => (hhome o x ho hx).alive h)
      refine ⟨s', ?_, i2, hse.frame f1⟩
      simp only [step, Refs.unref, fetch_ok ho hal, Bind.bind, Except.bind]
      cases hkk : o.kind with
      | event d => exact absurd hkk (hk d)
      | dev a b => rw [hkk] at hr; exact absurd rfl hr
      | _ => exact e1

theorem run_ok (ops : List Op) : ∀ {s c}, Inv (fun _ => 0) [] s c → Seated none s → History s c ops →
    ∃ s', run s ops = .ok s' ∧ Inv (fun _ => 0) [] s' (c.over s ops) ∧ Seated none s' := by
  induction ops with
  | nil =>
    intro s c h hse _
    exact ⟨s, rfl, h, hse⟩
  | cons op ops ih =>
    intro s c h hse hh
    obtain ⟨s1, e1, i1, se1⟩ := step_ok h hse hh.1
    obtain ⟨s2, e2, i2, se2⟩ := ih i1 se1 (hh.2 s1 e1)
    refine ⟨s2, ?_, ?_, se2⟩
    · simp only [run, e1, Bind.bind, Except.bind]
      exact e2
    · simp only [Client.over, e1]
      exact i2

theorem init_seated (udev : Bool) : Seated none (init udev) := by
  intro d o sys st _ h
  simp [init] at h

end Libinput.Refs
