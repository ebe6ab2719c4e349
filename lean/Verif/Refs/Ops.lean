import Verif.Refs.Lemmas
/-
Each operation keeps the invariant.
-/
namespace Libinput.Refs
open Spec

theorem put_self {s : State} {i : Nat} {o : Obj} (h : s.heap[i]? = some o) : put s i o = s := by
  have : s.heap.set i o = s.heap := by
    apply List.ext_getElem?
    intro x
    rw [List.getElem?_set]
    split
    · rename_i e
      subst e
      rw [if_pos (lt_of_some h), h]
    · rfl
  simp [put, this]

theorem rank_one {k : Kind} (h : rank k = 1) : ∃ sys st, k = .dev sys st := by
  cases k <;> simp [rank] at h
  exact ⟨_, _, rfl⟩

theorem destroyDev_ok {p : Nat → Nat} {D s c} {d : Nat} {o : Obj} (h : Inv (addl p o.out) (d :: D) s c) (hd : d ∉ D)
    (ho : s.heap[d]? = some o) (hk : rank o.kind = 1) :
    ∃ s', destroyDev s d = .ok s' ∧ Inv p D s' c ∧ Frame 2 s s' := by
  obtain ⟨od, h1, ha⟩ := h.dying d (by simp)
  rw [ho] at h1
  cases h1
  obtain ⟨sys, st, hks⟩ := rank_one hk
  obtain ⟨s1, e1, i1, f1⟩ := foldLeaf_ok o.out h (by
    intro i hi
    obtain ⟨oi, a1, a2, a3⟩ := h.wf.out d o ho i hi
    refine ⟨oi, a1, by omega, ?_⟩
    intro x hx
    rcases a3 with a3 | a3
    · rw [a3] at hx
      cases hx
    · rw [a3, hks] at hx
      simp only [owner, Option.some.injEq] at hx
      subst hx
      exact ⟨o, ho, ha, by omega⟩)
  obtain ⟨o', b1, b2, b3, b4, b5, b6, b7⟩ := f1.objs d o ho
  have := b7 (by omega)
  subst this
  refine ⟨put s1 d { o' with refs := o'.refs, alive := false }, ?_, ?_, ?_⟩
  · simp only [destroyDev, fetch_ok ho ha, Bind.bind, Except.bind, e1, free, fetch_ok b1 ha]
  · refine i1.update b1 (i1.wf.put' b1 _ _ (fun _ _ hf => by cases hf)) ?_ (fun hd' => absurd hd' hd) ?_
      (fun hf => by cases hf) ?_
    · intro i hi
      simp [hi]
    · intro i _
      simp [wt]
    · intro _
      have := i1.dead d o' b1 (.inr (by simp))
      simp only [total, ctx, b1] at this
      have e : ctxOf s1.udev { o' with refs := o'.refs, alive := false } = ctxOf s1.udev o' := rfl
      rw [e]
      omega
  · have := Frame.put b1 o'.refs false (fun hf => by cases hf)
    rw [hk] at this
    exact (f1.mono (by omega)).trans this

theorem unrefDev_ok {p : Nat → Nat} {D s c} {d : Nat} {o : Obj} (h : Inv (addl p [d]) D s c)
    (ho : s.heap[d]? = some o) (hk : rank o.kind = 1) :
    ∃ s', unrefDev s d = .ok s' ∧ Inv p D s' c ∧ Frame 2 s s' := by
  have hpos : 0 < total (addl p [d]) D s c d := by rw [total_addl]; simp
  obtain ⟨ha, hD⟩ := h.alive ho hpos
  obtain ⟨h1, h2⟩ := h.live d o ho ha hD
  have hne : o.refs ≠ 0 := by omega
  have hke : ∀ x, o.kind ≠ .event x := by intro x e; rw [e] at hk; cases hk
  have htot : total (addl p [d]) D s c d = ctxOf s.udev o + s.queue.count d + c.held.count d + c.refs d + p d + inc s D d + 1 := by
    simp only [total, addl, List.count_singleton_self, ctx, ho]
    omega
  have hcnt : ∀ j, j ≠ d → ([d] : List Nat).count j = 0 := fun j hj => List.count_eq_zero.mpr (by simp [hj])
  by_cases h3 : o.refs = 1
  · have i1 : Inv (addl p o.out) (d :: D) (put s d { o with refs := 0, alive := o.alive }) c := by
      refine h.update ho (h.wf.put' ho _ _ (fun x hx => absurd hx (hke x))) ?_ (fun _ => ha) ?_ ?_ ?_
      · intro i hi
        simp [hi]
      · intro i hi
        simp only [addl, hcnt i hi, wt, ha, hD]
        simp
        omega
      · intro _ hx
        simp at hx
      · intro _
        have : ctxOf s.udev { o with refs := 0 } = ctxOf s.udev o := rfl
        simp only [addl, List.count_eq_zero.mpr (not_mem_self h.wf ho), this]
        omega
    have hg : (put s d { o with refs := 0, alive := o.alive }).heap[d]? = some { o with refs := 0 } := put_get_self ho
    obtain ⟨s2, e2, i2, f2⟩ := destroyDev_ok (o := { o with refs := 0 }) i1 hD hg hk
    refine ⟨s2, ?_, i2, ?_⟩
    · simp only [unrefDev, Refs.drop, fetch_ok ho ha, Bind.bind, Except.bind, if_neg hne]
      simp only [h3, beq_self_eq_true, if_true, Nat.sub_self]
      exact e2
    · have := Frame.put ho 0 o.alive id
      rw [hk] at this
      exact this.trans f2
  · refine ⟨put s d { o with refs := o.refs - 1, alive := o.alive }, ?_, ?_, ?_⟩
    · have hb : (o.refs == 1) = false := by simp [h3]
      simp only [unrefDev, Refs.drop, fetch_ok ho ha, Bind.bind, Except.bind, if_neg hne, hb]
      rfl
    · refine h.update ho (h.wf.put' ho _ _ (fun x hx => absurd hx (hke x))) (fun _ _ => Iff.rfl)
        (fun _ => ha) ?_ ?_ ?_
      · intro i hi
        simp only [addl, hcnt i hi, wt]
        omega
      · intro _ _
        have : ctxOf s.udev { o with refs := o.refs - 1 } = ctxOf s.udev o := rfl
        rw [this]
        simp only
        omega
      · intro h4
        rcases h4 with h4 | h4
        · simp only at h4
          rw [ha] at h4
          cases h4
        · exact absurd h4 hD
    · have := Frame.put ho (o.refs - 1) o.alive id
      rw [hk] at this
      exact this

theorem Wf.client {s : State} {c c' : Client} (h : Wf s c) (hh : ∀ e, e ∈ c'.held → e ∈ c.held)
    (hr : ∀ i, 0 < c'.refs i → 0 < c.refs i) : Wf s c' :=
  ⟨h.out, h.home, h.last, h.seat, h.linked, fun e he => h.events e (he.imp_right (hh e)), fun i hi => h.refs i (hr i hi)⟩

theorem destroyEvent_ok {p : Nat → Nat} {s c} {e : Nat} (h : Inv p [] s c) (he : e ∈ c.held) :
    ∃ s', destroyEvent s e = .ok s' ∧ Inv p [] s' { c with held := c.held.erase e } ∧ Frame 3 s s' := by
  obtain ⟨o, d, ho, hk⟩ := h.wf.events e (.inr he)
  obtain ⟨⟨l, hl, hlr⟩, ⟨od, sys, st, hod, hkd⟩, hone⟩ := h.wf.last e o d ho hk
  have hcp : 0 < c.held.count e := List.count_pos_iff.mpr he
  have hpos : 0 < total p [] s c e := by simp only [total]; omega
  obtain ⟨ha, _⟩ := h.alive ho hpos
  obtain ⟨h1, h2⟩ := h.live e o ho ha (by simp)
  have h3 := hone ha
  let c' : Client := { c with held := c.held.erase e }
  have hwf' : Wf s c' := h.wf.client (fun x hx => List.mem_of_mem_erase hx) (fun _ hi => hi)
  have i1 : Inv (addl (addl p [d]) l) [e] s c' := by
    have := h.update (p' := addl (addl p [d]) l) (D' := [e]) (c' := c') (o' := o) ho (by rw [put_self ho]; exact hwf')
      (by intro i hi; simp [hi]) (fun _ => ha) (by
        intro i hi
        have : (c.held.erase e).count i = c.held.count i := by rw [List.count_erase_of_ne hi]
        simp only [c', this, addl, wt, ha, hl]
        simp
        omega) (by intro _ hx; simp at hx) (by
        intro _
        have hc : (c.held.erase e).count e = c.held.count e - 1 := List.count_erase_self ..
        have hnm := not_mem_self h.wf ho
        rw [hl] at hnm
        have e1 : l.count e = 0 := List.count_eq_zero.mpr (fun hx => hnm (by simp [hx]))
        have e2 : ([d] : List Nat).count e = 0 := List.count_eq_zero.mpr (fun hx => hnm (by simp at hx; simp [hx]))
        simp only [total, ctx, ho] at h1
        simp only [c', hc, addl, e1, e2]
        omega)
    rw [put_self ho] at this
    exact this
  have hda : od.alive = true := by
    refine (i1.alive hod ?_).1
    rw [total_addl, total_addl]
    simp
    omega
  obtain ⟨s1, e1, i2, f1⟩ := foldLeaf_ok l i1 (by
    intro i hi
    obtain ⟨oi, a1, a2, a3⟩ := h.wf.out e o ho i (by simp [hl, hi])
    refine ⟨oi, a1, hlr i oi hi a1, ?_⟩
    intro x hx
    rcases a3 with a3 | a3
    · rw [a3] at hx
      cases hx
    · rw [a3, hk] at hx
      simp only [owner, Option.some.injEq] at hx
      subst hx
      exact ⟨od, hod, hda, by simp [hkd, rank]⟩)
  obtain ⟨od', b1, b2, _, _, _, _, _⟩ := f1.objs d od hod
  obtain ⟨s2, e2, i3, f2⟩ := unrefDev_ok i2 b1 (by rw [b2, hkd]; rfl)
  have f12 := (f1.mono (by omega : 1 ≤ 2)).trans f2
  obtain ⟨o', g1, g2, g3, g4, g5, g6, g7⟩ := f12.objs e o ho
  have := g7 (by simp [hk, rank])
  subst this
  refine ⟨put s2 e { o' with refs := o'.refs, alive := false }, ?_, ?_, ?_⟩
  · simp only [destroyEvent, fetch_ok ho ha, Bind.bind, Except.bind, hk, hl, List.dropLast_concat, e1, e2, free,
      fetch_ok g1 ha]
  · refine i3.update g1 (i3.wf.put' g1 _ _ (fun _ _ hf => by cases hf)) ?_ (fun hd' => by cases hd') ?_
      (fun hf => by cases hf) ?_
    · intro i hi
      simp [hi]
    · intro i _
      simp [wt, c']
    · intro _
      have := i3.dead e o' g1 (.inr (by simp))
      simp only [total, ctx, g1] at this
      have e : ctxOf s2.udev { o' with refs := o'.refs, alive := false } = ctxOf s2.udev o' := rfl
      rw [e]
      simp only [c'] at this
      omega
  · have := Frame.put g1 o'.refs false (fun hf => by cases hf)
    have hr : rank o'.kind + 1 = 3 := by rw [hk]; rfl
    rw [hr] at this
    exact (f12.mono (by omega)).trans this

/-! New objects. -/

theorem alloc_old {s : State} {o : Obj} {x : Nat} (h : x < s.heap.length) : (alloc s o).heap[x]? = s.heap[x]? := by
  simp [alloc, List.getElem?_append_left h]

theorem alloc_new (s : State) (o : Obj) : (alloc s o).heap[s.heap.length]? = some o := by
  simp [alloc]

theorem alloc_some {s : State} {o : Obj} {x : Nat} {ox : Obj} (h : s.heap[x]? = some ox) : (alloc s o).heap[x]? = some ox := by
  rw [alloc_old (lt_of_some h)]
  exact h

theorem alloc_cases {s : State} {o : Obj} {x : Nat} {ox : Obj} (h : (alloc s o).heap[x]? = some ox) :
    s.heap[x]? = some ox ∨ x = s.heap.length ∧ ox = o := by
  have hlt := lt_of_some h
  simp only [alloc, List.length_append, List.length_cons, List.length_nil] at hlt
  by_cases e : x = s.heap.length
  · subst e
    rw [alloc_new] at h
    cases h
    exact .inr ⟨rfl, rfl⟩
  · rw [alloc_old (by omega)] at h
    exact .inl h

/-- A new object may point to what is there and has its place. -/
structure Fits (s : State) (o : Obj) : Prop where
  out : ∀ y ∈ o.out, ∃ oy, s.heap[y]? = some oy ∧ rank oy.kind < rank o.kind ∧
    (oy.home = none ∨ oy.home = some (owner s.heap.length o.kind))
  home : ∀ h, o.home = some h → (o.kind = .mode ∨ ∃ ty ser, o.kind = .tool ty ser) ∧ ∃ oh, s.heap[h]? = some oh
  last : ∀ d, o.kind = .event d →
    (∃ l, o.out = l ++ [d] ∧ ∀ (y : Nat) (oy : Obj), y ∈ l → s.heap[y]? = some oy → rank oy.kind = 0) ∧
    (∃ od sys seat, s.heap[d]? = some od ∧ od.kind = .dev sys seat) ∧ (o.alive = true → o.refs = 1)
  seat : ∀ sys st, o.kind = .dev sys st → ∃ os n, s.heap[st]? = some os ∧ os.kind = .seat n
  linked : o.linked = false

theorem Wf.alloc {s : State} {c : Client} (h : Wf s c) {o : Obj} (hf : Fits s o) : Wf (Refs.alloc s o) c := by
  refine ⟨?_, ?_, ?_, ?_, ?_, ?_, ?_⟩
  · intro x ox hx y hy
    rcases alloc_cases hx with hx | ⟨rfl, rfl⟩
    · obtain ⟨oy, h1, h2, h3⟩ := h.out x ox hx y hy
      exact ⟨oy, alloc_some h1, h2, h3⟩
    · obtain ⟨oy, h1, h2, h3⟩ := hf.out y hy
      exact ⟨oy, alloc_some h1, h2, h3⟩
  · intro x ox hm hx hh
    rcases alloc_cases hx with hx | ⟨rfl, rfl⟩
    · obtain ⟨h1, oh, h2⟩ := h.home x ox hm hx hh
      exact ⟨h1, oh, alloc_some h2⟩
    · obtain ⟨h1, oh, h2⟩ := hf.home hm hh
      exact ⟨h1, oh, alloc_some h2⟩
  · intro x ox d hx hk
    have key : (∃ l, ox.out = l ++ [d] ∧ ∀ (y : Nat) (oy : Obj), y ∈ l → s.heap[y]? = some oy → rank oy.kind = 0) ∧
      (∃ od sys seat, s.heap[d]? = some od ∧ od.kind = .dev sys seat) ∧ (ox.alive = true → ox.refs = 1) ∧
      (∀ y ∈ ox.out, ∃ oy, s.heap[y]? = some oy) := by
      rcases alloc_cases hx with hx | ⟨rfl, rfl⟩
      · obtain ⟨a1, a2, a3⟩ := h.last x ox d hx hk
        exact ⟨a1, a2, a3, fun y hy => by obtain ⟨oy, b, _⟩ := h.out x ox hx y hy; exact ⟨oy, b⟩⟩
      · obtain ⟨a1, a2, a3⟩ := hf.last d hk
        exact ⟨a1, a2, a3, fun y hy => by obtain ⟨oy, b, _⟩ := hf.out y hy; exact ⟨oy, b⟩⟩
    obtain ⟨⟨l, a1, a2⟩, ⟨od, sys, st, a3, a4⟩, a5, a6⟩ := key
    refine ⟨⟨l, a1, ?_⟩, ⟨od, sys, st, alloc_some a3, a4⟩, a5⟩
    intro y oy hy hyl
    obtain ⟨oy', b⟩ := a6 y (by simp [a1, hy])
    rw [alloc_some b] at hyl
    cases hyl
    exact a2 y _ hy b
  · intro x ox sys st hx hk
    rcases alloc_cases hx with hx | ⟨rfl, rfl⟩
    · obtain ⟨h1, os, n, h2, h3⟩ := h.seat x ox sys st hx hk
      exact ⟨h1, os, n, alloc_some h2, h3⟩
    · obtain ⟨os, n, h2, h3⟩ := hf.seat sys st hk
      refine ⟨?_, os, n, alloc_some h2, h3⟩
      intro hl
      rw [hf.linked] at hl
      cases hl
  · intro x ox hx hl
    rcases alloc_cases hx with hx | ⟨rfl, rfl⟩
    · exact h.linked x ox hx hl
    · rw [hf.linked] at hl
      cases hl
  · intro e he
    obtain ⟨oe, d, h1, h2⟩ := h.events e he
    exact ⟨oe, d, alloc_some h1, h2⟩
  · intro i hi
    obtain ⟨oi, h1, h2⟩ := h.refs i hi
    exact ⟨oi, alloc_some h1, h2⟩

theorem inc_alloc {p : Nat → Nat} {D s c} (h : Inv p D s c) (o : Obj) (i : Nat) :
    inc (alloc s o) D i = inc s D i + wt D s.heap.length o i := by
  have hl : (alloc s o).heap.length = s.heap.length + 1 := by simp [alloc]
  unfold inc
  rw [hl, List.range_succ]
  simp only [List.map_append, List.map_cons, List.map_nil, List.sum_append, List.sum_cons, List.sum_nil, Nat.add_zero]
  congr 1
  · apply sum_same
    intro x hx
    simp only [wtAt, alloc_old hx]
  · simp only [wtAt, alloc_new]

theorem inc_new {s : State} {c : Client} (h : Wf s c) (D : List Nat) {i : Nat} (hi : s.heap.length ≤ i) : inc s D i = 0 := by
  cases hs : inc s D i with
  | zero => rfl
  | succ n =>
    obtain ⟨x, hx, hw⟩ := pos_of_sum s.heap.length (fun x => wtAt s D x i) (by unfold inc at hs; omega)
    simp only [wtAt] at hw
    split at hw
    · rename_i o ho
      simp only [wt] at hw
      split at hw
      · obtain ⟨oy, h1, _⟩ := h.out x o ho i (List.count_pos_iff.mp hw)
        have := lt_of_some h1
        omega
      · omega
    · omega

theorem Inv.alloc {p : Nat → Nat} {D s c} {o : Obj} (h : Inv (addl p o.out) D s c) (hf : Fits s o) (ha : o.alive = true)
    (hr : o.refs = ctxOf s.udev o + p s.heap.length) (hr' : 0 < o.refs) : Inv p D (Refs.alloc s o) c := by
  have hwf := h.wf.alloc hf
  have hnD : s.heap.length ∉ D := by
    intro hm
    obtain ⟨o', h1, _⟩ := h.dying _ hm
    have := lt_of_some h1
    omega
  have hold : ∀ (i : Nat) (oi : Obj), s.heap[i]? = some oi → total p D (Refs.alloc s o) c i = total (addl p o.out) D s c i := by
    intro i oi hi
    simp only [total, inc_alloc h, ctx, alloc_some hi, hi, addl, wt, ha, hnD]
    have : (Refs.alloc s o).queue = s.queue := rfl
    have : (Refs.alloc s o).udev = s.udev := rfl
    simp [*]
    omega
  have hnew : total p D (Refs.alloc s o) c s.heap.length = o.refs := by
    have e1 : s.queue.count s.heap.length = 0 := by
      apply List.count_eq_zero.mpr
      intro hm
      obtain ⟨oe, _, h1, _⟩ := h.wf.events _ (.inl hm)
      have := lt_of_some h1
      omega
    have e2 : c.held.count s.heap.length = 0 := by
      apply List.count_eq_zero.mpr
      intro hm
      obtain ⟨oe, _, h1, _⟩ := h.wf.events _ (.inr hm)
      have := lt_of_some h1
      omega
    have e3 : c.refs s.heap.length = 0 := by
      cases hc : c.refs s.heap.length with
      | zero => rfl
      | succ n =>
        obtain ⟨oe, h1, _⟩ := h.wf.refs s.heap.length (by omega)
        have := lt_of_some h1
        omega
    have e4 := wt_self hwf (alloc_new s o) D
    have : (Refs.alloc s o).queue = s.queue := rfl
    have : (Refs.alloc s o).udev = s.udev := rfl
    simp only [total, inc_alloc h, ctx, alloc_new, inc_new h.wf D (Nat.le_refl _), e4, *]
    omega
  refine ⟨hwf, ?_, ?_, ?_⟩
  · intro i oi hi hai hiD
    rcases alloc_cases hi with hi | ⟨rfl, rfl⟩
    · rw [hold i oi hi]
      exact h.live i oi hi hai hiD
    · rw [hnew]
      exact ⟨rfl, hr'⟩
  · intro i oi hi hai
    rcases alloc_cases hi with hi | ⟨rfl, rfl⟩
    · rw [hold i oi hi]
      exact h.dead i oi hi hai
    · rcases hai with hai | hai
      · rw [ha] at hai
        cases hai
      · exact absurd hai hnD
  · intro i hi
    obtain ⟨oi, h1, h2⟩ := h.dying i hi
    exact ⟨oi, alloc_some h1, h2⟩

/-- The queue and the caller's events change, but not what holds what. -/
theorem Inv.requeue {p p' : Nat → Nat} {D s c} {c' : Client} (h : Inv p D s c) (q : List Nat)
    (hc : ∀ i, q.count i + c'.held.count i + c'.refs i + p' i = s.queue.count i + c.held.count i + c.refs i + p i)
    (hev : ∀ e, e ∈ q ∨ e ∈ c'.held → ∃ o d, s.heap[e]? = some o ∧ o.kind = .event d)
    (hrf : ∀ i, 0 < c'.refs i → ∃ o, s.heap[i]? = some o ∧ ∀ d, o.kind ≠ .event d) :
    Inv p' D { s with queue := q } c' := by
  have ht : ∀ i, total p' D { s with queue := q } c' i = total p D s c i := by
    intro i
    have := hc i
    have e1 : ctx { s with queue := q } i = ctx s i := rfl
    have e2 : inc { s with queue := q } D i = inc s D i := rfl
    simp only [total, e1, e2]
    omega
  refine ⟨⟨h.wf.out, h.wf.home, h.wf.last, h.wf.seat, h.wf.linked, hev, hrf⟩, ?_, ?_, h.dying⟩
  · intro i o hi ha hD
    rw [ht]
    exact h.live i o hi ha hD
  · intro i o hi ha
    rw [ht]
    exact h.dead i o hi ha

end Libinput.Refs
