import Verif.Refs.Ops
/-
Events, tools and the removal of devices keep the invariant, and nothing is freed on the way.
-/
namespace Libinput.Refs
open Spec

/-- Nothing is freed and nothing loses a pointer; only devices in `L` leave their seat's list. -/
structure Keep (L : List Nat) (s s' : State) : Prop where
  udev : s'.udev = s.udev
  objs : ∀ (x : Nat) (o : Obj), s.heap[x]? = some o → ∃ o', s'.heap[x]? = some o' ∧ o'.kind = o.kind ∧ o'.home = o.home ∧
    o'.alive = o.alive ∧ (∀ y ∈ o.out, y ∈ o'.out) ∧ (x ∉ L → o'.linked = o.linked) ∧ (o'.linked = true → o.linked = true)
  fresh : ∀ (x : Nat) (o' : Obj), s'.heap[x]? = some o' → s.heap[x]? = none →
    o'.linked = false ∧ ∀ sys st, o'.kind ≠ .dev sys st

theorem Keep.refl (s : State) : Keep [] s s :=
  ⟨rfl, fun _ o h => ⟨o, h, rfl, rfl, rfl, fun _ h => h, fun _ => rfl, id⟩, fun _ _ h h' => by rw [h] at h'; cases h'⟩

theorem Keep.trans {L L' : List Nat} {a b c : State} (h1 : Keep L a b) (h2 : Keep L' b c) : Keep (L ++ L') a c := by
  refine ⟨h2.udev.trans h1.udev, ?_, ?_⟩
  · intro x o hx
    obtain ⟨o1, a1, a2, a3, a4, a5, a6, a7⟩ := h1.objs x o hx
    obtain ⟨o2, b1, b2, b3, b4, b5, b6, b7⟩ := h2.objs x o1 a1
    refine ⟨o2, b1, b2.trans a2, b3.trans a3, b4.trans a4, fun y hy => b5 y (a5 y hy), ?_, fun h => a7 (b7 h)⟩
    intro hx'
    simp only [List.mem_append, not_or] at hx'
    exact (b6 hx'.2).trans (a6 hx'.1)
  · intro x o' hx hn
    cases hb : b.heap[x]? with
    | none => exact h2.fresh x o' hx hb
    | some o1 =>
      obtain ⟨this, nd⟩ := h1.fresh x o1 hb hn
      obtain ⟨o2, b1, b2, _, _, _, _, b7⟩ := h2.objs x o1 hb
      rw [hx] at b1
      cases b1
      refine ⟨?_, b2 ▸ nd⟩
      cases hl : o'.linked with
      | false => rfl
      | true =>
        rw [b7 hl] at this
        cases this

theorem Keep.put {s : State} {i : Nat} {o : Obj} (hi : s.heap[i]? = some o) (r : Nat) :
    Keep [] s (Refs.put s i { o with refs := r }) := by
  refine ⟨rfl, ?_, ?_⟩
  · intro x ox hx
    by_cases e : i = x
    · subst e
      rw [hi] at hx
      cases hx
      exact ⟨_, put_get_self hi, rfl, rfl, rfl, fun _ h => h, fun _ => rfl, id⟩
    · exact ⟨ox, by rw [put_get_ne e]; exact hx, rfl, rfl, rfl, fun _ h => h, fun _ => rfl, id⟩
  · intro x o' hx hn
    by_cases e : i = x
    · subst e
      rw [hi] at hn
      cases hn
    · rw [put_get_ne e, hn] at hx
      cases hx

theorem Keep.alloc (s : State) (o : Obj) (hl : o.linked = false)
    (hk : ∀ sys st, o.kind ≠ .dev sys st) : Keep [] s (Refs.alloc s o) := by
  refine ⟨rfl, fun x ox hx => ⟨ox, alloc_some hx, rfl, rfl, rfl, fun _ h => h, fun _ => rfl, id⟩, ?_⟩
  intro x o' hx hn
  rcases alloc_cases hx with hx | ⟨rfl, rfl⟩
  · rw [hn] at hx
    cases hx
  · exact ⟨hl, hk⟩

theorem Keep.len {L : List Nat} {s s' : State} (h : Keep L s s') : s.heap.length ≤ s'.heap.length := by
  cases hn : s.heap.length with
  | zero => omega
  | succ n =>
    have : s.heap[n]? = some (s.heap[n]'(by omega)) := List.getElem?_eq_getElem (by omega)
    obtain ⟨o', h1, _⟩ := h.objs n _ this
    have := lt_of_some h1
    omega

theorem Keep.weaken {L L' : List Nat} {s s' : State} (h : Keep L s s') (hs : ∀ x ∈ L, x ∈ L') : Keep L' s s' := by
  refine ⟨h.udev, ?_, h.fresh⟩
  intro x o hx
  obtain ⟨o1, a1, a2, a3, a4, a5, a6, a7⟩ := h.objs x o hx
  exact ⟨o1, a1, a2, a3, a4, a5, fun hn => a6 (fun hm => hn (hs x hm)), a7⟩

theorem Inv.pins {p q : Nat → Nat} {D s c} (h : Inv p D s c) (e : ∀ i, i < s.heap.length → p i = q i) : Inv q D s c := by
  have ht : ∀ (i : Nat) (o : Obj), s.heap[i]? = some o → total q D s c i = total p D s c i := by
    intro i o hi
    simp only [total, e i (lt_of_some hi)]
  refine ⟨h.wf, ?_, ?_, h.dying⟩
  · intro i o hi
    rw [ht i o hi]
    exact h.live i o hi
  · intro i o hi
    rw [ht i o hi]
    exact h.dead i o hi

theorem inc_pos {s : State} {D : List Nat} {x y : Nat} {o : Obj} (hx : s.heap[x]? = some o) (ha : o.alive = true) (hD : x ∉ D)
    (hy : y ∈ o.out) : 0 < inc s D y := by
  apply sum_pos _ x _ (lt_of_some hx)
  simp only [wtAt, hx, wt, ha, hD]
  simp only [not_false_iff, and_self, if_true]
  exact List.count_pos_iff.mpr hy

theorem foldRef_ok {D c} (l : List Nat) : ∀ {p : Nat → Nat} {s : State}, Inv p D s c →
    (∀ i ∈ l, ∃ o, s.heap[i]? = some o ∧ o.alive = true ∧ i ∉ D ∧ ∀ d, o.kind ≠ .event d) →
    ∃ s', l.foldlM ref s = .ok s' ∧ Inv (addl p l) D s' c ∧ Keep [] s s' ∧ s'.heap.length = s.heap.length ∧ s'.queue = s.queue := by
  induction l with
  | nil =>
    intro p s h _
    exact ⟨s, rfl, h.congr (by intro i; simp [addl]), Keep.refl _, rfl, rfl⟩
  | cons i l ih =>
    intro p s h hl
    obtain ⟨o, h1, h2, h3, h4⟩ := hl i (by simp)
    obtain ⟨e1, i1⟩ := ref_ok h h1 h2 h3 h4
    have k1 := Keep.put h1 (o.refs + 1)
    obtain ⟨s2, e2, i2, k2, n2, q2⟩ := ih i1 (by
      intro j hj
      obtain ⟨oj, a1, a2, a3, a4⟩ := hl j (by simp [hj])
      obtain ⟨oj', b1, b2, b3, b4, _⟩ := k1.objs j oj a1
      exact ⟨oj', b1, b4 ▸ a2, a3, b2 ▸ a4⟩)
    refine ⟨s2, ?_, i2.congr ?_, k1.trans k2, by rw [n2]; simp [put], by rw [q2]; rfl⟩
    · simp only [List.foldlM_cons, e1, Bind.bind, Except.bind]
      exact e2
    · intro j
      simp only [addl, List.count_cons, List.count_nil]
      omega

/-- Pins are on what is there. -/
def PinsIn (p : Nat → Nat) (s : State) : Prop := ∀ i, s.heap.length ≤ i → p i = 0

theorem emit_ok {p : Nat → Nat} {s c} {d : Nat} {ptrs : List Nat} {o : Obj} {sys st : Nat} (h : Inv p [] s c) (hp : PinsIn p s)
    (hd : s.heap[d]? = some o) (hda : o.alive = true) (hk : o.kind = .dev sys st)
    (hptr : ∀ i ∈ ptrs, ∃ oi, s.heap[i]? = some oi ∧ oi.alive = true ∧ rank oi.kind = 0 ∧ (oi.home = none ∨ oi.home = some d)) :
    ∃ s', emit s d ptrs = .ok s' ∧ Inv p [] s' c ∧ Keep [] s s' ∧ ∃ (e : Nat) (oe : Obj), s'.heap[e]? = some oe ∧ oe.alive = true ∧ d ∈ oe.out := by
  obtain ⟨s1, e1, i1, k1, n1, q1⟩ := foldRef_ok ptrs h (by
    intro i hi
    obtain ⟨oi, a1, a2, a3, _⟩ := hptr i hi
    refine ⟨oi, a1, a2, by simp, ?_⟩
    intro x hx
    rw [hx] at a3
    cases a3)
  obtain ⟨o1, b1, b2, b3, b4, _⟩ := k1.objs d o hd
  obtain ⟨e2, i2⟩ := ref_ok i1 b1 (b4 ▸ hda) (by simp) (by intro x hx; rw [b2, hk] at hx; cases hx)
  let s2 := put s1 d { o1 with refs := o1.refs + 1 }
  have k2 := k1.trans (Keep.put b1 (o1.refs + 1))
  have n2 : s2.heap.length = s.heap.length := by simp only [s2, put, List.length_set, n1]
  let ev : Obj := { kind := .event d, refs := 1, alive := true, out := ptrs ++ [d], home := none, linked := false }
  have hfit : Fits s2 ev := by
    obtain ⟨od, c1, c2, c3, c4, _⟩ := k2.objs d o hd
    refine ⟨?_, ?_, ?_, ?_, rfl⟩
    · intro y hy
      simp only [ev, List.mem_append, List.mem_singleton] at hy
      rcases hy with hy | hy
      · obtain ⟨oy, a1, a2, a3, a4⟩ := hptr y hy
        obtain ⟨oy', f1, f2, f3, _⟩ := k2.objs y oy a1
        exact ⟨oy', f1, by rw [f2]; simp only [ev, rank] at *; omega, by rw [f3]; exact a4⟩
      · subst hy
        refine ⟨od, c1, by rw [c2, hk]; exact Nat.lt_succ_self 1, ?_⟩
        cases hh : od.home with
        | none => exact .inl rfl
        | some x =>
          obtain ⟨hw, _⟩ := i2.wf.home y od x c1 hh
          rw [c2, hk] at hw
          rcases hw with hw | ⟨_, _, hw⟩ <;> cases hw
    · intro x hx
      cases hx
    · intro x hx
      simp only [ev, Kind.event.injEq] at hx
      subst hx
      refine ⟨⟨ptrs, rfl, ?_⟩, ⟨od, sys, st, c1, c2.trans hk⟩, fun _ => rfl⟩
      intro y oy hy hyl
      obtain ⟨oy0, a1, a2, a3, a4⟩ := hptr y hy
      obtain ⟨oy', f1, f2, f3, _⟩ := k2.objs y oy0 a1
      have : (Keep.put b1 (o1.refs + 1)) = (Keep.put b1 (o1.refs + 1)) := rfl
      rw [show s2.heap[y]? = some oy' from f1] at hyl
      cases hyl
      rw [f2]
      exact a3
    · intro a b hx
      cases hx
  have i3 : Inv (addl p [s.heap.length]) [] (alloc s2 ev) c := by
    refine Inv.alloc (o := ev) (i2.pins ?_) hfit rfl ?_ (Nat.one_pos)
    · intro i hi
      have : i < s.heap.length := by rw [← n2]; exact hi
      have hne : i ≠ s.heap.length := by omega
      simp only [addl, ev, List.count_append, List.count_eq_zero.mpr (show i ∉ [s.heap.length] by simp [hne])]
      omega
    · rw [n2]
      simp [ev, ctxOf, addl, hp s.heap.length (Nat.le_refl _)]
  have hnew : (alloc s2 ev).heap[s.heap.length]? = some ev := by rw [← n2]; exact alloc_new s2 ev
  refine ⟨{ alloc s2 ev with queue := s1.queue ++ [s.heap.length] }, ?_, ?_, ?_, ?_⟩
  · simp only [emit, e1, e2, Bind.bind, Except.bind]
    congr 1
    have : (put s1 d { o1 with refs := o1.refs + 1 }).heap.length = s.heap.length := n2
    simp only [this]
    rfl
  · refine i3.requeue (s1.queue ++ [s.heap.length]) ?_ ?_ i3.wf.refs
    · intro i
      have : (alloc s2 ev).queue = s1.queue := rfl
      simp only [this, List.count_append, addl]
      omega
    · intro e he
      rcases he with he | he
      · simp only [List.mem_append, List.mem_singleton] at he
        rcases he with he | he
        · exact i3.wf.events e (.inl he)
        · subst he
          exact ⟨ev, d, hnew, rfl⟩
      · exact i3.wf.events e (.inr he)
  · have := k2.trans (Keep.alloc s2 ev rfl (by intro _ _ h; cases h))
    exact ⟨this.udev, this.objs, this.fresh⟩
  · exact ⟨s.heap.length, ev, hnew, rfl, by simp [ev]⟩

theorem findLast_some {s : State} {f : Obj → Bool} {i : Nat} (h : findLast s f = some i) :
    ∃ o, s.heap[i]? = some o ∧ o.alive = true ∧ f o = true := by
  have := List.find?_some h
  split at this
  · rename_i o ho
    simp only [Bool.and_eq_true] at this
    exact ⟨o, ho, this.1, this.2⟩
  · cases this

theorem getTool_ok {p : Nat → Nat} {s c} {d ty ser : Nat} {o : Obj} {sys st : Nat} (h : Inv p [] s c) (hp : PinsIn p s)
    (hd : s.heap[d]? = some o) (hda : o.alive = true) (hk : o.kind = .dev sys st) :
    ∃ s' t, getTool s d ty ser = .ok (s', t) ∧ Inv p [] s' c ∧ Keep [] s s' ∧
      ∃ ot, s'.heap[t]? = some ot ∧ ot.alive = true ∧ rank ot.kind = 0 ∧ (ot.home = none ∨ ot.home = some d) := by
  unfold getTool
  simp only
  generalize hin : (if ser ≠ 0 then findLast s (fun o => o.kind == .tool ty ser && o.home == none) else none) = found
  cases found with
  | some t =>
    refine ⟨s, t, rfl, h, Keep.refl s, ?_⟩
    split at hin
    · obtain ⟨ot, a1, a2, a3⟩ := findLast_some hin
      simp only [Bool.and_eq_true, beq_iff_eq] at a3
      exact ⟨ot, a1, a2, by rw [a3.1]; rfl, .inl a3.2⟩
    · cases hin
  | none =>
    simp only
    generalize hin2 : findLast s (fun o => (match o.kind with | .tool ty' _ => ty' == ty | _ => false) && o.home == some d) = found
    cases found with
    | some t =>
      refine ⟨s, t, rfl, h, Keep.refl s, ?_⟩
      obtain ⟨ot, a1, a2, a3⟩ := findLast_some hin2
      simp only [Bool.and_eq_true, beq_iff_eq] at a3
      refine ⟨ot, a1, a2, ?_, .inr a3.2⟩
      have := a3.1
      split at this
      · rename_i hkt
        rw [hkt]
        rfl
      · cases this
    | none =>
      simp only
      have hz := hp s.heap.length (Nat.le_refl _)
      by_cases hser : ser ≠ 0
      · rw [if_pos hser]
        let ot : Obj := { kind := .tool ty ser, refs := 1, alive := true, out := [], home := none, linked := false }
        refine ⟨alloc s ot, s.heap.length, rfl, ?_, Keep.alloc s ot rfl (by intro _ _ h; cases h), ot, alloc_new s ot, rfl, rfl, .inl rfl⟩
        refine Inv.alloc (o := ot) (h.congr (by intro i; simp [addl, ot])) ⟨?_, ?_, ?_, ?_, rfl⟩ rfl ?_ (Nat.one_pos)
        · intro y hy; cases hy
        · intro x hx; cases hx
        · intro x hx; cases hx
        · intro a b hx; cases hx
        · simp [ctxOf, ot, hz]
      · rw [if_neg hser]
        simp only [fetch_ok hd hda, Bind.bind, Except.bind]
        let ot : Obj := { kind := .tool ty ser, refs := 1, alive := true, out := [], home := some d, linked := false }
        have hcomm : alloc (put s d { o with out := s.heap.length :: o.out }) ot =
            put (alloc s ot) d { o with out := s.heap.length :: o.out } := by
          simp only [alloc, put]
          congr 1
          rw [List.set_append_left _ _ (lt_of_some hd)]
        have i1 : Inv (addl p [s.heap.length]) [] (alloc s ot) c := by
          refine Inv.alloc (o := ot) (h.pins ?_) ⟨?_, ?_, ?_, ?_, rfl⟩ rfl ?_ (Nat.one_pos)
          · intro i hi
            have hne : i ≠ s.heap.length := by omega
            simp only [addl, ot, List.count_eq_zero.mpr (show i ∉ [s.heap.length] by simp [hne]), List.count_nil, Nat.add_zero]
          · intro y hy; cases hy
          · intro x hx
            simp only [ot, Option.some.injEq] at hx
            subst hx
            exact ⟨.inr ⟨ty, ser, rfl⟩, o, hd⟩
          · intro x hx; cases hx
          · intro a b hx; cases hx
          · simp [ctxOf, ot, hz, addl]
        have hd1 := alloc_some (o := ot) hd
        have hdn : s.heap.length ≠ d := by have := lt_of_some hd; omega
        refine ⟨_, _, by rw [hcomm], ?_, ?_, ot, ?_, rfl, rfl, .inr rfl⟩
        · obtain ⟨h1, h2⟩ := i1.live d o hd1 hda (by simp)
          refine i1.update hd1 ?_ (fun _ _ => Iff.rfl) (fun hx => by cases hx) ?_ ?_ ?_
          · refine i1.wf.put (o' := { o with out := s.heap.length :: o.out }) hd1 rfl rfl ?_ ?_ ?_ (fun hl => i1.wf.linked d o hd1 hl)
            · intro y hy
              simp only [List.mem_cons] at hy
              rcases hy with hy | hy
              · subst hy
                refine ⟨ot, alloc_new s ot, by rw [hk]; exact Nat.lt_succ_self 0, .inr ?_⟩
                simp [ot, hk, owner]
              · exact i1.wf.out d o hd1 y hy
            · intro x hx
              rw [hk] at hx
              cases hx
            · intro a b hab hl
              exact List.mem_cons_of_mem _ ((i1.wf.seat d o a b hd1 hab).1 hl)
          · intro i hi
            simp only [addl, wt, hda, List.count_cons, List.count_nil]
            simp
            omega
          · intro _ _
            simp only [total, ctx, hd1, addl] at h1 h2
            have hc : ([s.heap.length] : List Nat).count d = 0 := List.count_eq_zero.mpr (by simp; omega)
            have : ctxOf (alloc s ot).udev { o with out := s.heap.length :: o.out } = ctxOf (alloc s ot).udev o := rfl
            simp only [this]
            omega
          · intro hx
            rcases hx with hx | hx
            · simp only at hx
              rw [hda] at hx
              cases hx
            · cases hx
        · have k1 := Keep.alloc s ot rfl (by intro _ _ h; cases h)
          refine ⟨k1.udev, ?_, ?_⟩
          · intro x ox hx
            by_cases e : d = x
            · subst e
              rw [hd] at hx
              cases hx
              exact ⟨_, put_get_self hd1, rfl, rfl, rfl, fun y hy => List.mem_cons_of_mem _ hy, fun _ => rfl, id⟩
            · obtain ⟨o', a⟩ := k1.objs x ox hx
              exact ⟨o', by rw [put_get_ne e]; exact a.1, a.2⟩
          · intro x o' hx hn
            by_cases e : d = x
            · subst e
              rw [hd] at hn
              cases hn
            · rw [put_get_ne e] at hx
              exact k1.fresh x o' hx hn
        · rw [put_get_ne (fun e => hdn e.symm)]
          exact alloc_new s ot

theorem PinsIn.keep {p : Nat → Nat} {L s s'} (h : PinsIn p s) (k : Keep L s s') : PinsIn p s' := by
  intro i hi
  exact h i (by have := k.len; omega)

theorem post_ok {p : Nat → Nat} {s c} {d : Nat} (n : Note) {o : Obj} {sys st : Nat} (h : Inv p [] s c) (hp : PinsIn p s)
    (hd : s.heap[d]? = some o) (hda : o.alive = true) (hk : o.kind = .dev sys st) :
    ∃ s', post s d n = .ok s' ∧ Inv p [] s' c ∧ Keep [] s s' := by
  cases n with
  | plain =>
    obtain ⟨s', a, b, c, _⟩ := emit_ok (ptrs := []) h hp hd hda hk (by intro i hi; cases hi)
    exact ⟨s', a, b, c⟩
  | tool ty ser =>
    obtain ⟨s1, t, e1, i1, k1, ot, t1, t2, t3, t4⟩ := getTool_ok (ty := ty) (ser := ser) h hp hd hda hk
    obtain ⟨o1, b1, b2, b3, b4, _⟩ := k1.objs d o hd
    obtain ⟨s2, e2, i2, k2, _⟩ := emit_ok (ptrs := [t]) i1 (hp.keep k1) b1 (b4 ▸ hda) (b2.trans hk) (by
      intro i hi
      simp only [List.mem_singleton] at hi
      subst hi
      exact ⟨ot, t1, t2, t3, t4⟩)
    refine ⟨s2, ?_, i2, k1.trans k2⟩
    simp only [post, e1, Bind.bind, Except.bind, e2]
  | pad k =>
    simp only [post]
    cases hm : (modesOf s d)[k]? with
    | none =>
      obtain ⟨s', a, b, c, _⟩ := emit_ok (ptrs := []) h hp hd hda hk (by intro i hi; cases hi)
      exact ⟨s', a, b, c⟩
    | some m =>
      have hmem := List.mem_of_getElem? hm
      simp only [modesOf, List.mem_filter] at hmem
      have h2 := hmem.2
      split at h2
      · rename_i om hom
        simp only [Bool.and_eq_true, beq_iff_eq] at h2
        obtain ⟨s', a, b, c, _⟩ := emit_ok (ptrs := [m]) h hp hd hda hk (by
          intro i hi
          simp only [List.mem_singleton] at hi
          subst hi
          exact ⟨om, hom, h2.1.1, by rw [h2.1.2]; rfl, .inr h2.2⟩)
        exact ⟨s', a, b, c⟩
      · cases h2

theorem foldPost_ok {p : Nat → Nat} {c} {d : Nat} (ns : List Note) : ∀ {s : State} {o : Obj} {sys st : Nat}, Inv p [] s c →
    PinsIn p s → s.heap[d]? = some o → o.alive = true → o.kind = .dev sys st →
    ∃ s', ns.foldlM (fun s n => post s d n) s = .ok s' ∧ Inv p [] s' c ∧ Keep [] s s' := by
  induction ns with
  | nil =>
    intro s o sys st h _ _ _ _
    exact ⟨s, rfl, h, Keep.refl s⟩
  | cons n ns ih =>
    intro s o sys st h hp hd hda hk
    obtain ⟨s1, e1, i1, k1⟩ := post_ok n h hp hd hda hk
    obtain ⟨o1, b1, b2, b3, b4, _⟩ := k1.objs d o hd
    obtain ⟨s2, e2, i2, k2⟩ := ih i1 (hp.keep k1) b1 (b4 ▸ hda) (b2.trans hk)
    refine ⟨s2, ?_, i2, k1.trans k2⟩
    simp only [List.foldlM_cons, e1, Bind.bind, Except.bind]
    exact e2

/-- A reference that is not the last is given up. -/
theorem unrefDev_keep {p : Nat → Nat} {s c} {d : Nat} {o : Obj} (h : Inv (addl p [d]) [] s c) (ho : s.heap[d]? = some o)
    (hk : rank o.kind = 1) (hpos : 0 < total p [] s c d) :
    ∃ s', unrefDev s d = .ok s' ∧ Inv p [] s' c ∧ Keep [] s s' := by
  obtain ⟨s', e1, i1, _⟩ := unrefDev_ok h ho hk
  have htp : total (addl p [d]) [] s c d = total p [] s c d + 1 := by rw [total_addl]; simp
  obtain ⟨ha, _⟩ := h.alive ho (by omega)
  obtain ⟨h1, _⟩ := h.live d o ho ha (by simp)
  have hne : o.refs ≠ 0 := by omega
  have hb : (o.refs == 1) = false := by simp; omega
  have e2 : unrefDev s d = .ok (put s d { o with refs := o.refs - 1 }) := by
    simp only [unrefDev, Refs.drop, fetch_ok ho ha, Bind.bind, Except.bind, if_neg hne, hb]
    rfl
  rw [e1] at e2
  cases e2
  exact ⟨_, e1, i1, Keep.put ho _⟩

theorem unrefLeaf_keep {p : Nat → Nat} {s c} {i : Nat} {o : Obj} (h : Inv (addl p [i]) [] s c) (ho : s.heap[i]? = some o)
    (hk : rank o.kind = 0) (hh : o.home = none) (hpos : 0 < total p [] s c i) :
    ∃ s', unrefLeaf s i = .ok s' ∧ Inv p [] s' c ∧ Keep [] s s' := by
  obtain ⟨s', e1, i1, _⟩ := unrefLeaf_ok h ho hk (by intro x hx; rw [hh] at hx; cases hx)
  have htp : total (addl p [i]) [] s c i = total p [] s c i + 1 := by rw [total_addl]; simp
  obtain ⟨ha, _⟩ := h.alive ho (by omega)
  obtain ⟨h1, _⟩ := h.live i o ho ha (by simp)
  have hne : o.refs ≠ 0 := by omega
  have hb : (o.refs == 1) = false := by simp; omega
  have e2 : unrefLeaf s i = .ok (put s i { o with refs := o.refs - 1 }) := by
    simp only [unrefLeaf, Refs.drop, fetch_ok ho ha, Bind.bind, Except.bind, if_neg hne, hb]
    rfl
  rw [e1] at e2
  cases e2
  exact ⟨_, e1, i1, Keep.put ho _⟩

theorem linked_alive {p : Nat → Nat} {s c} (h : Inv p [] s c) {d : Nat} {o : Obj} (ho : s.heap[d]? = some o)
    (hl : o.linked = true) : o.alive = true ∧ ∃ sys st, o.kind = .dev sys st := by
  obtain ⟨sys, st, hk⟩ := h.wf.linked d o ho hl
  refine ⟨(h.alive ho ?_).1, sys, st, hk⟩
  have : ctx s d = 1 := by simp [ctx, ho, ctxOf, hk, hl]
  simp only [total]
  omega

theorem seat_alive {p : Nat → Nat} {s c} (h : Inv p [] s c) {d : Nat} {o : Obj} (ho : s.heap[d]? = some o)
    (hl : o.linked = true) {sys st : Nat} (hk : o.kind = .dev sys st) :
    ∃ os n, s.heap[st]? = some os ∧ os.kind = .seat n ∧ os.alive = true ∧ 0 < total p [] s c st := by
  obtain ⟨ha, _⟩ := linked_alive h ho hl
  obtain ⟨h1, os, n, h2, h3⟩ := h.wf.seat d o sys st ho hk
  have := inc_pos (D := []) ho ha (by simp) (h1 hl)
  have ht : 0 < total p [] s c st := by simp only [total]; omega
  exact ⟨os, n, h2, h3, (h.alive h2 ht).1, ht⟩

theorem removeDev_ok {p : Nat → Nat} {s c} {d : Nat} (notes : List Note) {o : Obj} (h : Inv p [] s c) (hp : PinsIn p s)
    (hd : s.heap[d]? = some o) (hl : o.linked = true) :
    ∃ s', removeDev s d notes = .ok s' ∧ Inv p [] s' c ∧ Keep [d] s s' ∧
      ∃ o', s'.heap[d]? = some o' ∧ o'.linked = false := by
  obtain ⟨ha, sys, st, hk⟩ := linked_alive h hd hl
  obtain ⟨s1, e1, i1, k1⟩ := foldPost_ok notes h hp hd ha hk
  obtain ⟨o1, b1, b2, b3, b4, b5, b6, b7⟩ := k1.objs d o hd
  have hl1 : o1.linked = true := by rw [b6 (by simp), hl]
  obtain ⟨os, n, g1, g2, g3, _⟩ := seat_alive i1 b1 hl1 (b2.trans hk)
  have ha1 : o1.alive = true := b4.trans ha
  have hk1 := b2.trans hk
  -- taken off the list
  have i2 : Inv (addl p [d]) [] (put s1 d { o1 with linked := false }) c := by
    obtain ⟨h1, h2⟩ := i1.live d o1 b1 ha1 (by simp)
    refine i1.update b1 ?_ (fun _ _ => Iff.rfl) (fun hx => by cases hx) ?_ ?_ ?_
    · refine i1.wf.put (o' := { o1 with linked := false }) b1 rfl rfl (fun y hy => i1.wf.out d o1 b1 y hy) ?_ ?_ ?_
      · intro x hx
        rw [hk1] at hx
        cases hx
      · intro a b _ hx
        cases hx
      · intro hx
        cases hx
    · intro i hi
      simp only [addl, wt, List.count_eq_zero.mpr (show i ∉ [d] by simp [hi])]
      omega
    · intro _ _
      simp only [total, ctx, b1, ctxOf, hk1, hl1, if_true] at h1 h2
      simp only [addl, List.count_singleton_self, ctxOf, hk1]
      simp
      omega
    · intro hx
      rcases hx with hx | hx
      · simp only at hx
        rw [ha1] at hx
        cases hx
      · cases hx
  have kk : Keep [d] s1 (put s1 d { o1 with linked := false }) := by
    refine ⟨rfl, ?_, ?_⟩
    · intro x ox hx
      by_cases e : d = x
      · subst e
        rw [b1] at hx
        cases hx
        exact ⟨_, put_get_self b1, rfl, rfl, rfl, fun _ h => h, fun hx => by simp at hx, fun hx => by cases hx⟩
      · exact ⟨ox, by rw [put_get_ne e]; exact hx, rfl, rfl, rfl, fun _ h => h, fun _ => rfl, id⟩
    · intro x o' hx hn
      by_cases e : d = x
      · subst e
        rw [b1] at hn
        cases hn
      · rw [put_get_ne e, hn] at hx
        cases hx
  have hg : (put s1 d { o1 with linked := false }).heap[d]? = some { o1 with linked := false } := put_get_self b1
  have hp2 : PinsIn (addl p [d]) (put s1 d { o1 with linked := false }) := by
    intro i hi
    have hz := (hp.keep k1).keep kk i hi
    have hdl := lt_of_some hg
    simp only [addl, hz, List.count_eq_zero.mpr (show i ∉ [d] by simp; omega)]
  obtain ⟨s3, e3, i3, k3, e, oe, w1, w2, w3⟩ := emit_ok (ptrs := []) i2 hp2 hg ha1 hk1 (by intro i hi; cases hi)
  obtain ⟨o3, f1, f2, f3, f4, f5, f6, f7⟩ := k3.objs d _ hg
  obtain ⟨s4, e4, i4, k4⟩ := unrefDev_keep i3 f1 (by rw [f2, hk1]; rfl) (by
    have := inc_pos (D := []) w1 w2 (by simp) w3
    simp only [total]
    omega)
  refine ⟨s4, ?_, i4, ?_, ?_⟩
  · simp only [removeDev, e1, Bind.bind, Except.bind, fetch_ok b1 ha1, hk1, fetch_ok g1 g3]
    rw [hk1] at e3
    rw [e3]
    exact e4
  · exact ((k1.trans kk).trans (k3.trans k4)).weaken (by simp)
  · obtain ⟨o4, a1, _, _, _, _, _, a7⟩ := (k3.trans k4).objs d _ hg
    refine ⟨o4, a1, ?_⟩
    cases hl4 : o4.linked with
    | false => rfl
    | true => exact absurd (a7 hl4) (by simp)

end Libinput.Refs
