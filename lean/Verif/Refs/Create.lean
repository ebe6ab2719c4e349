import Verif.Refs.Events
/-
Adding and removing devices keeps the invariant.
-/
namespace Libinput.Refs
open Spec

theorem getGroup_ok {p : Nat → Nat} {s c} (ident : Option Nat) (h : Inv p [] s c) (hp : PinsIn p s) :
    ∃ s' g, getGroup s ident = .ok (s', g) ∧ Inv (addl p [g]) [] s' c ∧ Keep [] s s' ∧
      (∃ og, s'.heap[g]? = some og ∧ og.kind = .group ident ∧ og.home = none) ∧
      (∀ (x : Nat) (o : Obj), s.heap[x]? = some o → 0 < rank o.kind → s'.heap[x]? = some o) := by
  have e0 : getGroup s ident = (match (match ident with | some _ => findLast s (fun o => o.kind == Kind.group ident) | none => none) with
      | some g => ref s g >>= fun s => .ok (s, g)
      | none => ref (alloc s { kind := .group ident, refs := 1, alive := true, out := [], home := none, linked := false }) s.heap.length >>=
          fun t => unrefLeaf t s.heap.length >>= fun t => .ok (t, s.heap.length)) := rfl
  rw [e0]
  generalize hin : (match ident with | some _ => findLast s (fun o => o.kind == Kind.group ident) | none => none) = found
  cases found with
  | some g =>
    have hf : ∃ o, s.heap[g]? = some o ∧ o.alive = true ∧ o.kind = .group ident := by
      cases ident with
      | none => cases hin
      | some k =>
        obtain ⟨o, a1, a2, a3⟩ := findLast_some hin
        exact ⟨o, a1, a2, by simpa using a3⟩
    obtain ⟨o, a1, a2, a3⟩ := hf
    obtain ⟨e1, i1⟩ := ref_ok h a1 a2 (by simp) (by intro d hd; rw [a3] at hd; cases hd)
    refine ⟨_, g, by simp only [e1, Bind.bind, Except.bind], i1, Keep.put a1 _, ⟨_, put_get_self a1, a3, ?_⟩, ?_⟩
    · cases hh : o.home with
      | none => rfl
      | some x =>
        obtain ⟨hw, _⟩ := h.wf.home g o x a1 hh
        rw [a3] at hw
        rcases hw with hw | ⟨_, _, hw⟩ <;> cases hw
    · intro x ox hx hr
      by_cases e : g = x
      · subst e
        rw [a1] at hx
        cases hx
        rw [a3] at hr
        cases hr
      · rw [put_get_ne e]
        exact hx
  | none =>
    simp only
    let og : Obj := { kind := .group ident, refs := 1, alive := true, out := [], home := none, linked := false }
    have hz := hp s.heap.length (Nat.le_refl _)
    have i1 : Inv (addl p [s.heap.length]) [] (alloc s og) c := by
      refine Inv.alloc (o := og) (h.pins ?_) ⟨?_, ?_, ?_, ?_, rfl⟩ rfl ?_ (Nat.one_pos)
      · intro i hi
        have hne : i ≠ s.heap.length := by omega
        simp only [addl, og, List.count_eq_zero.mpr (show i ∉ [s.heap.length] by simp [hne]), List.count_nil, Nat.add_zero]
      · intro y hy; cases hy
      · intro x hx; cases hx
      · intro x hx; cases hx
      · intro a b hx; cases hx
      · simp [ctxOf, og, hz, addl]
    have hg := alloc_new s og
    obtain ⟨e2, i2⟩ := ref_ok i1 hg rfl (by simp) (by intro d hd; cases hd)
    have hg2 : (put (alloc s og) s.heap.length { og with refs := og.refs + 1 }).heap[s.heap.length]? = some { og with refs := og.refs + 1 } :=
      put_get_self hg
    obtain ⟨s3, e3, i3, k3⟩ := unrefLeaf_keep i2 hg2 rfl rfl (by
      rw [total_addl]
      simp)
    have k2 := (Keep.alloc s og rfl (by intro _ _ h; cases h)).trans (Keep.put hg (og.refs + 1))
    refine ⟨s3, s.heap.length, ?_, i3, k2.trans k3, ?_, ?_⟩
    · simp only [Bind.bind, Except.bind]
      rw [e2]
      simp only
      rw [e3]
    · obtain ⟨o3, b1, b2, b3, _⟩ := k3.objs _ _ hg2
      exact ⟨o3, b1, b2, b3⟩
    · intro x ox hx hr
      have hne : s.heap.length ≠ x := by have := lt_of_some hx; omega
      have h2 : (put (alloc s og) s.heap.length { og with refs := og.refs + 1 }).heap[x]? = some ox := by
        rw [put_get_ne hne]
        exact alloc_some hx
      obtain ⟨s3', e3', _, f3⟩ := unrefLeaf_ok i2 hg2 rfl (by intro x hx; cases hx)
      rw [e3] at e3'
      cases e3'
      obtain ⟨o', c1, _, _, _, _, _, c7⟩ := f3.objs x ox h2
      rw [c1, c7 hr]

theorem addModes_ok {c} (d : Nat) : ∀ (n : Nat) {p : Nat → Nat} {s : State}, Inv p [] s c → PinsIn p s →
    (∃ o, s.heap[d]? = some o) →
    Inv (addl p ((List.range n).map (fun k => s.heap.length + k))) [] (addModes s d n) c ∧ Keep [] s (addModes s d n) ∧
    (∀ (x : Nat) (o : Obj), s.heap[x]? = some o → (addModes s d n).heap[x]? = some o) ∧
    (∀ k, k < n → ∃ o, (addModes s d n).heap[s.heap.length + k]? = some o ∧ o.kind = .mode ∧ o.home = some d) := by
  intro n
  induction n with
  | zero =>
    intro p s h _ _
    refine ⟨h.congr (by intro i; simp [addl]), Keep.refl s, fun _ _ h => h, ?_⟩
    intro k hk
    omega
  | succ n ih =>
    intro p s h hp hd
    let om : Obj := { kind := .mode, refs := 1, alive := true, out := [], home := some d, linked := false }
    have hz := hp s.heap.length (Nat.le_refl _)
    have hl : (alloc s om).heap.length = s.heap.length + 1 := by simp [alloc]
    have i1 : Inv (addl p [s.heap.length]) [] (alloc s om) c := by
      refine Inv.alloc (o := om) (h.pins ?_) ⟨?_, ?_, ?_, ?_, rfl⟩ rfl ?_ (Nat.one_pos)
      · intro i hi
        have hne : i ≠ s.heap.length := by omega
        simp only [addl, om, List.count_eq_zero.mpr (show i ∉ [s.heap.length] by simp [hne]), List.count_nil, Nat.add_zero]
      · intro y hy; cases hy
      · intro x hx
        simp only [om, Option.some.injEq] at hx
        subst hx
        exact ⟨.inl rfl, hd⟩
      · intro x hx; cases hx
      · intro a b hx; cases hx
      · simp [ctxOf, om, hz, addl]
    have hp1 : PinsIn (addl p [s.heap.length]) (alloc s om) := by
      intro i hi
      rw [hl] at hi
      simp only [addl, hp i (by omega), List.count_eq_zero.mpr (show i ∉ [s.heap.length] by simp; omega)]
    obtain ⟨i2, k2, o2, m2⟩ := ih i1 hp1 (by obtain ⟨o, ho⟩ := hd; exact ⟨o, alloc_some ho⟩)
    refine ⟨i2.congr ?_, (Keep.alloc s om rfl (by intro _ _ h; cases h)).trans k2, fun x o hx => o2 x o (alloc_some hx), ?_⟩
    · intro i
      have : (List.range (n + 1)).map (fun k => s.heap.length + k) =
          s.heap.length :: (List.range n).map (fun k => (alloc s om).heap.length + k) := by
        rw [List.range_succ_eq_map, List.map_cons, List.map_map, Nat.add_zero]
        congr 1
        apply List.map_congr_left
        intro k _
        simp only [Function.comp, hl]
        omega
      rw [this]
      simp only [addl, List.count_cons, List.count_nil]
      omega
    · intro k hk
      cases k with
      | zero => exact ⟨om, o2 _ _ (alloc_new s om), rfl, rfl⟩
      | succ k =>
        obtain ⟨o, a1, a2, a3⟩ := m2 k (by omega)
        refine ⟨o, ?_, a2, a3⟩
        rw [hl] at a1
        rw [show s.heap.length + (k + 1) = s.heap.length + 1 + k by omega]
        exact a1

theorem PinsIn.addl {p : Nat → Nat} {s : State} (h : PinsIn p s) {l : List Nat} (hl : ∀ i ∈ l, i < s.heap.length) :
    PinsIn (Refs.addl p l) s := by
  intro i hi
  have : i ∉ l := fun hm => by have := hl i hm; omega
  simp only [Refs.addl, h i hi, List.count_eq_zero.mpr this]

/-- Every device, but for `x`, has a reference to its seat. -/
def Seated (x : Option Nat) (s : State) : Prop :=
  ∀ (d : Nat) (o : Obj) (sys st : Nat), some d ≠ x → s.heap[d]? = some o → o.kind = .dev sys st → st ∈ o.out

theorem Seated.keep {x L s s'} (h : Seated x s) (k : Keep L s s') : Seated x s' := by
  intro d o sys st hx hd hk
  cases hs : s.heap[d]? with
  | none => exact absurd hk ((k.fresh d o hd hs).2 sys st)
  | some o0 =>
    obtain ⟨o', a1, a2, _, _, a5, _⟩ := k.objs d o0 hs
    rw [hd] at a1
    cases a1
    exact a5 st (h d o0 sys st hx hs (a2 ▸ hk))

theorem Seated.frame {x n s s'} (h : Seated x s) (f : Frame n s s') : Seated x s' := by
  intro d o sys st hx hd hk
  have hl := lt_of_some hd
  rw [f.len] at hl
  obtain ⟨o', a1, a2, a3, _⟩ := f.objs d _ (List.getElem?_eq_getElem hl)
  rw [hd] at a1
  cases a1
  rw [a3]
  exact h d _ sys st hx (List.getElem?_eq_getElem hl) (a2 ▸ hk)

theorem Seated.put {s i} {o' : Obj} (h : Seated (some i) s) (ho : ∀ sys st, o'.kind = .dev sys st → st ∈ o'.out) :
    Seated none (Refs.put s i o') := by
  intro d o sys st _ hd hk
  by_cases e : i = d
  · rw [put_get, if_pos e] at hd
    split at hd
    · cases hd
      exact ho sys st hk
    · cases hd
  · rw [put_get_ne e] at hd
    exact h d o sys st (by simp; exact fun h => e h.symm) hd hk

theorem Seated.alloc {s} (od : Obj) (h : Seated none s) : Seated (some s.heap.length) (Refs.alloc s od) := by
  intro d o sys st hx hd hk
  rcases alloc_cases hd with hd | ⟨rfl, rfl⟩
  · exact h d o sys st (by simp) hd hk
  · simp at hx

theorem createDev_ok {p : Nat → Nat} {s c} {seat : Nat} (sys : Nat) (ident : Option Nat) (what : Outcome) {os : Obj} {nm : Nat}
    (h : Inv p [] s c) (hp : PinsIn p s) (hs : s.heap[seat]? = some os) (hsa : os.alive = true) (hsk : os.kind = .seat nm) :
    ∃ s', createDev s seat sys ident what = .ok s' ∧ Inv p [] s' c ∧ s.heap.length ≤ s'.heap.length ∧
      (Seated none s → Seated none s') ∧ ∃ os', s'.heap[seat]? = some os' ∧ os'.kind = .seat nm := by
  cases what with
  | notOpened => exact ⟨s, rfl, h, Nat.le_refl _, id, os, hs, hsk⟩
  | unhandled =>
    let od : Obj := { kind := .dev sys seat, refs := 1, alive := true, out := [], home := none, linked := false }
    have hz := hp s.heap.length (Nat.le_refl _)
    have hsl := lt_of_some hs
    have hl : (alloc s od).heap.length = s.heap.length + 1 := by simp [alloc]
    have i1 : Inv (addl p [s.heap.length]) [] (alloc s od) c := by
      refine Inv.alloc (o := od) (h.pins ?_) ⟨?_, ?_, ?_, ?_, rfl⟩ rfl ?_ (Nat.one_pos)
      · intro i hi
        have hne : i ≠ s.heap.length := by omega
        simp only [addl, od, List.count_eq_zero.mpr (show i ∉ [s.heap.length] by simp [hne]), List.count_nil, Nat.add_zero]
      · intro y hy; cases hy
      · intro x hx; cases hx
      · intro x hx; cases hx
      · intro a b hx
        simp only [od, Kind.dev.injEq] at hx
        obtain ⟨-, rfl⟩ := hx
        exact ⟨os, nm, hs, hsk⟩
      · simp [ctxOf, od, hz, addl]
    have hs1 := alloc_some (o := od) hs
    obtain ⟨e2, i2⟩ := ref_ok i1 hs1 hsa (by simp) (by intro d hd; rw [hsk] at hd; cases hd)
    obtain ⟨s2, es2⟩ : ∃ x, x = put (alloc s od) seat { os with refs := os.refs + 1 } := ⟨_, rfl⟩
    rw [← es2] at e2 i2
    have hd2 : s2.heap[s.heap.length]? = some od := by
      rw [es2, put_get_ne (by omega)]
      exact alloc_new s od
    have hshome : os.home = none := by
      cases hh : os.home with
      | none => rfl
      | some x =>
        obtain ⟨hw, _⟩ := h.wf.home seat os x hs hh
        rw [hsk] at hw
        rcases hw with hw | ⟨_, _, hw⟩ <;> cases hw
    have i3 : Inv (addl p [seat]) [s.heap.length] (put s2 s.heap.length { od with out := [seat] }) c := by
      obtain ⟨h1, h2⟩ := i2.live _ od hd2 rfl (by simp)
      refine i2.update hd2 ?_ ?_ (fun _ => rfl) ?_ ?_ ?_
      · refine i2.wf.put (o' := { od with out := [seat] }) hd2 rfl rfl ?_ ?_ ?_ ?_
        · intro y hy
          simp only [List.mem_singleton] at hy
          subst hy
          exact ⟨{ os with refs := os.refs + 1 }, by rw [es2]; exact put_get_self hs1, by rw [hsk]; exact Nat.lt_succ_self 0, .inl hshome⟩
        · intro x hx; cases hx
        · intro a b hab hll; cases hll
        · intro hll; cases hll
      · intro i hi
        simp [hi]
      · intro i hi
        simp only [addl, wt, od, List.count_eq_zero.mpr (show i ∉ [s.heap.length] by simp [hi]), List.count_nil]
        simp
      · intro _ hx
        simp at hx
      · intro _
        have hc : ([seat] : List Nat).count s.heap.length = 0 := List.count_eq_zero.mpr (by simp; omega)
        have e1 : (1 : Nat) = total (addl (addl p [s.heap.length]) [seat]) [] s2 c s.heap.length := h1
        simp only [total, ctx, hd2, addl, List.count_singleton_self, ctxOf, od] at e1
        simp only [addl, hc, ctxOf, od]
        omega
    obtain ⟨s4, e4, i4, f4⟩ := destroyDev_ok (o := { od with out := [seat] }) i3 (by simp) (put_get_self hd2) rfl
    obtain ⟨os', q1, q2, _⟩ := f4.objs seat { os with refs := os.refs + 1 } (by
      rw [put_get_ne (by omega), es2]
      exact put_get_self hs1)
    refine ⟨s4, ?_, i4, ?_, ?_, os', q1, q2.trans hsk⟩
    · simp only [createDev, Bind.bind, Except.bind]
      rw [e2]
      simp only
      rw [fetch_ok hd2 rfl]
      exact e4
    · rw [f4.len]
      simp only [put, List.length_set, es2, hl]
      omega
    · intro h0
      have h2 : Seated (some s.heap.length) s2 := by rw [es2]; exact (h0.alloc od).keep (Keep.put hs1 _)
      refine Seated.frame (h2.put ?_) f4
      intro a b hab
      simp only [od, Kind.dev.injEq] at hab
      simp [hab.2]
  | device n =>
    let od : Obj := { kind := .dev sys seat, refs := 1, alive := true, out := [], home := none, linked := false }
    have hz := hp s.heap.length (Nat.le_refl _)
    have hsl := lt_of_some hs
    have hl : (alloc s od).heap.length = s.heap.length + 1 := by simp [alloc]
    have i1 : Inv (addl p [s.heap.length]) [] (alloc s od) c := by
      refine Inv.alloc (o := od) (h.pins ?_) ⟨?_, ?_, ?_, ?_, rfl⟩ rfl ?_ (Nat.one_pos)
      · intro i hi
        have hne : i ≠ s.heap.length := by omega
        simp only [addl, od, List.count_eq_zero.mpr (show i ∉ [s.heap.length] by simp [hne]), List.count_nil, Nat.add_zero]
      · intro y hy; cases hy
      · intro x hx; cases hx
      · intro x hx; cases hx
      · intro a b hx
        simp only [od, Kind.dev.injEq] at hx
        obtain ⟨-, rfl⟩ := hx
        exact ⟨os, nm, hs, hsk⟩
      · simp [ctxOf, od, hz, addl]
    have hs1 := alloc_some (o := od) hs
    obtain ⟨e2, i2⟩ := ref_ok i1 hs1 hsa (by simp) (by intro d hd; rw [hsk] at hd; cases hd)
    obtain ⟨s2, es2⟩ : ∃ x, x = put (alloc s od) seat { os with refs := os.refs + 1 } := ⟨_, rfl⟩
    rw [← es2] at e2 i2
    have hl2 : s2.heap.length = s.heap.length + 1 := by simp only [es2, put, List.length_set, hl]
    have hd2 : s2.heap[s.heap.length]? = some od := by
      rw [es2, put_get_ne (by omega)]
      exact alloc_new s od
    have hshome : os.home = none := by
      cases hh : os.home with
      | none => rfl
      | some x =>
        obtain ⟨hw, _⟩ := h.wf.home seat os x hs hh
        rw [hsk] at hw
        rcases hw with hw | ⟨_, _, hw⟩ <;> cases hw
    have hp2 : PinsIn (addl (addl p [s.heap.length]) [seat]) s2 := by
      refine PinsIn.addl (PinsIn.addl ?_ ?_) ?_
      · intro i hi
        exact hp i (by omega)
      · intro i hi
        simp only [List.mem_singleton] at hi
        omega
      · intro i hi
        simp only [List.mem_singleton] at hi
        omega
    obtain ⟨i3, k3, o3, m3⟩ := addModes_ok s.heap.length n i2 hp2 ⟨od, hd2⟩
    have hp3 : PinsIn (addl (addl (addl p [s.heap.length]) [seat]) ((List.range n).map (fun k => s2.heap.length + k)))
        (addModes s2 s.heap.length n) := by
      refine PinsIn.addl (hp2.keep k3) ?_
      intro i hi
      simp only [List.mem_map, List.mem_range] at hi
      obtain ⟨k, hk, rfl⟩ := hi
      obtain ⟨o, ho, _⟩ := m3 k hk
      exact lt_of_some ho
    obtain ⟨s4, g, e4, i4, k4, ⟨og, hg, hgk, hgh⟩, o4⟩ := getGroup_ok ident i3 hp3
    have hd4 : s4.heap[s.heap.length]? = some od := o4 _ _ (o3 _ _ hd2) Nat.one_pos
    let out := (List.range n).map (fun k => s.heap.length + 1 + k) ++ [g, seat]
    let od' : Obj := { od with out := out, linked := true }
    have hs2 : s2.heap[seat]? = some { os with refs := os.refs + 1 } := by rw [es2]; exact put_get_self hs1
    obtain ⟨os4, t1, t2, t3, t4, _⟩ := (k3.trans k4).objs seat _ hs2
    have hgd : g ≠ s.heap.length := by
      intro e
      rw [e, hd4] at hg
      cases hg
      cases hgk
    have hnotin : s.heap.length ∉ out := by
      simp only [out, List.mem_append, List.mem_map, List.mem_range, List.mem_cons, List.not_mem_nil, or_false, not_or,
        not_exists, not_and]
      refine ⟨fun k _ => by omega, fun e => hgd e.symm, by omega⟩
    have i5 : Inv p [] (put s4 s.heap.length od') c := by
      obtain ⟨h1, h2⟩ := i4.live _ od hd4 rfl (by simp)
      refine i4.update hd4 ?_ (fun _ _ => Iff.rfl) (fun hx => by cases hx) ?_ ?_ ?_
      · refine i4.wf.put (o' := od') hd4 rfl rfl ?_ ?_ ?_ ?_
        · intro y hy
          simp only [od', out, List.mem_append, List.mem_map, List.mem_range, List.mem_cons, List.not_mem_nil, or_false] at hy
          rcases hy with ⟨k, hk, rfl⟩ | rfl | rfl
          · obtain ⟨o, ho, hok, hoh⟩ := m3 k hk
            rw [hl2] at ho
            obtain ⟨o', r1, r2, r3, _⟩ := k4.objs _ o ho
            exact ⟨o', r1, by rw [r2, hok]; exact Nat.lt_succ_self 0, .inr (by rw [r3, hoh]; rfl)⟩
          · exact ⟨og, hg, by rw [hgk]; exact Nat.lt_succ_self 0, .inl hgh⟩
          · exact ⟨os4, t1, by rw [t2, hsk]; exact Nat.lt_succ_self 0, .inl (by rw [t3]; exact hshome)⟩
        · intro x hx; cases hx
        · intro a b hab _
          simp only [od, Kind.dev.injEq] at hab
          obtain ⟨-, rfl⟩ := hab
          simp [od', out]
        · intro _
          exact ⟨sys, seat, rfl⟩
      · intro i hi
        simp only [addl, wt, od', od, out, hl2, List.count_append, List.count_cons, List.count_nil,
          List.count_eq_zero.mpr (show i ∉ [s.heap.length] by simp [hi])]
        have hi' : ¬ (s.heap.length == i) = true := by simp; omega
        simp [hi']
        omega
      · intro _ _
        have e1 : (1 : Nat) = total _ [] s4 c s.heap.length := h1
        have c1 : ([seat] : List Nat).count s.heap.length = 0 := List.count_eq_zero.mpr (by simp; omega)
        have c2 : ([g] : List Nat).count s.heap.length = 0 := List.count_eq_zero.mpr (by simp; exact fun e => hgd e.symm)
        have c3 : ((List.range n).map (fun k => s2.heap.length + k)).count s.heap.length = 0 :=
          List.count_eq_zero.mpr (by simp only [List.mem_map, List.mem_range, not_exists, not_and]; intro k _; omega)
        simp only [total, ctx, hd4, addl, List.count_singleton_self, ctxOf, od, c1, c2, c3] at e1
        simp only [ctxOf, od', od]
        simp at e1 ⊢
        omega
      · intro hx
        rcases hx with hx | hx
        · cases hx
        · cases hx
    have hd5 : (put s4 s.heap.length od').heap[s.heap.length]? = some od' := put_get_self hd4
    have hp5 : PinsIn p (put s4 s.heap.length od') := by
      intro i hi
      simp only [put, List.length_set] at hi
      have := (k3.trans k4).len
      exact hp i (by omega)
    obtain ⟨s6, e6, i6, k6, _⟩ := emit_ok (ptrs := []) i5 hp5 hd5 rfl rfl (by intro i hi; cases hi)
    have hlen : s.heap.length + 1 ≤ s4.heap.length := by have := (k3.trans k4).len; omega
    obtain ⟨os6, u1, u2, _⟩ := k6.objs seat os4 (by rw [put_get_ne (by omega)]; exact t1)
    refine ⟨s6, ?_, i6, ?_, ?_, os6, u1, u2.trans (t2.trans hsk)⟩
    · simp only [createDev, Bind.bind, Except.bind]
      rw [e2]
      simp only
      rw [e4]
      simp only
      rw [fetch_ok hd4 rfl]
      exact e6
    · have := k6.len
      simp only [put, List.length_set] at this
      omega
    · intro h0
      have h2 : Seated (some s.heap.length) s2 := by rw [es2]; exact (h0.alloc od).keep (Keep.put hs1 _)
      refine Seated.keep (Seated.put (h2.keep (k3.trans k4)) ?_) k6
      intro a b hab
      simp only [od', od, Kind.dev.injEq] at hab
      simp [od', out, hab.2]

theorem addDev_ok {s c} (name sys : Nat) (ident : Option Nat) (what : Outcome) (h : Inv (fun _ => 0) [] s c) (hse : Seated none s) :
    ∃ s', addDev s name sys ident what = .ok s' ∧ Inv (fun _ => 0) [] s' c ∧ Seated none s' := by
  have seat_home : ∀ {s : State} {p : Nat → Nat} (_ : Inv p [] s c) {i : Nat} {o : Obj} {n : Nat}, s.heap[i]? = some o → o.kind = .seat n →
      o.home = none := by
    intro s p h i o n hi hk
    cases hh : o.home with
    | none => rfl
    | some x =>
      obtain ⟨hw, _⟩ := h.wf.home i o x hi hh
      rw [hk] at hw
      rcases hw with hw | ⟨_, _, hw⟩ <;> cases hw
  -- from the moment the seat is held
  have rest : ∀ {s1 : State} {i : Nat} {os : Obj}, Inv (addl (fun _ => 0) [i]) [] s1 c → s1.heap[i]? = some os → os.alive = true →
      os.kind = .seat name → Seated none s1 → ∃ s', (createDev s1 i sys ident what >>= fun s => unrefLeaf s i) = .ok s' ∧ Inv (fun _ => 0) [] s' c ∧ Seated none s' := by
    intro s1 i os h1 hs ha hk hse
    have hp : PinsIn (addl (fun _ => 0) [i]) s1 := PinsIn.addl (fun _ _ => rfl) (by
      intro j hj
      simp only [List.mem_singleton] at hj
      subst hj
      exact lt_of_some hs)
    obtain ⟨s2, e2, i2, _, se2, os2, r1, r2⟩ := createDev_ok sys ident what h1 hp hs ha hk
    obtain ⟨s3, e3, i3, f3⟩ := unrefLeaf_ok i2 r1 (by rw [r2]; rfl) (by
      intro x hx
      rw [seat_home i2 r1 r2] at hx
      cases hx)
    exact ⟨s3, by simp only [e2, Bind.bind, Except.bind, e3], i3, (se2 hse).frame f3⟩
  unfold addDev
  simp only
  generalize hf : findLast s (fun o => o.kind == .seat name) = found
  cases found with
  | some i =>
    simp only
    obtain ⟨o, a1, a2, a3⟩ := findLast_some hf
    simp only [beq_iff_eq] at a3
    by_cases hdup : (s.udev && duplicate s i sys) = true
    · simp only [hdup, if_true]
      exact ⟨s, rfl, h, hse⟩
    · rw [if_neg hdup]
      obtain ⟨e1, i1⟩ := ref_ok h a1 a2 (by simp) (by intro d hd; rw [a3] at hd; cases hd)
      obtain ⟨s', e2, i2⟩ := rest i1 (put_get_self a1) a2 a3 (hse.keep (Keep.put a1 _))
      refine ⟨s', ?_, i2⟩
      simp only [e1, Bind.bind, Except.bind, pure, Except.pure] at e2 ⊢
      exact e2
  | none =>
    simp only [Bool.and_false, Bool.false_eq_true, if_false]
    let os : Obj := { kind := .seat name, refs := 1, alive := true, out := [], home := none, linked := false }
    have fits : Fits s os := by
      refine ⟨?_, ?_, ?_, ?_, rfl⟩
      · intro y hy; cases hy
      · intro x hx; cases hx
      · intro x hx; cases hx
      · intro a b hx; cases hx
    have hg := alloc_new s os
    have ka := Keep.alloc s os rfl (by intro _ _ h; cases h)
    by_cases hu : s.udev = true
    · have i1 : Inv (addl (fun _ => 0) [s.heap.length]) [] (alloc s os) c := by
        refine Inv.alloc (o := os) (h.pins ?_) fits rfl ?_ Nat.one_pos
        · intro i hi
          have hne : i ≠ s.heap.length := by omega
          simp only [addl, os, List.count_eq_zero.mpr (show i ∉ [s.heap.length] by simp [hne]), List.count_nil, Nat.add_zero]
        · simp [ctxOf, os, hu, addl]
      obtain ⟨s', e2, i2⟩ := rest i1 hg rfl rfl (hse.keep ka)
      refine ⟨s', ?_, i2⟩
      have hu' : (alloc s os).udev = true := hu
      simp only [Bind.bind, Except.bind, pure, Except.pure] at e2 ⊢
      simp only [os] at hu'
      rw [if_pos hu']
      exact e2
    · have hu2 : s.udev = false := by simpa using hu
      have i0 : Inv (fun _ => 0) [] (alloc s os) c := by
        refine Inv.alloc (o := os) (h.congr (by intro i; simp [addl, os])) fits rfl ?_ Nat.one_pos
        simp [ctxOf, os, hu2]
      obtain ⟨e1, i1⟩ := ref_ok i0 hg rfl (by simp) (by intro d hd; cases hd)
      obtain ⟨s', e2, i2⟩ := rest i1 (put_get_self hg) rfl rfl (hse.keep (ka.trans (Keep.put hg _)))
      refine ⟨s', ?_, i2⟩
      have hu' : ¬ (alloc s os).udev = true := hu
      simp only [Bind.bind, Except.bind, pure, Except.pure] at e2 ⊢
      simp only [os] at hu' e1
      rw [if_neg hu', e1]
      exact e2

theorem remove_ok {s c} {d : Nat} (notes : List Note) {o : Obj} {sys st : Nat} (h : Inv (fun _ => 0) [] s c)
    (hd : s.heap[d]? = some o) (ha : o.alive = true) (hk : o.kind = .dev sys st) (hse : Seated none s) :
    ∃ s', remove s d notes = .ok s' ∧ Inv (fun _ => 0) [] s' c ∧ Seated none s' := by
  have hp0 : PinsIn (fun _ => 0) s := fun _ _ => rfl
  have hmem : st ∈ o.out := hse d o sys st (by simp) hd hk
  obtain ⟨_, os, n, hs, hsk⟩ := h.wf.seat d o sys st hd hk
  have hsa : os.alive = true := by
    refine (h.alive hs ?_).1
    have := inc_pos (D := []) hd ha (by simp) hmem
    simp only [total]
    omega
  have hsh : os.home = none := by
    cases hh : os.home with
    | none => rfl
    | some x =>
      obtain ⟨hw, _⟩ := h.wf.home st os x hs hh
      rw [hsk] at hw
      rcases hw with hw | ⟨_, _, hw⟩ <;> cases hw
  unfold Refs.remove
  simp only [fetch_ok hd ha, Bind.bind, Except.bind, hk]
  by_cases hu : s.udev = true
  · simp only [hu, if_true]
    by_cases hl : o.linked = true
    · simp only [hl, if_true]
      obtain ⟨s1, e1, i1, k1, _⟩ := removeDev_ok notes h hp0 hd hl
      obtain ⟨os1, r1, r2, r3, r4, _⟩ := k1.objs st os hs
      refine ⟨s1, ?_, i1, hse.keep k1⟩
      rw [e1]
      simp only [fetch_ok r1 (r4.trans hsa)]
    · rw [if_neg hl]
      exact ⟨s, rfl, h, hse⟩
  · rw [if_neg hu]
    obtain ⟨e1, i1⟩ := ref_ok h hs hsa (by simp) (by intro x hx; rw [hsk] at hx; cases hx)
    rw [e1]
    simp only
    have hne : st ≠ d := by
      intro e
      rw [e, hd] at hs
      cases hs
      rw [hk] at hsk
      cases hsk
    have hd1 : (put s st { os with refs := os.refs + 1 }).heap[d]? = some o := by rw [put_get_ne hne]; exact hd
    by_cases hl : o.linked = true
    · simp only [hl, if_true]
      have hp1 : PinsIn (addl (fun _ => 0) [st]) (put s st { os with refs := os.refs + 1 }) :=
        PinsIn.addl (fun _ _ => rfl) (by
          intro j hj
          simp only [List.mem_singleton] at hj
          subst hj
          simpa [put] using lt_of_some hs)
      obtain ⟨s2, e2, i2, k2, _⟩ := removeDev_ok notes i1 hp1 hd1 hl
      obtain ⟨os2, r1, r2, r3, r4, _⟩ := k2.objs st _ (put_get_self hs)
      obtain ⟨s3, e3, i3, f3⟩ := unrefLeaf_ok i2 r1 (by rw [r2, hsk]; rfl) (by intro x hx; rw [r3, hsh] at hx; cases hx)
      refine ⟨s3, ?_, i3, (hse.keep ((Keep.put hs _).trans k2)).frame f3⟩
      rw [e2]
      exact e3
    · rw [if_neg hl]
      obtain ⟨s3, e3, i3, f3⟩ := unrefLeaf_ok i1 (put_get_self hs) (by rw [hsk]; rfl) (by intro x hx; rw [hsh] at hx; cases hx)
      exact ⟨s3, e3, i3, (hse.keep (Keep.put hs _)).frame f3⟩

end Libinput.Refs
