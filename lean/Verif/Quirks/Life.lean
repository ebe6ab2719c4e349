import Verif.Quirks.Model
/-!
# The lifetime of quirks

* **C54** The quirks of a device are valid until they are released, and everything is freed at the end.

The reference counts of the context, of the properties of its sections, and of the quirks handed out.
-/
namespace Libinput.Quirks.Life
open Libinput.Quirks

/-- `refs` is the reference count of the context, 0 when it is freed.  `counts` are those of the properties, numbered over all sections; 0 when freed.
`handles` are all `struct quirks` ever handed out: their properties, or `none` when freed; the others are in `ctx->quirks`.
Models: /repo/src/quirks.c:183-197, /repo/src/quirks.c:75-101, /repo/src/quirks.c:171-178. -/
structure Life where
  refs : Nat
  counts : Nat → Nat
  handles : List (Option (List Nat))

/-- The calls.  `fetch l`: the sections that match the device have the properties `l` (C53). -/
inductive Op where
  | ref
  | unref
  | fetch (l : List Nat)
  | release (h : Nat)

/-- Models: /repo/src/quirks.c:323-329 -/
def propertyRef (c : Nat → Nat) (i : Nat) : Res (Nat → Nat) :=
  if c i > 0 then .ok fun j => if j = i then c j + 1 else c j else .crash

/-- Models: /repo/src/quirks.c:331-340 -/
def propertyUnref (c : Nat → Nat) (i : Nat) : Res (Nat → Nat) :=
  if c i > 0 then .ok fun j => if j = i then c j - 1 else c j else .crash

/-- Models: /repo/src/quirks.c:345-356 -/
def propertyCleanup (c : Nat → Nat) (i : Nat) : Res (Nat → Nat) :=
  (propertyUnref c i).bind fun c => if c i = 0 then .ok c else .crash

/-- One after another. -/
def each (f : (Nat → Nat) → Nat → Res (Nat → Nat)) : (Nat → Nat) → List Nat → Res (Nat → Nat)
  | c, [] => .ok c
  | c, i :: l => (f c i).bind fun c => each f c l

/-- `n` properties, read from the files.  Models: the reference counts of /repo/src/quirks.c:1123-1159 and /repo/src/quirks.c:311-321 -/
def init (n : Nat) : Life := { refs := 1, counts := fun i => if i < n then 1 else 0, handles := [] }

/-- A call; `crash` stands for a failed assertion or the use of freed memory.
Models: the reference counts of /repo/src/quirks.c:1161-1168, /repo/src/quirks.c:1170-1196, /repo/src/quirks.c:504-521,
/repo/src/quirks.c:1198-1209, /repo/src/quirks.c:1385-1410, /repo/src/quirks.c:1490-1522, /repo/src/quirks.c:1211-1230. -/
def step (n : Nat) (s : Life) : Op → Res Life
  | .ref => if s.refs > 0 then .ok { s with refs := s.refs + 1 } else .crash
  | .unref =>
    if s.refs ≥ 1 then
      if s.refs - 1 > 0 then .ok { s with refs := s.refs - 1 }
      else if s.handles.all Option.isNone then (each propertyCleanup s.counts (List.range n)).bind fun c => .ok { s with refs := 0, counts := c }
      else .crash
    else .crash
  | .fetch l =>
    if s.refs = 0 then .crash
    else
      (each propertyRef s.counts l).bind fun c =>
        if l.length = 0 then .ok { s with counts := c } else .ok { s with counts := c, handles := s.handles ++ [some l] }
  | .release h =>
    match s.handles[h]? with
    | some (some l) => (each propertyUnref s.counts l).bind fun c => .ok { s with counts := c, handles := s.handles.set h none }
    | _ => .crash

def run (n : Nat) (s : Life) : List Op → Res Life
  | [] => .ok s
  | o :: os => (step n s o).bind fun s => run n s os

namespace Spec

/-- How the interface may be used.  `refs` references are held, `next` quirks were handed out so far and those in `live` are not released yet.  Nothing is used after it
was given back, and all quirks are released before the last reference is. -/
def Proper (refs next : Nat) (live : List Nat) : List Op → Prop
  | [] => True
  | .ref :: os => 0 < refs ∧ Proper (refs + 1) next live os
  | .unref :: os => 0 < refs ∧ (refs = 1 → live = []) ∧ Proper (refs - 1) next live os
  | .fetch l :: os => 0 < refs ∧ (if l = [] then Proper refs next live os else Proper refs (next + 1) (live ++ [next]) os)
  | .release h :: os => h ∈ live ∧ Proper refs next (live.filter (· ≠ h)) os

/-- The references held after the calls. -/
def held (refs : Nat) : List Op → Nat
  | [] => refs
  | .ref :: os => held (refs + 1) os
  | .unref :: os => held (refs - 1) os
  | _ :: os => held refs os

end Spec
open Spec

/-- How often the quirks handed out contain property `i`. -/
def tally (hs : List (Option (List Nat))) (i : Nat) : Nat := (hs.map fun o => (o.getD []).count i).sum

/-- What holds between calls. -/
structure Inv (n : Nat) (s : Life) (refs next : Nat) (live : List Nat) : Prop where
  hrefs : s.refs = refs
  hnext : s.handles.length = next
  hlive : ∀ h : Nat, h ∈ live ↔ ∃ l, s.handles[h]? = some (some l)
  hrange : ∀ (h : Nat) l, s.handles[h]? = some (some l) → ∀ i ∈ l, i < n
  hended : refs = 0 → live = []
  hcounts : ∀ i, s.counts i = if i < n ∧ refs ≠ 0 then 1 + tally s.handles i else 0

theorem each_ref (l : List Nat) : ∀ c : Nat → Nat, (∀ i ∈ l, 0 < c i) → each propertyRef c l = .ok fun i => c i + l.count i := by
  induction l with
  | nil => intro c _; simp [each]
  | cons i l ih =>
    intro c h
    rw [each, propertyRef, if_pos (h i (by simp))]
    simp only [Res.bind]
    rw [ih]
    · congr 1
      funext j
      by_cases hj : j = i
      · subst hj; rw [if_pos rfl, List.count_cons_self]; omega
      · rw [if_neg hj, List.count_cons_of_ne (Ne.symm hj)]
    · intro j hj
      have := h j (by simp [hj])
      split <;> omega

theorem each_unref (l : List Nat) : ∀ c : Nat → Nat, (∀ i, l.count i ≤ c i) → each propertyUnref c l = .ok fun i => c i - l.count i := by
  induction l with
  | nil => intro c _; simp [each]
  | cons i l ih =>
    intro c h
    have hi := h i
    rw [List.count_cons_self] at hi
    rw [each, propertyUnref, if_pos (by omega)]
    simp only [Res.bind]
    rw [ih]
    · congr 1
      funext j
      by_cases hj : j = i
      · subst hj; rw [if_pos rfl, List.count_cons_self]; omega
      · rw [if_neg hj, List.count_cons_of_ne (Ne.symm hj)]
    · intro j
      have := h j
      by_cases hj : j = i
      · subst hj; rw [if_pos rfl]; omega
      · rw [if_neg hj]; rwa [List.count_cons_of_ne (Ne.symm hj)] at this

theorem each_cleanup (l : List Nat) (hn : l.Nodup) : ∀ c : Nat → Nat, (∀ i ∈ l, c i = 1) → each propertyCleanup c l = .ok fun i => if i ∈ l then 0 else c i := by
  induction l with
  | nil => intro c _; simp [each]
  | cons i l ih =>
    intro c h
    rw [List.nodup_cons] at hn
    rw [each, propertyCleanup, propertyUnref, if_pos (by rw [h i (by simp)]; omega)]
    simp only [Res.bind, if_true, h i (by simp)]
    rw [ih hn.2]
    · congr 1
      funext j
      by_cases hj : j = i
      · subst hj; simp [hn.1, h j (by simp)]
      · simp [hj]
    · intro j hj
      have : j ≠ i := by rintro rfl; exact hn.1 hj
      rw [if_neg this]
      exact h j (by simp [hj])

theorem tally_snoc (hs : List (Option (List Nat))) (l : List Nat) (i : Nat) : tally (hs ++ [some l]) i = tally hs i + l.count i := by
  simp [tally]

theorem tally_set (hs : List (Option (List Nat))) (i : Nat) : ∀ h l, hs[h]? = some (some l) → tally hs i = tally (hs.set h none) i + l.count i := by
  induction hs with
  | nil => intro h l e; simp at e
  | cons o hs ih =>
    intro h l e
    cases h with
    | zero =>
      simp at e
      subst e
      simp [tally]
      omega
    | succ h =>
      simp at e
      have := ih h l e
      simp only [tally, List.map_cons, List.sum_cons, List.set_cons_succ] at this ⊢
      omega

theorem tally_dead (hs : List (Option (List Nat))) (i : Nat) (h : ∀ o ∈ hs, o = none) : tally hs i = 0 := by
  induction hs with
  | nil => rfl
  | cons o hs ih =>
    have : o = none := h o (by simp)
    subst this
    have := ih fun o ho => h o (by simp [ho])
    simp only [tally, List.map_cons, List.sum_cons] at this ⊢
    simp [this]

theorem Inv.dead {n : Nat} {s : Life} {refs next : Nat} {live : List Nat} (h : Inv n s refs next live) : s.handles.all Option.isNone = true ↔ live = [] := by
  rw [List.all_eq_true]
  constructor
  · intro hall
    cases hl : live with
    | nil => rfl
    | cons x live' =>
      obtain ⟨l, hx⟩ := (h.hlive x).mp (by rw [hl]; simp)
      have := hall _ (List.mem_of_getElem? hx)
      cases this
  · intro hl o ho
    cases o with
    | none => rfl
    | some l =>
      obtain ⟨x, hx⟩ := List.mem_iff_getElem?.mp ho
      have := (h.hlive x).mpr ⟨l, hx⟩
      rw [hl] at this
      cases this

/-- Properties exist. -/
def InRange (n : Nat) : List Op → Prop
  | [] => True
  | .fetch l :: os => (∀ i ∈ l, i < n) ∧ InRange n os
  | _ :: os => InRange n os

theorem run_iff (n : Nat) (os : List Op) : ∀ (s : Life) (refs next : Nat) (live : List Nat), Inv n s refs next live → InRange n os →
    (Proper refs next live os → ∃ s' next' live', run n s os = .ok s' ∧ Inv n s' (held refs os) next' live') ∧ (¬ Proper refs next live os → run n s os = .crash) := by
  induction os with
  | nil => intro s refs next live h _; exact ⟨fun _ => ⟨s, next, live, rfl, h⟩, fun hp => absurd trivial hp⟩
  | cons o os ih =>
    intro s refs next live h hr
    cases o with
    | ref =>
      simp only [run, step, h.hrefs, Proper, held]
      by_cases h0 : 0 < refs
      · rw [if_pos h0]
        have h' : Inv n { s with refs := refs + 1 } (refs + 1) next live :=
          ⟨rfl, h.hnext, h.hlive, h.hrange, by omega, fun i => by rw [h.hcounts i]; simp [show refs ≠ 0 by omega]⟩
        simpa [Res.bind, h0] using ih _ _ _ _ h' hr
      · rw [if_neg h0]
        exact ⟨fun hp => absurd hp.1 h0, fun _ => rfl⟩
    | unref =>
      simp only [run, step, h.hrefs, Proper, held]
      by_cases h0 : 0 < refs
      · rw [if_pos (show refs ≥ 1 from h0)]
        by_cases h1 : refs - 1 > 0
        · rw [if_pos h1]
          have h' : Inv n { s with refs := refs - 1 } (refs - 1) next live :=
            ⟨rfl, h.hnext, h.hlive, h.hrange, by omega, fun i => by rw [h.hcounts i]; simp [show refs ≠ 0 by omega, show refs - 1 ≠ 0 by omega]⟩
          have := ih _ _ _ _ h' hr
          simpa [Res.bind, h0, show refs ≠ 1 by omega] using this
        · rw [if_neg h1]
          have e1 : refs = 1 := by omega
          subst e1
          by_cases hl : live = []
          · rw [if_pos (h.dead.mpr hl)]
            have hz : ∀ i, tally s.handles i = 0 := fun i => tally_dead _ _ fun o ho => by
              have := List.all_eq_true.mp (h.dead.mpr hl) o ho
              simpa using this
            rw [each_cleanup (List.range n) List.nodup_range s.counts (fun i hi => by
              rw [h.hcounts i, hz i, if_pos ⟨List.mem_range.mp hi, by omega⟩])]
            simp only [Res.bind]
            have h' : Inv n ({ s with refs := 0, counts := fun i => if i ∈ List.range n then 0 else s.counts i } : Life) 0 next live := by
              refine ⟨rfl, h.hnext, h.hlive, h.hrange, fun _ => hl, fun i => ?_⟩
              simp only [List.mem_range]
              rw [h.hcounts i]
              by_cases hi : i < n <;> simp [hi]
            have := ih _ _ _ _ h' hr
            simpa [hl] using this
          · rw [if_neg (fun hd => hl (h.dead.mp hd))]
            exact ⟨fun hp => absurd (hp.2.1 rfl) hl, fun _ => rfl⟩
      · rw [if_neg (show ¬ refs ≥ 1 from h0)]
        exact ⟨fun hp => absurd hp.1 h0, fun _ => rfl⟩
    | fetch l =>
      simp only [run, step, h.hrefs, Proper, held]
      by_cases h0 : refs = 0
      · rw [if_pos h0]
        exact ⟨fun hp => absurd hp.1 (by omega), fun _ => rfl⟩
      · rw [if_neg h0]
        obtain ⟨hl, hr⟩ := hr
        rw [each_ref l s.counts (fun i hi => by rw [h.hcounts i, if_pos ⟨hl i hi, h0⟩]; omega)]
        simp only [Res.bind]
        by_cases hnil : l = []
        · subst hnil
          have h' : Inv n { s with counts := fun i => s.counts i + ([] : List Nat).count i } refs next live :=
            ⟨h.hrefs, h.hnext, h.hlive, h.hrange, h.hended, fun i => by simpa using h.hcounts i⟩
          have := ih _ _ _ _ h' hr
          simpa [show 0 < refs by omega, h.hrefs] using this
        · have hln : ¬ l.length = 0 := fun e => hnil (List.length_eq_zero_iff.mp e)
          simp only [hln, if_false]
          have h' : Inv n { s with counts := fun i => s.counts i + l.count i, handles := s.handles ++ [some l] } refs (next + 1) (live ++ [next]) := by
            refine ⟨h.hrefs, by simp [h.hnext], fun x => ?_, fun x m => ?_, fun h1 => absurd h1 h0, fun i => ?_⟩
            · simp only [List.mem_append, List.mem_singleton, h.hlive x]
              by_cases hx : x < s.handles.length
              · rw [List.getElem?_append_left hx]
                have : x ≠ next := by rw [← h.hnext]; omega
                simp [this]
              · rw [List.getElem?_append_right (by omega)]
                have hno : s.handles[x]? = none := List.getElem?_eq_none (by omega)
                rw [hno, ← h.hnext]
                by_cases hxe : x = s.handles.length
                · subst hxe; simp
                · have : x - s.handles.length ≠ 0 := by omega
                  cases hk : x - s.handles.length with
                  | zero => exact absurd hk this
                  | succ k => simp [hxe]
            · simp only
              by_cases hx : x < s.handles.length
              · rw [List.getElem?_append_left hx]
                exact h.hrange x m
              · rw [List.getElem?_append_right (by omega)]
                cases hk : x - s.handles.length with
                | zero =>
                  simp
                  rintro rfl
                  exact hl
                | succ k => simp
            · simp only [tally_snoc]
              rw [h.hcounts i]
              by_cases hi : i < n
              · simp [hi, h0]; omega
              · have : l.count i = 0 := List.count_eq_zero.mpr fun hm => hi (hl i hm)
                simp [hi, this]
          have := ih _ _ _ _ h' hr
          simpa [hnil, show 0 < refs by omega, h.hrefs] using this
    | release x =>
      simp only [run, step, Proper, held]
      cases hx : s.handles[x]? with
      | none =>
        refine ⟨fun hp => ?_, fun _ => rfl⟩
        obtain ⟨l, hl⟩ := (h.hlive x).mp hp.1
        rw [hx] at hl
        cases hl
      | some o =>
        cases o with
        | none =>
          refine ⟨fun hp => ?_, fun _ => rfl⟩
          obtain ⟨l, hl⟩ := (h.hlive x).mp hp.1
          rw [hx] at hl
          cases hl
        | some l =>
          simp only
          have hlive : x ∈ live := (h.hlive x).mpr ⟨l, hx⟩
          have h0 : refs ≠ 0 := fun e => by rw [h.hended e] at hlive; cases hlive
          have hle : ∀ i, l.count i ≤ s.counts i := by
            intro i
            rw [h.hcounts i]
            by_cases hi : i < n
            · rw [if_pos ⟨hi, h0⟩, tally_set s.handles i x l hx]; omega
            · have : l.count i = 0 := List.count_eq_zero.mpr fun hm => hi (h.hrange x l hx i hm)
              omega
          rw [each_unref l s.counts hle]
          simp only [Res.bind]
          have h' : Inv n { s with counts := fun i => s.counts i - l.count i, handles := s.handles.set x none } refs next (live.filter (· ≠ x)) := by
            refine ⟨h.hrefs, by simp [h.hnext], fun y => ?_, fun y m => ?_, fun e => absurd e h0, fun i => ?_⟩
            · rw [List.mem_filter, h.hlive y, List.getElem?_set]
              by_cases hy : x = y
              · subst hy
                simp
              · simp [hy, Ne.symm hy]
            · rw [List.getElem?_set]
              by_cases hy : x = y
              · subst hy
                simp only [if_true]
                split <;> simp
              · simp only [hy, if_false]
                exact h.hrange y m
            · simp only
              rw [h.hcounts i, tally_set s.handles i x l hx]
              by_cases hi : i < n
              · simp [hi, h0]; omega
              · have : l.count i = 0 := List.count_eq_zero.mpr fun hm => hi (h.hrange x l hx i hm)
                simp [hi, this]
          have := ih _ _ _ _ h' hr
          simpa [hlive] using this

theorem init_inv (n : Nat) : Inv n (init n) 1 0 [] :=
  ⟨rfl, rfl, by simp [init], by simp [init], by omega, fun i => by simp [init, tally]⟩

/-- **C54.**  Nothing is used after it was freed and no assertion fails exactly if the interface is used properly; whoever keeps the quirks of a device beyond the
context, releases them twice or uses the context after its last reference makes an assertion fail or uses freed memory.  After proper use everything that remains has the
references it should have, and when the last reference of the context is gone nothing remains. -/
theorem quirks_lifetime (n : Nat) (os : List Op) (hr : InRange n os) :
    (Proper 1 0 [] os ↔ run n (init n) os ≠ .crash) ∧
    ∀ s, run n (init n) os = .ok s → s.refs = held 1 os ∧
      (held 1 os = 0 → (∀ i, s.counts i = 0) ∧ ∀ o ∈ s.handles, o = none) ∧
      (held 1 os ≠ 0 → ∀ i < n, 0 < s.counts i) := by
  have h := run_iff n os (init n) 1 0 [] (init_inv n) hr
  by_cases hp : Proper 1 0 [] os
  · obtain ⟨s', next', live', e, hi⟩ := h.1 hp
    refine ⟨⟨fun _ => by rw [e]; simp, fun _ => hp⟩, fun s hs => ?_⟩
    rw [e] at hs
    simp only [Res.ok.injEq] at hs
    subst hs
    refine ⟨hi.hrefs, fun h0 => ⟨fun i => by rw [hi.hcounts i]; simp [h0], fun o ho => ?_⟩, fun h0 i hin => by rw [hi.hcounts i, if_pos ⟨hin, h0⟩]; omega⟩
    have := List.all_eq_true.mp (hi.dead.mpr (hi.hended h0)) o ho
    simpa using this
  · have e := h.2 hp
    refine ⟨⟨fun h => absurd h hp, fun h => absurd e h⟩, fun s hs => ?_⟩
    rw [e] at hs
    cases hs

example : Proper 1 0 [] [.fetch [0, 2, 0], .fetch [], .ref, .fetch [1], .unref, .release 0, .release 1, .unref] ∧
    InRange 3 [.fetch [0, 2, 0], .fetch [], .ref, .fetch [1], .unref, .release 0, .release 1, .unref] := by
  simp [Proper, InRange]
example : ¬ Proper 1 0 [] [.fetch [0], .unref] ∧ ¬ Proper 1 0 [] [.fetch [0], .release 0, .release 0] := by simp [Proper]

/-- What libinput does: it asks for the quirks of a device and releases them before it asks again; nothing is to be released if there are none. -/
def uses (next : Nat) : List (List Nat) → List Op
  | [] => []
  | l :: ls => if l = [] then .fetch l :: uses next ls else .fetch l :: .release next :: uses (next + 1) ls

theorem uses_proper (n : Nat) (ls : List (List Nat)) : ∀ next, (∀ l ∈ ls, ∀ i ∈ l, i < n) → Proper 1 next [] (uses next ls ++ [.unref]) ∧ InRange n (uses next ls ++ [.unref]) := by
  induction ls with
  | nil => intro next _; simp [uses, Proper, InRange]
  | cons l ls ih =>
    intro next h
    have h1 := h l (by simp)
    unfold uses
    by_cases hl : l = []
    · subst hl
      simpa [Proper, InRange] using ih next fun x hx => h x (by simp [hx])
    · have := ih (next + 1) fun x hx => h x (by simp [hx])
      simp only [if_neg hl, List.cons_append, Proper, InRange]
      exact ⟨by simpa [hl] using this.1, h1, this.2⟩

/-- **C54, libinput.**  However often and for whatever devices libinput uses quirks, and then ends its context: no assertion fails and all is freed. -/
theorem libinput_frees_quirks (n : Nat) (ls : List (List Nat)) (hl : ∀ l ∈ ls, ∀ i ∈ l, i < n) :
    ∃ s, run n (init n) (uses 0 ls ++ [.unref]) = .ok s ∧ s.refs = 0 ∧ (∀ i, s.counts i = 0) ∧ ∀ o ∈ s.handles, o = none := by
  obtain ⟨h1, h2⟩ := uses_proper n ls 0 hl
  have hh : ∀ ls next, held 1 (uses next ls ++ [.unref]) = 0 := by
    intro ls
    induction ls with
    | nil => intro next; rfl
    | cons l ls ih =>
      intro next
      unfold uses
      split <;> simp [held, ih]
  obtain ⟨s, _, _, e, hi⟩ := (run_iff n _ (init n) 1 0 [] (init_inv n) h2).1 h1
  have := (quirks_lifetime n _ h2).2 s e
  rw [hh] at this
  exact ⟨s, e, this.1, this.2.1 rfl⟩

example : ∀ l ∈ [[0, 1], [], [1, 1, 2]], ∀ i ∈ l, i < 3 := by decide

end Libinput.Quirks.Life
