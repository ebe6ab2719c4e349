import Verif.SendEvents.Lemmas
set_option linter.unusedSimpArgs false
namespace Libinput.SendEvents
open Libinput.SendEvents.Spec

/-- What the histories keep true. -/
structure Inv (d : Tp) (w : World) : Prop where
  mode : d.mode = w.mode
  others : d.others = w.others
  sync : Sync d
  nodup : ∀ o ∈ w.others, ∀ p ∈ w.others, o.id = p.id → o = p
  oneLid : ∀ o ∈ w.others, ∀ p ∈ w.others, o.lid = true → p.lid = true → o = p
  oneTablet : ∀ o ∈ w.others, ∀ p ∈ w.others, o.tablet = true → p.tablet = true → o = p
  mice : ∀ o ∈ w.others, o.mouse = true → o.suspended = false
  modes : w.mode = 0 ∨ w.mode = 1 ∨ (w.mode = 2 ∧ d.internal = true)
  lidDev : ∀ id, d.lidDev = some id ↔
    d.internal = true ∧ ∃ o ∈ w.others, o.id = id ∧ o.lid = true ∧ o.suspended = false
  tabletDev : ∀ id, d.tabletDev = some id ↔
    d.internal = true ∧ d.noSuspend = false ∧ ∃ o ∈ w.others, o.id = id ∧ o.tablet = true ∧ o.suspended = false
  rMouse : d.reasons.mouse = true ↔ w.mode = 2 ∧ ∃ o ∈ w.others, o.mouse = true
  rSend : d.reasons.sendevents = true ↔ w.mode = 1
  rLid : d.reasons.lid = true ↔
    d.internal = true ∧ ∃ o ∈ w.others, o.lid = true ∧ o.suspended = false ∧ w.lidClosed o.id = true
  rTablet : d.reasons.tablet = true ↔
    d.internal = true ∧ d.noSuspend = false ∧ ∃ o ∈ w.others, o.tablet = true ∧ o.suspended = false ∧ o.tabletOn = true
  asleep : ∀ o ∈ w.others, o.suspended = true → w.lidClosed o.id = false

theorem inv_start (i n t : Bool) : Inv (create i n t) start := by
  constructor <;> simp [create, start, Sync, Reasons.any]

/-- The mode after `set_mode`, and the reasons. -/
theorem setMode_inv {d : Tp} {w : World} (h : Inv d w) (m : Nat) :
    Inv (setMode d m).2.1 { w with mode := accept d.internal w.mode m } := by
  have key : ∀ (m' : Nat) (r : Reasons), (m' = 0 ∨ m' = 1 ∨ (m' = 2 ∧ d.internal = true)) →
      (r.mouse = true ↔ m' = 2 ∧ ∃ o ∈ w.others, o.mouse = true) → (r.sendevents = true ↔ m' = 1) →
      r.lid = d.reasons.lid → r.tablet = d.reasons.tablet →
      Inv { put d r with mode := m' } { w with mode := m' } := by
    intro m' r hm h1 h2 h3 h4
    obtain ⟨a1, a2, a3, a4, a5, a6, a7, a8, a9, a10, a11, a12, a13, a14, a15⟩ := h
    exact ⟨rfl, a2, ⟨rfl, rfl⟩, a4, a5, a6, a7, hm, a9, a10, h1, h2,
      by show r.lid = true ↔ _; rw [h3]; exact a13, by show r.tablet = true ↔ _; rw [h4]; exact a14, a15⟩
  have same : Inv d { w with mode := w.mode } := h
  have s0 : tpSetMode d 0 = (if 0 = d.mode then (.success, d, []) else
      (.success, { (seq (tpResume d .sendevents) (tpResume · .mouse)).1 with mode := 0 },
        (seq (tpResume d .sendevents) (tpResume · .mouse)).2)) := rfl
  have s1 : tpSetMode d 1 = (if 1 = d.mode then (.success, d, []) else
      (.success, { (seq (tpSuspend d .sendevents) (tpResume · .mouse)).1 with mode := 1 },
        (seq (tpSuspend d .sendevents) (tpResume · .mouse)).2)) := rfl
  have s2 : tpSetMode d 2 = (if 2 = d.mode then (.success, d, []) else
      (.success, { (seq (suspendConditional d) (tpResume · .sendevents)).1 with mode := 2 },
        (seq (suspendConditional d) (tpResume · .sendevents)).2)) := rfl
  have s3 : tpSetMode d 3 = tpSetMode d 1 := rfl
  have i0 : Inv (tpSetMode d 0).2.1 { w with mode := 0 } := by
    rw [s0]
    split
    · rename_i he; rw [h.mode] at he; rw [he]; exact h
    · simp only [seq_fst, resume_put h.sync, resume_put (sync_put _ _), put_put]
      apply key 0 _ (by simp) <;> simp [put, Reasons.set]
  have i1 : Inv (tpSetMode d 1).2.1 { w with mode := 1 } := by
    rw [s1]
    split
    · rename_i he; rw [h.mode] at he; rw [he]; exact h
    · simp only [seq_fst, suspend_put h.sync, resume_put (sync_put _ _), put_put]
      apply key 1 _ (by simp) <;> simp [put, Reasons.set]
  have i2 : d.internal = true → Inv (tpSetMode d 2).2.1 { w with mode := 2 } := by
    intro hi
    rw [s2]
    split
    · rename_i he; rw [h.mode] at he; rw [he]; exact h
    · rename_i he
      have he' : w.mode ≠ 2 := by rw [← h.mode]; omega
      have hsc : (suspendConditional d).1 = put d { d.reasons with mouse := d.others.any (fun o => o.mouse) } := by
        unfold suspendConditional
        cases ha : d.others.any (fun o => o.mouse) with
        | true => simp [suspend_put h.sync, Reasons.set]
        | false =>
          have : d.reasons.mouse = false := by
            have := h.rMouse
            cases hr : d.reasons.mouse <;> simp_all
          simp only [Bool.false_eq_true, if_false]
          rw [← this]; exact (put_self h.sync).symm
      simp only [seq_fst, hsc, resume_put (sync_put _ _), put_put]
      apply key 2 _ (by simp [hi]) <;> simp [put, Reasons.set, h.others]
  unfold setMode accept
  rcases hi : d.internal with _ | _
  · have hg : getModes d = 1 := by simp [getModes, hi, ENABLED, DISABLED]
    rw [hg]
    by_cases hm : m = 0 ∨ m = 1
    · rcases hm with rfl | rfl
      · exact i0
      · exact i1
    · have hc : 1 &&& m ≠ m := by
        intro hc
        have : 1 &&& m ≤ 1 := Nat.and_le_left
        omega
      rw [if_pos hc, if_neg hm, if_neg (by simp), if_neg (by simp)]
      exact h
  · have hg : getModes d = 3 := by simp [getModes, hi, ENABLED, DISABLED, ON_EXTERNAL_MOUSE]
    rw [hg]
    by_cases hm : m = 0 ∨ m = 1
    · rcases hm with rfl | rfl
      · exact i0
      · exact i1
    · by_cases h2 : m = 2
      · subst h2; exact i2 hi
      · by_cases h3 : m = 3
        · subst h3
          exact i1
        · have hc : 3 &&& m ≠ m := by
            intro hc
            have : 3 &&& m ≤ 3 := Nat.and_le_left
            omega
          rw [if_pos hc, if_neg hm, if_neg (by simp [h2]), if_neg (by simp [h3])]
          exact h

theorem find_some {d : Tp} {w : World} (h : Inv d w) {id : Nat} {o : Other} :
    find d id = some o ↔ o ∈ w.others ∧ o.id = id := by
  unfold find
  rw [h.others]
  constructor
  · intro hf
    exact ⟨List.mem_of_find?_eq_some hf, by simpa using List.find?_some hf⟩
  · rintro ⟨ho, hid⟩
    cases hf : w.others.find? (fun o => o.id == id) with
    | none => simp at hf; exact absurd hid (hf o ho)
    | some p =>
      have h1 := List.mem_of_find?_eq_some hf
      have h2 : p.id = id := by simpa using List.find?_some hf
      rw [h.nodup p h1 o ho (by rw [h2, hid])]

theorem find_none {d : Tp} {w : World} (h : Inv d w) {id : Nat} :
    find d id = none ↔ ∀ o ∈ w.others, o.id ≠ id := by
  unfold find; rw [h.others]; simp

theorem add_inv {d : Tp} {w : World} (h : Inv d w) (o : Other) (ho : OrdinaryOp w (.add o)) :
    Inv (step d (.add o)).1 (next d.internal w (.add o)) := by
  simp only [step, next]
  by_cases hf : (find d o.id).isSome = true
  · rw [if_pos hf]
    obtain ⟨p, hp⟩ := Option.isSome_iff_exists.1 hf
    obtain ⟨h1, h2⟩ := (find_some h).1 hp
    rw [if_pos (by simp; exact ⟨p, h1, h2⟩)]
    exact h
  · rw [if_neg hf]
    have hn : ∀ x ∈ w.others, x.id ≠ o.id := (find_none h).1 (by simpa using hf)
    rw [if_neg (by simpa using hn)]
    obtain ⟨hol, hot⟩ := ho
    rw [added_put (by exact h.sync)]
    obtain ⟨a1, a2, a3, a4, a5, a6, a7, a8, a9, a10, a11, a12, a13, a14, a15⟩ := h
    have ll : o.lid = true → d.lidDev = none := by
      intro hl
      cases hd : d.lidDev with
      | none => rfl
      | some i => have := (a9 i).1 hd; grind
    have tt : o.tablet = true → d.tabletDev = none := by
      intro hl
      cases hd : d.tabletDev with
      | none => rfl
      | some i => have := (a10 i).1 hd; grind
    constructor
    · exact a1
    · simp [put, a2]
    · exact sync_put _ _
    · simp; grind
    · simp; grind
    · simp; grind
    · simp; grind
    · exact a8
    · intro id
      simp only [put, List.mem_append, List.mem_singleton, or_and_right, exists_or, exists_eq_left]
      have := a9 id
      grind
    · intro id
      simp only [put, List.mem_append, List.mem_singleton, or_and_right, exists_or, exists_eq_left]
      have := a10 id
      grind
    · simp [put]; grind
    · exact a12
    · simp [put]; grind
    · simp [put]; grind
    · simp; grind

theorem removed_removed {d : Tp} (h : Sync d) (id : Nat) : (removed (removed d id).1 id).1 = (removed d id).1 := by
  rw [removed_put (d := (removed d id).1) (by rw [removed_put h]; exact sync_put _ _), removed_put h]
  simp only [put]
  by_cases h1 : d.lidDev = some id <;> by_cases h2 : d.tabletDev = some id <;>
    by_cases h3 : d.mode = 2 ∧ d.others.any (fun o => o.id != id && o.mouse) = false <;> simp [h1, h2, h3]

theorem remove_inv {d : Tp} {w : World} (h : Inv d w) (id : Nat) :
    Inv (step d (.remove id)).1 (next d.internal w (.remove id)) := by
  simp only [step, next]
  cases hf : find d id with
  | none =>
    have hn := (find_none h).1 hf
    have : (w.others.filter fun o => o.id != id) = w.others := by
      rw [List.filter_eq_self]; simpa using hn
    rw [this]; exact h
  | some o =>
    obtain ⟨ho, hid⟩ := (find_some h).1 hf
    have he : (seq (removed d id) fun d => if o.suspended then (d, []) else removed d id).1 = (removed d id).1 := by
      rw [seq_fst]
      split
      · rfl
      · exact removed_removed h.sync id
    simp only [he]
    rw [removed_put h.sync]
    obtain ⟨a1, a2, a3, a4, a5, a6, a7, a8, a9, a10, a11, a12, a13, a14, a15⟩ := h
    constructor
    · exact a1
    · simp [put, a2]
    · exact sync_put _ _
    · simp; grind
    · simp; grind
    · simp; grind
    · simp; grind
    · exact a8
    · intro i
      simp only [put, List.mem_filter]
      have := a9 i
      grind
    · intro i
      simp only [put, List.mem_filter]
      have := a10 i
      grind
    · simp [put, a2]; grind
    · exact a12
    · simp [put]
      have := a9 id
      grind
    · simp [put]
      have := a10 id
      grind
    · simp; grind

theorem mem_upd {l : List Other} (hn : ∀ o ∈ l, ∀ p ∈ l, o.id = p.id → o = p) {o : Other} (ho : o ∈ l)
    (f : Other → Other) (x : Other) :
    x ∈ (l.map fun p => if p.id = o.id then f p else p) ↔ (x ∈ l ∧ x.id ≠ o.id) ∨ x = f o := by
  rw [List.mem_map]
  constructor
  · rintro ⟨a, ha, rfl⟩
    by_cases hi : a.id = o.id
    · rw [if_pos hi, hn a ha o ho hi]; exact Or.inr rfl
    · rw [if_neg hi]; exact Or.inl ⟨ha, hi⟩
  · rintro (⟨h1, h2⟩ | rfl)
    · exact ⟨x, h1, by rw [if_neg h2]⟩
    · exact ⟨o, ho, by simp⟩

theorem map_absent {l : List Other} {id : Nat} (hn : ∀ o ∈ l, o.id ≠ id) (f : Other → Other) :
    (l.map fun p => if p.id = id then f p else p) = l := by
  conv => rhs; rw [← List.map_id l]
  apply List.map_congr_left
  intro a ha
  rw [if_neg (hn a ha)]; rfl

theorem map_fixed {l : List Other} (hn : ∀ o ∈ l, ∀ p ∈ l, o.id = p.id → o = p) {o : Other} (ho : o ∈ l)
    {f : Other → Other} (hf : f o = o) :
    (l.map fun p => if p.id = o.id then f p else p) = l := by
  conv => rhs; rw [← List.map_id l]
  apply List.map_congr_left
  intro a ha
  by_cases hi : a.id = o.id
  · rw [if_pos hi, hn a ha o ho hi, hf]; rfl
  · rw [if_neg hi]; rfl

/-- Only the working lids' states matter. -/
theorem inv_lidClosed {d : Tp} {w : World} (h : Inv d w) (c : Nat → Bool)
    (hc : ∀ o ∈ w.others, o.lid = true → o.suspended = false → c o.id = w.lidClosed o.id)
    (hz : ∀ o ∈ w.others, o.suspended = true → c o.id = false) :
    Inv d { w with lidClosed := c } := by
  obtain ⟨a1, a2, a3, a4, a5, a6, a7, a8, a9, a10, a11, a12, a13, a14, a15⟩ := h
  refine ⟨a1, a2, a3, a4, a5, a6, a7, a8, a9, a10, a11, a12, ?_, a14, hz⟩
  rw [a13]
  simp only
  grind

theorem suspend_inv {d : Tp} {w : World} (h : Inv d w) (id : Nat) (hm : OrdinaryOp w (.suspend id)) :
    Inv (step d (.suspend id)).1 (next d.internal w (.suspend id)) := by
  simp only [step, next]
  cases hf : find d id with
  | none =>
    have hn := (find_none h).1 hf
    rw [map_absent hn]
    apply inv_lidClosed h
    · intro o ho _ _
      simp [hn o ho]
    · intro o ho hs
      simp [h.asleep o ho hs]
  | some o =>
    obtain ⟨ho, rfl⟩ := (find_some h).1 hf
    cases hs : o.suspended with
    | true =>
      simp only [hs, if_true]
      rw [map_fixed h.nodup ho (by rw [← hs])]
      apply inv_lidClosed h
      · intro p hp _ hps
        have : p.id ≠ o.id := fun hi => by rw [h.nodup p hp o ho hi, hs] at hps; cases hps
        simp [this]
      · intro p hp hps
        simp [h.asleep p hp hps]
    | false =>
      simp only [hs, Bool.false_eq_true, if_false]
      have hmem := mem_upd h.nodup ho (fun o => { o with suspended := true })
      have hmo : o.mouse = false := hm o ho rfl
      rw [removed_put h.sync]
      simp only [update, put]
      have hl := (h.lidDev o.id)
      have ht := (h.tabletDev o.id)
      obtain ⟨a1, a2, a3, a4, a5, a6, a7, a8, a9, a10, a11, a12, a13, a14, a15⟩ := h
      rw [a2]
      generalize (w.others.map fun p => if p.id = o.id then { p with suspended := true } else p) = l' at *
      constructor
      · exact a1
      · rfl
      · exact ⟨rfl, rfl⟩
      · simp [hmem]; grind
      · simp [hmem]; grind
      · simp [hmem]; grind
      · simp [hmem]; grind
      · exact a8
      · intro i
        simp only [hmem]
        have := a9 i
        grind
      · intro i
        simp only [hmem]
        have := a10 i
        grind
      · simp [hmem]; grind
      · exact a12
      · simp [hmem]; grind
      · simp [hmem]; grind
      · simp [hmem]; grind

theorem resume_inv {d : Tp} {w : World} (h : Inv d w) (id : Nat) :
    Inv (step d (.resume id)).1 (next d.internal w (.resume id)) := by
  simp only [step, next]
  cases hf : find d id with
  | none => rw [map_absent ((find_none h).1 hf)]; exact h
  | some o =>
    obtain ⟨ho, rfl⟩ := (find_some h).1 hf
    cases hs : o.suspended with
    | false =>
      simp only [hs, Bool.false_eq_true, if_false]
      rw [map_fixed h.nodup ho (by rw [← hs])]
      exact h
    | true =>
      simp only [hs, if_true]
      have hmem := mem_upd h.nodup ho (fun o => { o with suspended := false })
      have hmo : o.mouse = false := by
        cases hx : o.mouse with
        | false => rfl
        | true => have := h.mice o ho hx; rw [hs] at this; cases this
      rw [added_put h.sync]
      simp only [update, put]
      obtain ⟨a1, a2, a3, a4, a5, a6, a7, a8, a9, a10, a11, a12, a13, a14, a15⟩ := h
      have ll : o.lid = true → d.lidDev = none := by
        intro hl
        cases hd : d.lidDev with
        | none => rfl
        | some i => have := (a9 i).1 hd; grind
      have tt : o.tablet = true → d.tabletDev = none := by
        intro hl
        cases hd : d.tabletDev with
        | none => rfl
        | some i => have := (a10 i).1 hd; grind
      rw [a2]
      generalize (w.others.map fun p => if p.id = o.id then { p with suspended := false } else p) = l' at *
      constructor
      · exact a1
      · rfl
      · exact ⟨rfl, rfl⟩
      · simp [hmem]; grind
      · simp [hmem]; grind
      · simp [hmem]; grind
      · simp [hmem]; grind
      · exact a8
      · intro i
        simp only [hmem, or_and_right, exists_or, exists_eq_left]
        have := a9 i
        grind
      · intro i
        simp only [hmem, or_and_right, exists_or, exists_eq_left]
        have := a10 i
        grind
      · simp [hmem]; grind
      · exact a12
      · simp only [hmem, or_and_right, exists_or, exists_eq_left]; grind
      · simp [hmem, or_and_right, exists_or]; grind
      · simp [hmem]; grind

theorem lid_inv {d : Tp} {w : World} (h : Inv d w) (id : Nat) (on : Bool) :
    Inv (step d (.lid id on)).1 (next d.internal w (.lid id on)) := by
  simp only [next]
  have hw : working w (·.lid) id = true ↔ ∃ o ∈ w.others, o.id = id ∧ o.lid = true ∧ o.suspended = false := by
    simp [working, and_assoc]
  cases hf : find d id with
  | none =>
    have hn := (find_none h).1 hf
    have : step d (.lid id on) = (d, []) := by simp only [step, hf]
    rw [this, if_neg (by rw [hw]; grind)]; exact h
  | some o =>
    obtain ⟨ho, rfl⟩ := (find_some h).1 hf
    have hst : step d (.lid o.id on) = (if o.lid && !o.suspended && d.lidDev == some o.id then
        (if on then tpSuspend d .lid else tpResume d .lid) else (d, [])) := by simp only [step, hf]
    rw [hst]
    by_cases hc : o.lid = true ∧ o.suspended = false
    · rw [if_pos (hw.2 ⟨o, ho, rfl, hc⟩)]
      have hl := h.lidDev o.id
      by_cases hi : d.internal = true
      · rw [if_pos (by simp [hc, hl.2 ⟨hi, o, ho, rfl, hc⟩])]
        have he : (if on then tpSuspend d .lid else tpResume d .lid).1 = put d { d.reasons with lid := on } := by
          cases on
          · simp [resume_put h.sync, Reasons.set]
          · simp [suspend_put h.sync, Reasons.set]
        rw [he]
        obtain ⟨a1, a2, a3, a4, a5, a6, a7, a8, a9, a10, a11, a12, a13, a14, a15⟩ := h
        refine ⟨a1, a2, sync_put _ _, a4, a5, a6, a7, a8, a9, a10, a11, a12, ?_, a14, ?_⟩
        · simp only [put]
          grind
        · simp only
          grind
      · rw [if_neg (by simp; intro _ _ hx; exact hi (hl.1 hx).1)]
        obtain ⟨a1, a2, a3, a4, a5, a6, a7, a8, a9, a10, a11, a12, a13, a14, a15⟩ := h
        refine ⟨a1, a2, a3, a4, a5, a6, a7, a8, a9, a10, a11, a12, ?_, a14, ?_⟩
        · simp only
          grind
        · simp only
          grind
    · rw [if_neg (by simp; intro h1 h2; exact absurd ⟨h1, h2⟩ hc), if_neg]
      · exact h
      · rw [hw]
        rintro ⟨p, hp, h1, h2⟩
        rw [h.nodup p hp o ho h1] at h2
        exact hc h2

theorem tablet_inv {d : Tp} {w : World} (h : Inv d w) (id : Nat) (on : Bool) :
    Inv (step d (.tablet id on)).1 (next d.internal w (.tablet id on)) := by
  have hmap : (w.others.map fun o =>
      if o.id = id ∧ o.tablet = true ∧ o.suspended = false then { o with tabletOn := on } else o) =
      w.others.map fun o => if o.id = id then
        (if o.tablet = true ∧ o.suspended = false then { o with tabletOn := on } else o) else o := by
    apply List.map_congr_left
    intro a _
    by_cases h1 : a.id = id <;> simp [h1]
  simp only [next]
  rw [hmap]
  cases hf : find d id with
  | none =>
    have : step d (.tablet id on) = (d, []) := by simp only [step, hf]
    rw [this, map_absent ((find_none h).1 hf)]; exact h
  | some o =>
    obtain ⟨ho, rfl⟩ := (find_some h).1 hf
    have hst : step d (.tablet o.id on) = (if o.tablet && !o.suspended then
        (if (update d o.id fun o => { o with tabletOn := on }).tabletDev = some o.id then
          (if on then tpSuspend (update d o.id fun o => { o with tabletOn := on }) .tablet
           else tpResume (update d o.id fun o => { o with tabletOn := on }) .tablet)
          else (update d o.id fun o => { o with tabletOn := on }, [])) else (d, [])) := by simp only [step, hf]
    rw [hst]
    by_cases hc : o.tablet = true ∧ o.suspended = false
    · rw [if_pos (by simp [hc])]
      have hmem := mem_upd h.nodup ho (fun o => if o.tablet = true ∧ o.suspended = false then { o with tabletOn := on } else o)
      have hsame : (update d o.id fun o => { o with tabletOn := on }).others =
          w.others.map fun p => if p.id = o.id then
            (if p.tablet = true ∧ p.suspended = false then { p with tabletOn := on } else p) else p := by
        simp only [update]
        rw [h.others]
        apply List.map_congr_left
        intro a ha
        by_cases h1 : a.id = o.id
        · have := h.nodup a ha o ho h1; subst this; simp [hc]
        · simp [h1]
      have hs' : Sync (update d o.id fun o => { o with tabletOn := on }) := h.sync
      rw [if_pos hc] at hmem
      have ht := h.tabletDev o.id
      by_cases hi : d.internal = true ∧ d.noSuspend = false
      · have hd : (update d o.id fun o => { o with tabletOn := on }).tabletDev = some o.id :=
          ht.2 ⟨hi.1, hi.2, o, ho, rfl, hc⟩
        have he : (if on then tpSuspend (update d o.id fun o => { o with tabletOn := on }) .tablet
            else tpResume (update d o.id fun o => { o with tabletOn := on }) .tablet).1 =
            put (update d o.id fun o => { o with tabletOn := on }) { d.reasons with tablet := on } := by
          cases on
          · simp only [Bool.false_eq_true, if_false, resume_put hs', Reasons.set]; rfl
          · simp only [if_true, suspend_put hs', Reasons.set]; rfl
        rw [if_pos hd, he]
        obtain ⟨a1, a2, a3, a4, a5, a6, a7, a8, a9, a10, a11, a12, a13, a14, a15⟩ := h
        generalize (w.others.map fun p => if p.id = o.id then
            (if p.tablet = true ∧ p.suspended = false then { p with tabletOn := on } else p) else p) = l' at *
        constructor
        · exact a1
        · exact hsame
        · exact sync_put _ _
        · simp [hmem]; grind
        · simp [hmem]; grind
        · simp [hmem]; grind
        · simp [hmem]; grind
        · exact a8
        · intro i
          simp only [put, update, hmem, or_and_right, exists_or, exists_eq_left]
          have := a9 i
          grind
        · intro i
          simp only [put, update, hmem, or_and_right, exists_or, exists_eq_left]
          have := a10 i
          grind
        · simp only [put, update, hmem, or_and_right, exists_or, exists_eq_left]; grind
        · exact a12
        · simp only [put, update, hmem, or_and_right, exists_or, exists_eq_left]; grind
        · simp only [put, update, hmem, or_and_right, exists_or, exists_eq_left]; grind
        · simp [hmem]; grind
      · have hd : ¬ (update d o.id fun o => { o with tabletOn := on }).tabletDev = some o.id := by
          intro hx; have := ht.1 hx; exact hi ⟨this.1, this.2.1⟩
        rw [if_neg hd]
        obtain ⟨a1, a2, a3, a4, a5, a6, a7, a8, a9, a10, a11, a12, a13, a14, a15⟩ := h
        generalize (w.others.map fun p => if p.id = o.id then
            (if p.tablet = true ∧ p.suspended = false then { p with tabletOn := on } else p) else p) = l' at *
        constructor
        · exact a1
        · exact hsame
        · exact hs'
        · simp [hmem]; grind
        · simp [hmem]; grind
        · simp [hmem]; grind
        · simp [hmem]; grind
        · exact a8
        · intro i
          simp only [update, hmem, or_and_right, exists_or, exists_eq_left]
          have := a9 i
          grind
        · intro i
          simp only [update, hmem, or_and_right, exists_or, exists_eq_left]
          have := a10 i
          grind
        · simp only [update, hmem, or_and_right, exists_or, exists_eq_left]; grind
        · exact a12
        · simp only [update, hmem, or_and_right, exists_or, exists_eq_left]; grind
        · simp only [update, hmem, or_and_right, exists_or, exists_eq_left]; grind
        · simp [hmem]; grind
    · rw [if_neg (by simp; intro h1; cases h2 : o.suspended <;> simp_all)]
      rw [map_fixed h.nodup ho (by rw [if_neg hc])]
      exact h

theorem step_inv {d : Tp} {w : World} (h : Inv d w) (op : Op) (ho : OrdinaryOp w op) :
    Inv (step d op).1 (next d.internal w op) := by
  cases op with
  | setMode m => exact setMode_inv h m
  | add o => exact add_inv h o ho
  | remove id => exact remove_inv h id
  | suspend id => exact suspend_inv h id ho
  | resume id => exact resume_inv h id
  | lid id on => exact lid_inv h id on
  | tablet id on => exact tablet_inv h id on

end Libinput.SendEvents
