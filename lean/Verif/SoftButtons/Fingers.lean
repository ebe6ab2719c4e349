import Verif.SoftButtons.Lemmas
/-
Proofs about the software buttons: what a finger counts as.
-/
namespace Libinput.SoftButtons
open Spec

/-- The part of a touch that decides what it counts as. -/
structure Core where
  bs : BState
  cur : Option Zone
  timer : Option Nat
deriving DecidableEq, Repr

def Touch.core (t : Touch) : Core := ⟨t.bs, t.cur, t.timer⟩

/-- A touch with nothing but that part. -/
def Core.touch (c : Core) : Touch := { bs := c.bs, cur := c.cur, timer := c.timer }

theorem setState_core {t u : Touch} (h : t.core = u.core) (bs : BState) (z : Option Zone) (time : Nat) :
    (setState t bs z time).core = (setState u bs z time).core := by
  simp only [Touch.core, Core.mk.injEq] at h
  obtain ⟨h1, h2, h3⟩ := h
  cases bs <;> simp [setState, Touch.core, h2]

theorem handleEvent_core {t u : Touch} (h : t.core = u.core) (ev : Event) (time : Nat) :
    (handleEvent t ev time).1.core = (handleEvent u ev time).1.core := by
  have hb : t.bs = u.bs := congrArg Core.bs h
  have hc : t.cur = u.cur := congrArg Core.cur h
  have hs := setState_core h
  unfold handleEvent
  rw [hb]
  cases u.bs <;> cases ev <;>
    simp only [noneEvent, areaEvent, bottomEvent, topEvent, topNewEvent, topToIgnoreEvent, ignoreEvent, hc] <;>
    (repeat' split) <;> first | exact h | exact hs _ _ _ | skip
  · simp only [Touch.core] at h ⊢
    simp_all

/-- What an item of the record does to a touch. -/
def feel (t : Touch) : Item → Touch
  | .at z time => (handleEvent t (.inZone z) time).1
  | .click time => (handleEvent t .press time).1
  | .tick now =>
    match t.timer with
    | none => t
    | some e => if e ≤ now then (handleEvent { t with timer := none } .timeout now).1 else t

theorem feel_core {t u : Touch} (h : t.core = u.core) (i : Item) : (feel t i).core = (feel u i).core := by
  cases i with
  | «at» z time => exact handleEvent_core h _ _
  | click time => exact handleEvent_core h _ _
  | tick now =>
    have ht : t.timer = u.timer := congrArg Core.timer h
    simp only [feel, ht]
    split
    · exact h
    · split
      · apply handleEvent_core
        simp only [Touch.core, Core.mk.injEq] at h ⊢
        exact ⟨h.1, h.2.1, trivial⟩
      · exact h

theorem foldl_feel_core (is : List Item) {t u : Touch} (h : t.core = u.core) :
    (is.foldl feel t).core = (is.foldl feel u).core := by
  induction is generalizing t u with
  | nil => exact h
  | cons i is ih => exact ih (feel_core h i)

/-- The model's choice of the area is the specified one. -/
theorem zoneOf_eq (e : Edges) (p : Pt) : zoneOf e p = zone e p := by
  unfold zoneOf zone inBottomM inBottomR inTopR inTopM inBottom inTop
  simp only [ge_iff_le, gt_iff_lt, Bool.and_eq_true, Bool.not_eq_true', decide_eq_true_eq, Bool.and_eq_false_iff,
    decide_eq_false_iff_not]
  repeat' split
  all_goals first | rfl | (exfalso; omega) 

theorem releaseOther_core (n : Nat) (t : Touch) : (releaseOther n t).core = t.core := by
  unfold releaseOther
  split
  · rfl
  · dsimp only
    repeat' split
    all_goals rfl

theorem release_nop (t : Touch) (time : Nat) : (handleEvent t .release time).1 = t := by
  unfold handleEvent
  cases t.bs <;> rfl

theorem checkMovement_core (g : Geo) (t : Touch) (p : Pt) : (checkMovement g t p).1.core = t.core := by
  unfold checkMovement
  split
  · rfl
  · split <;> rfl

theorem up_core (t : Touch) (time : Nat) : (handleEvent t .up time).1.core = ⟨.none, none, none⟩ := by
  unfold handleEvent
  cases t.bs <;> rfl

theorem press_none {t : Touch} (h : t.bs = .none) (time : Nat) : (handleEvent t .press time).1 = t := by
  unfold handleEvent
  rw [h]; rfl

theorem moveOne_core (g : Geo) (e : Edges) (v : View) (time : Nat) (t : Touch) :
    (moveOne g e v time t).1.core =
      if v.ts = .end_ then ⟨.none, none, none⟩
      else ((if v.dirty then [Item.at (zone e v.pt) time] else []).foldl feel t).core := by
  unfold moveOne
  generalize hu : (if v.ts = .begin then { t with initial := v.pt, initTime := time, moved := false } else t) = u
  have hc : u.core = t.core := by subst hu; split <;> rfl
  dsimp only
  split
  · exact up_core u time
  · split
    · simp only [List.foldl_cons, List.foldl_nil, feel, zoneOf_eq]
      apply handleEvent_core
      split
      · rw [checkMovement_core, hc]
      · exact hc
    · exact hc

/-- What a frame does to one touch. -/
theorem handleOne_core (g : Geo) (e : Edges) (qp qr : Bool) (v : View) (time : Nat) (t : Touch) :
    (handleOne g e qp qr v time t).1.core =
      if v.ts = .none ∨ v.ts = .hovering then t.core
      else if v.ts = .end_ then ⟨.none, none, none⟩
      else (((if v.dirty then [Item.at (zone e v.pt) time] else []) ++
          (if qp then [Item.click time] else [])).foldl feel t).core := by
  unfold handleOne
  split
  · rfl
  · have hm := moveOne_core g e v time t
    dsimp only
    rw [List.foldl_append]
    generalize hr : (moveOne g e v time t).1 = r at hm
    have hq : (if qr = true then (handleEvent r .release time).1 else r) = r := by
      rw [release_nop, ite_self]
    rw [hq]
    by_cases he : v.ts = .end_
    · rw [if_pos he] at hm ⊢
      split
      · rw [press_none (congrArg Core.bs hm), hm]
      · exact hm
    · rw [if_neg he] at hm ⊢
      split
      · exact handleEvent_core hm _ _
      · exact hm

/-- What a frame does to the touches. -/
def loopCore (g : Geo) (e : Edges) (qp qr : Bool) (time : Nat) : List View → List Touch → List Core
  | v :: vs, t :: ts => (handleOne g e qp qr v time t).1.core :: loopCore g e qp qr time vs ts
  | _, ts => ts.map Touch.core

theorem handleOne_core_congr (g : Geo) (e : Edges) (qp qr : Bool) (v : View) (time : Nat) {t u : Touch}
    (h : t.core = u.core) : (handleOne g e qp qr v time t).1.core = (handleOne g e qp qr v time u).1.core := by
  rw [handleOne_core, handleOne_core, h, foldl_feel_core _ h]

theorem loopCore_congr (g : Geo) (e : Edges) (qp qr : Bool) (time : Nat) (vs : List View) (f : Touch → Touch)
    (hf : ∀ t, (f t).core = t.core) (ts : List Touch) :
    loopCore g e qp qr time vs (ts.map f) = loopCore g e qp qr time vs ts := by
  induction ts generalizing vs with
  | nil => rfl
  | cons t ts ih =>
    cases vs with
    | nil => simp [loopCore, hf]
    | cons v vs =>
      simp only [List.map_cons, loopCore, ih]
      rw [handleOne_core_congr g e qp qr v time (hf t)]

theorem handleLoop_core (g : Geo) (e : Edges) (qp qr : Bool) (time : Nat) (done : List Touch) (vs : List View)
    (ts : List Touch) : (handleLoop g e qp qr time done vs ts).map Touch.core =
      done.reverse.map Touch.core ++ loopCore g e qp qr time vs ts := by
  induction vs generalizing done ts with
  | nil => cases ts <;> simp [handleLoop, loopCore]
  | cons v vs ih =>
    cases ts with
    | nil => simp [handleLoop, loopCore]
    | cons t ts =>
      rw [handleLoop, loopCore]
      dsimp only
      split
      · rw [ih, loopCore_congr _ _ _ _ _ _ _ (releaseOther_core _)]
        simp only [List.reverse_cons, List.map_append, List.map_cons, List.map_nil, List.append_assoc,
          List.cons_append, List.nil_append, ← List.map_reverse, List.map_map]
        congr 1
        apply List.map_congr_left
        intro x _
        exact releaseOther_core _ x
      · rw [ih]
        simp

theorem loopCore_get (g : Geo) (e : Edges) (qp qr : Bool) (time : Nat) (vs : List View) (ts : List Touch) (i : Nat)
    {v : View} {t : Touch} (hv : vs[i]? = some v) (ht : ts[i]? = some t) :
    (loopCore g e qp qr time vs ts)[i]? = some (handleOne g e qp qr v time t).1.core := by
  induction vs generalizing ts i with
  | nil => simp at hv
  | cons w vs ih =>
    cases ts with
    | nil => simp at ht
    | cons u ts =>
      cases i with
      | zero =>
        simp only [List.getElem?_cons_zero, Option.some.injEq] at hv ht
        subst hv; subst ht
        simp [loopCore]
      | succ i =>
        simp only [List.getElem?_cons_succ] at hv ht
        simp only [loopCore, List.getElem?_cons_succ]
        exact ih ts i hv ht

theorem handleLoop_length (g : Geo) (e : Edges) (qp qr : Bool) (time : Nat) (vs : List View) (ts : List Touch) :
    (handleLoop g e qp qr time [] vs ts).length = ts.length := by
  have h := congrArg List.length (handleLoop_core g e qp qr time [] vs ts)
  simp only [List.length_map, List.reverse_nil, List.map_nil, List.nil_append] at h
  rw [h]
  clear h
  induction vs generalizing ts with
  | nil => cases ts <;> simp [loopCore]
  | cons v vs ih => cases ts <;> simp [loopCore, ih]

/-- What the loop makes of touch `i`. -/
theorem handleLoop_get (g : Geo) (e : Edges) (qp qr : Bool) (time : Nat) (vs : List View) (ts : List Touch) (i : Nat)
    {v : View} {t : Touch} (hv : vs[i]? = some v) (ht : ts[i]? = some t) :
    ∃ t', (handleLoop g e qp qr time [] vs ts)[i]? = some t' ∧ t'.core = (handleOne g e qp qr v time t).1.core := by
  have h := handleLoop_core g e qp qr time [] vs ts
  have h2 := loopCore_get g e qp qr time vs ts i hv ht
  simp only [List.reverse_nil, List.map_nil, List.nil_append] at h
  rw [← h, List.getElem?_map] at h2
  cases hh : (handleLoop g e qp qr time [] vs ts)[i]? with
  | none => rw [hh] at h2; cases h2
  | some t' => rw [hh] at h2; exact ⟨t', rfl, by simpa using h2⟩

theorem handleFrame_touches (s : Pad) (t : Nat) (vs : List View) :
    (handleFrame s t vs).1.touches = handleLoop s.geo s.edges s.qPress s.qRelease t [] vs s.touches := by
  rw [handleFrame_eq]
  show (applyMiddle _).touches = _
  rw [(applyMiddle_fields _).2.2.2.2.2.2.2.2.2.1]
  exact (postButtons_hasTop _ t vs).2.1

theorem fitsAll_get {hs : List Bool} {vs : List View} (h : fitsAll hs vs = true) :
    vs.length = hs.length ∧ ∀ (i : Nat) (b : Bool) (v : View), hs[i]? = some b → vs[i]? = some v → fits b v = true := by
  induction hs generalizing vs with
  | nil =>
    cases vs with
    | nil => simp
    | cons v vs => simp [fitsAll] at h
  | cons b hs ih =>
    cases vs with
    | nil => simp [fitsAll] at h
    | cons v vs =>
      simp only [fitsAll, Bool.and_eq_true] at h
      obtain ⟨h1, h2⟩ := ih h.2
      refine ⟨by simp [h1], ?_⟩
      intro i c w hc hw
      cases i with
      | zero =>
        simp only [List.getElem?_cons_zero, Option.some.injEq] at hc hw
        subst hc; subst hw
        exact h.1
      | succ i =>
        simp only [List.getElem?_cons_succ] at hc hw
        exact h2 i c w hc hw

/-- The touches are as their records say; `hs`: which slots have a finger. -/
structure SlotInv (s : Pad) (hs : List Bool) (H : Nat → List Item) : Prop where
  first : ∀ i, H i = [] ∨ ∃ z t r, H i = .at z t :: r
  len : s.touches.length = hs.length
  here : ∀ (i : Nat) (b : Bool), hs[i]? = some b → (b = true ↔ H i ≠ [])
  core : ∀ (i : Nat) (t : Touch), s.touches[i]? = some t → t.core = ((H i).foldl feel {}).core

theorem SlotInv.congr {s s' : Pad} {hs : List Bool} {H : Nat → List Item} (h : SlotInv s hs H)
    (he : s'.touches = s.touches) : SlotInv s' hs H := by
  obtain ⟨h0, h1, h2, h3⟩ := h
  exact ⟨h0, by rw [he]; exact h1, h2, by rw [he]; exact h3⟩

/-- A frame keeps the records right. -/
theorem frame_slots {s : Pad} {hs : List Bool} {H : Nat → List Item} (h : SlotInv s hs H) (t : Nat) {vs : List View}
    (hf : fitsAll hs vs = true) :
    SlotInv (handleFrame s t vs).1 (vs.map there) (fun i => match vs[i]? with
      | some v => record s.edges s.qPress t v (H i)
      | none => H i) := by
  obtain ⟨hl, hfit⟩ := fitsAll_get hf
  refine ⟨?_, ?_, ?_, ?_⟩
  · intro i
    cases hv : vs[i]? with
    | none => exact h.first i
    | some v =>
      have hi : i < hs.length := by rw [← hl]; exact (List.getElem?_eq_some_iff.mp hv).1
      have hb := List.getElem?_eq_getElem hi
      have hfi := hfit i _ v hb hv
      have hh := h.here i _ hb
      have hfirst := h.first i
      revert hfi
      simp only
      unfold record fits
      cases hts : v.ts <;> simp only [] <;> intro hfi
      · simp
      · simp
      · simp only [Bool.and_eq_true] at hfi
        right
        simp only [if_true, hfi.2, List.nil_append, List.cons_append]
        exact ⟨_, _, _, rfl⟩
      · obtain ⟨z, t, r, hr⟩ := hfirst.resolve_left (hh.mp hfi)
        right
        simp only [hr, reduceCtorEq, if_false, List.cons_append]
        exact ⟨_, _, _, rfl⟩
      · obtain ⟨z, t, r, hr⟩ := hfirst.resolve_left (hh.mp hfi)
        right
        simp only [hr, reduceCtorEq, if_false, List.cons_append]
        exact ⟨_, _, _, rfl⟩
      · simp
  · rw [handleFrame_touches, handleLoop_length, h.len, List.length_map, hl]
  · intro i b hb
    rw [List.getElem?_map] at hb
    cases hv : vs[i]? with
    | none => rw [hv] at hb; cases hb
    | some v =>
      rw [hv] at hb
      simp only [Option.map_some, Option.some.injEq] at hb
      subst hb
      have hi : i < hs.length := by rw [← hl]; exact (List.getElem?_eq_some_iff.mp hv).1
      have hb := List.getElem?_eq_getElem hi
      have hfi := hfit i _ v hb hv
      have hh := h.here i _ hb
      revert hfi
      unfold record there fits
      cases hts : v.ts <;> simp only [] <;> intro hfi
      · simp [hts]
      · simp [hts]
      · simp only [Bool.and_eq_true] at hfi
        simp [hfi.2, hts]
      · have := hh.mp hfi
        simp [this, hts]
      · have := hh.mp hfi
        simp [this, hts]
      · simp [hts]
  · intro i u hu
    rw [handleFrame_touches] at hu
    have hi : i < s.touches.length := by
      rw [← handleLoop_length s.geo s.edges s.qPress s.qRelease t vs]
      exact (List.getElem?_eq_some_iff.mp hu).1
    have hsi : s.touches[i]? = some s.touches[i] := List.getElem?_eq_getElem hi
    have hiv : i < vs.length := by rw [hl, ← h.len]; exact hi
    have hvi : vs[i]? = some vs[i] := List.getElem?_eq_getElem hiv
    obtain ⟨t', h1, h2⟩ := handleLoop_get s.geo s.edges s.qPress s.qRelease t vs s.touches i hvi hsi
    rw [h1] at hu
    obtain rfl := Option.some.inj hu
    have hc := h.core i _ hsi
    have hih : i < hs.length := by rw [← h.len]; exact hi
    have hb := List.getElem?_eq_getElem hih
    have hfi := hfit i _ _ hb hvi
    have hh := h.here i _ hb
    rw [h2, handleOne_core]
    simp only [hvi]
    generalize vs[i] = v at hfi ⊢
    generalize s.touches[i] = t0 at hc ⊢
    revert hfi
    have hnone : ∀ b : Bool, hs[i] = b → b = false → t0.core = (⟨.none, none, none⟩ : Core) := by
      intro b hb1 hb2
      have : ¬ H i ≠ [] := fun k => by have := hh.mpr k; rw [hb1, hb2] at this; cases this
      rw [hc, Decidable.not_not.mp this]
      rfl
    unfold fits record
    cases hts : v.ts <;> simp only [] <;> intro hfi
    · simp only [true_or, if_true, List.foldl_nil]
      exact hnone _ rfl (by simpa using hfi)
    · simp only [or_true, if_true, List.foldl_nil]
      exact hnone _ rfl (by simpa using hfi)
    · simp only [reduceCtorEq, or_self, if_false, if_true, List.nil_append]
      simp only [Bool.and_eq_true] at hfi
      exact foldl_feel_core _ (hnone _ rfl (by simpa using hfi.1))
    · simp only [reduceCtorEq, or_self, if_false, List.foldl_append]
      exact foldl_feel_core _ (foldl_feel_core _ hc)
    · simp only [reduceCtorEq, or_self, if_false, List.foldl_append]
      exact foldl_feel_core _ (foldl_feel_core _ hc)
    · simp only [reduceCtorEq, or_self, if_false, if_true, List.foldl_nil]
      rfl

theorem lifted_core {s : Pad} {hs : List Bool} {H : Nat → List Item} {t : Nat} {vs : List View}
    (h : SlotInv s hs H) (hf : fitsAll hs vs = true) (hv : vs.all lifted = true) :
    SlotInv (clearState s t vs).1 (hs.map fun _ => false) (fun _ => []) := by
  have hr : SlotInv (releaseAll s) hs H := h.congr (releaseAll_fields s).2.2.2.2.2.2.2.2.2
  have hk := frame_slots hr t hf
  obtain ⟨hl, -⟩ := fitsAll_get hf
  refine ⟨fun _ => Or.inl rfl, ?_, ?_, ?_⟩
  · have := hk.len
    rw [List.length_map] at this ⊢
    rw [← hl]; exact this
  · intro i b hb
    rw [List.getElem?_map] at hb
    cases hx : hs[i]? with
    | none => rw [hx] at hb; cases hb
    | some x => rw [hx] at hb; simp at hb; simp [← hb]
  · intro i u hu
    have hc := hk.core i u hu
    have hi : i < vs.length := by
      have := hk.len
      rw [List.length_map] at this
      rw [← this]
      exact (List.getElem?_eq_some_iff.mp hu).1
    rw [hc]
    simp only [List.getElem?_eq_getElem hi]
    have hlift : lifted vs[i] = true := List.all_eq_true.mp hv _ (List.getElem_mem hi)
    have : record (releaseAll s).edges (releaseAll s).qPress t vs[i] (H i) = [] := by
      unfold record
      unfold lifted at hlift
      cases hts : vs[i].ts <;> simp [hts] at hlift ⊢
    rw [this]

theorem still_slots {s : Pad} {hs : List Bool} {t : Nat} (vs : List View) (f : View → View)
    (hf : ∀ v, (f v).ts = .none) (hl : vs.length = hs.length)
    (h : SlotInv s (hs.map fun _ => false) (fun _ => [])) :
    SlotInv (clearState s t (vs.map f)).1 (hs.map fun _ => false) (fun _ => []) := by
  have := lifted_core (t := t) h (vs := vs.map f) (by
    clear h
    induction vs generalizing hs with
    | nil =>
      cases hs with
      | nil => rfl
      | cons => simp at hl
    | cons v vs ih =>
      cases hs with
      | nil => simp at hl
      | cons b hs =>
        simp only [List.map_cons, fitsAll, Bool.and_eq_true]
        refine ⟨by simp [fits, hf], ih (by simpa using hl)⟩) (by
    rw [List.all_map, List.all_eq_true]
    intro v _
    simp [lifted, hf])
  rw [List.map_map] at this
  exact this

theorem handleFrame_susp (s : Pad) (t : Nat) (vs : List View) : (handleFrame s t vs).1.suspended = s.suspended := by
  rw [handleFrame_eq]
  show (applyMiddle _).suspended = _
  rw [(applyMiddle_fields _).2.2.1]
  exact (postButtons_hasTop _ t vs).2.2.2

/-- Whether the touchpad is suspended. -/
theorem step_susp (s : Pad) (op : Op) (e : Env) (hs : s.suspended = e.suspended) :
    (step s op).1.suspended = (e.follow s.hasTop op).suspended := by
  cases op with
  | button v =>
    simp only [step, Env.follow]
    repeat' split
    all_goals first | exact hs | (unfold processButton; split <;> exact hs)
  | frame t vs =>
    simp only [step, Env.follow]
    repeat' split
    all_goals first | exact hs | exact (handleFrame_susp s t vs).trans hs
  | timeout now i =>
    simp only [step, Env.follow]
    repeat' split
    all_goals exact hs
  | setMethod m => exact (setMethod_fields s m).2.2.1.trans hs
  | setMiddle b => exact (applyMiddle_fields _).2.2.1.trans hs
  | setLeft b => exact (applyLeft_fields _).2.2.1.trans hs
  | applyLeft => exact (applyLeft_fields _).2.2.1.trans hs
  | suspend t vs =>
    simp only [step, Env.follow, hs]
    split
    · exact hs
    · split
      · exact (initTop_fields _ _).2.2.1
      · rfl
  | resume t vs =>
    simp only [step, Env.follow, hs]
    split
    · exact hs
    · split <;> rfl
  | addTrackpoint => simp only [step, Env.follow]; split <;> exact hs
  | removeTrackpoint =>
    simp only [step, Env.follow]
    split
    · exact hs
    · split <;> exact hs

/-- A timer keeps the records right. -/
theorem timeout_slots {s : Pad} {hs : List Bool} {H : Nat → List Item} (h : SlotInv s hs H) (now j : Nat) :
    SlotInv (step s (.timeout now j)).1 hs (fun i => follow i s (H i) (.timeout now j)) := by
  have hget : ∀ (i : Nat) (u : Touch), (step s (.timeout now j)).1.touches[i]? = some u →
      ∃ t, s.touches[i]? = some t ∧ u.core = (if i = j then (feel t (.tick now)).core else t.core) := by
    intro i u hu
    simp only [step] at hu
    cases hj : s.touches[j]? with
    | none =>
      rw [hj] at hu
      refine ⟨u, hu, ?_⟩
      split
      · next hij => subst hij; rw [hj] at hu; cases hu
      · rfl
    | some t =>
      rw [hj] at hu
      simp only at hu
      cases ht : t.timer with
      | none =>
        rw [ht] at hu
        refine ⟨u, hu, ?_⟩
        split
        · next hij =>
          subst hij
          rw [hj] at hu
          obtain rfl := Option.some.inj hu
          simp [feel, ht]
        · rfl
      | some e =>
        rw [ht] at hu
        simp only at hu
        by_cases hle : e ≤ now
        · rw [if_pos hle] at hu
          simp only [List.getElem?_set] at hu
          by_cases hij : i = j
          · subst hij
            have hlt : i < s.touches.length := (List.getElem?_eq_some_iff.mp hj).1
            simp only [if_true, hlt, Option.some.injEq] at hu
            refine ⟨t, hj, ?_⟩
            subst hu
            simp [feel, ht, hle]
          · rw [if_neg (Ne.symm hij)] at hu
            exact ⟨u, hu, by simp [hij]⟩
        · rw [if_neg hle] at hu
          refine ⟨u, hu, ?_⟩
          split
          · next hij =>
            subst hij
            rw [hj] at hu
            obtain rfl := Option.some.inj hu
            simp [feel, ht, hle]
          · rfl
  have hlen : (step s (.timeout now j)).1.touches.length = s.touches.length := by
    simp only [step]
    repeat' split
    all_goals simp
  refine ⟨?_, hlen.trans h.len, ?_, ?_⟩
  · intro i
    simp only [follow]
    split
    · next k =>
      obtain ⟨z, t, r, hr⟩ := (h.first i).resolve_left k.2
      exact Or.inr ⟨z, t, r ++ [.tick now], by rw [hr]; rfl⟩
    · exact h.first i
  · intro i b hb
    rw [h.here i b hb]
    simp only [follow]
    split
    · next k => simp [k.2]
    · rfl
  · intro i u hu
    obtain ⟨t, ht, huc⟩ := hget i u hu
    have hc := h.core i t ht
    rw [huc]
    simp only [follow]
    by_cases hij : i = j
    · rw [if_pos hij]
      by_cases hne : H i = []
      · rw [if_neg (by simp [hne])]
        rw [hne] at hc ⊢
        have : t.timer = none := congrArg Core.timer hc
        simp only [feel, this]
        exact hc
      · rw [if_pos ⟨hij, hne⟩, List.foldl_append]
        exact feel_core hc _
    · rw [if_neg hij, if_neg (by simp [hij])]
      exact hc

/-- A history keeps the records right. -/
theorem run_slots (ops : List Op) {s : Pad} {e : Env} {hs : List Bool} {H : Nat → List Item}
    (he : s.suspended = e.suspended) (h : SlotInv s hs H) (hp : Possible s.hasTop e hs ops) :
    ∃ hs', SlotInv (run s ops).1 hs' (fun i => history i s (H i) ops) := by
  induction ops generalizing s e hs H with
  | nil => exact ⟨hs, h⟩
  | cons op ops ih =>
    have hsu := step_susp s op e he
    have hto := step_hasTop s op
    show ∃ hs', SlotInv (run (step s op).1 ops).1 hs' (fun i => history i (step s op).1 (follow i s (H i) op) ops)
    have key : ∀ hs1 : List Bool, SlotInv (step s op).1 hs1 (fun i => follow i s (H i) op) →
        Possible s.hasTop (e.follow s.hasTop op) hs1 ops →
        ∃ hs', SlotInv (run (step s op).1 ops).1 hs'
          (fun i => history i (step s op).1 (follow i s (H i) op) ops) := by
      intro hs1 h1 h2
      rw [← hto] at h2
      exact ih (hto ▸ hsu) h1 h2
    have hcl : s.closed = !(e.read s.hasTop) := by
      unfold Pad.closed Env.read
      rw [he]
      cases e.suspended <;> cases s.hasTop <;> rfl
    cases op with
    | button v =>
      refine key hs (h.congr ?_) hp
      simp only [step]
      split
      · rfl
      · unfold processButton; split <;> rfl
    | frame t vs =>
      simp only [Possible] at hp
      cases hr : e.read s.hasTop with
      | false =>
        rw [hr] at hp
        refine key hs ?_ (by simpa using hp)
        simp only [step, follow, hcl, hr, Bool.not_false, if_true]
        exact h
      | true =>
        rw [hr] at hp
        simp only [if_true] at hp
        refine key _ ?_ hp.2
        simp only [step, follow, hcl, hr, Bool.not_true, Bool.false_eq_true, if_false]
        exact frame_slots h t hp.1
    | timeout now j =>
      exact key hs (timeout_slots h now j) hp
    | setMethod m => exact key hs (h.congr (setMethod_fields s m).2.2.2.2.2.2.2.2.2) hp
    | setMiddle b => exact key hs (h.congr (applyMiddle_fields { s with emulWant := b }).2.2.2.2.2.2.2.2.2.1) hp
    | setLeft b => exact key hs (h.congr (applyLeft_fields { s with leftWant := b }).2.2.2.2.2.2.2.2.2) hp
    | applyLeft => exact key hs (h.congr (applyLeft_fields s).2.2.2.2.2.2.2.2.2) hp
    | suspend t vs =>
      simp only [Possible, ← he] at hp
      cases hq : s.suspended with
      | true =>
        rw [hq] at hp
        refine key hs ?_ (by simpa using hp)
        simp only [step, follow, hq, if_true]
        exact h
      | false =>
        rw [hq] at hp
        simp only [Bool.false_eq_true, if_false] at hp
        refine key _ ?_ hp.2
        have h1 := lifted_core (t := t) h hp.1.1 hp.1.2
        simp only [step, follow, hq, Bool.false_eq_true, if_false]
        split
        · exact h1.congr (initTop_fields _ _).2.2.2.2.2.2.2.2.2
        · exact (still_slots (t := t) vs _ (fun _ => rfl) (fitsAll_get hp.1.1).1 h1).congr rfl
    | resume t vs =>
      simp only [Possible, ← he] at hp
      cases hq : s.suspended with
      | false =>
        rw [hq] at hp
        refine key hs ?_ (by simpa using hp)
        simp only [step, follow, hq, Bool.not_false, if_true, Bool.false_and, Bool.false_eq_true, if_false]
        exact h
      | true =>
        rw [hq] at hp
        cases ht : s.hasTop with
        | true =>
          rw [ht] at hp
          simp only [Bool.and_self, if_true] at hp
          refine key _ ?_ (ht ▸ hp.2)
          have h1 := lifted_core (t := t) h hp.1.1 hp.1.2
          simp only [step, follow, hq, ht, Bool.not_true, Bool.and_self, Bool.false_eq_true, if_false, if_true]
          exact h1.congr (initTop_fields _ _).2.2.2.2.2.2.2.2.2
        | false =>
          rw [ht] at hp
          refine key hs ?_ (by rw [ht]; simpa using hp)
          simp only [step, follow, hq, ht, Bool.not_true, Bool.and_false, Bool.false_eq_true, if_false]
          exact h.congr rfl
    | addTrackpoint =>
      refine key hs (h.congr ?_) hp
      simp only [step]
      split <;> rfl
    | removeTrackpoint =>
      refine key hs (h.congr ?_) hp
      simp only [step]
      split
      · rfl
      · split <;> rfl

end Libinput.SoftButtons
