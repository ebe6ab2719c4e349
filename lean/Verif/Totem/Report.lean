import Verif.Totem.Spec

/-! # A report of the kernel -/
namespace Libinput.Totem
open Spec

theorem rotation_eq (v : Int) (h : v ≤ 360) : (360 - v).tmod 360 = (-v) % 360 := by
  rw [Int.tmod_eq_emod_of_nonneg (by omega)]
  omega

/-- A slot between reports. -/
structure SlotOk (D : Device) (k : Kern) (x : Slot) : Prop where
  off : down k = false → x.state = .none
  on : down k = true → x.state = .update ∧ x.tool = true ∧ x.axes = axesOf D k ∧ x.lastX = k.x ∧ x.lastY = k.y ∧ x.changed = {}
  angle : k.orient ≤ 360
  id : -1 ≤ k.tracking

/-- A slot within a report: it was `k0`, and the axes `ch` were mentioned. -/
structure SlotMid (D : Device) (k0 k : Kern) (x : Slot) (ch : Changed) : Prop where
  state : x.state = match down k0, down k with
    | false, false => .none
    | false, true => .begin
    | true, true => .update
    | true, false => .ending
  on : down k0 = true → x.tool = true ∧ x.axes = axesOf D k0 ∧ x.lastX = k0.x ∧ x.lastY = k0.y ∧ x.changed = ch
  hx : ch.x = false → k.x = k0.x
  hy : ch.y = false → k.y = k0.y
  hr : ch.rotation = false → k.orient = k0.orient
  hM : ch.major = false → k.major = k0.major
  hm : ch.minor = false → k.minor = k0.minor
  angle : k.orient ≤ 360
  id : -1 ≤ k.tracking

/-- While standing, fetching brings the axes up to date. -/
theorem fetch_on {D : Device} {k0 k : Kern} {x : Slot} {ch : Changed} (h : SlotMid D k0 k x ch) (hd : down k0 = true) :
    fetch D k x = ({ x with axes := axesOf D k }, k.x - k0.x, k.y - k0.y, decide (ch ≠ {})) := by
  obtain ⟨ht, ha, hx, hy, hc⟩ := h.on hd
  unfold fetch
  rw [hc]
  by_cases he : ch = {}
  · subst he
    have e1 := h.hx rfl
    have e2 := h.hy rfl
    have e3 := h.hr rfl
    have e4 := h.hM rfl
    have e5 := h.hm rfl
    have : axesOf D k = x.axes := by rw [ha]; unfold axesOf; rw [e1, e2, e3, e4, e5]
    rw [this]
    simp only [e1, e2, if_true, Int.sub_self]
    rw [show decide ((({} : Changed)) ≠ {}) = false by decide]
    cases x
    simp only at hc
    rw [hc]
  · rw [if_neg he]
    have key : (let a := x.axes
      let a := if ch.x || ch.y then { a with x := k.x, y := k.y } else a
      let a := if ch.rotation then { a with rotation := (360 - k.orient).tmod 360 } else a
      if ch.major || ch.minor then { a with major := size k.major D.resMajor, minor := size k.minor D.resMinor } else a) = axesOf D k := by
      rw [ha, rotation_eq _ h.angle]
      obtain ⟨hst, hon, q1, q2, q3, q4, q5, q6, q7⟩ := h
      obtain ⟨cx, cy, cr, cM, cm⟩ := ch
      simp only at q1 q2 q3 q4 q5 ⊢
      unfold axesOf size
      cases cx <;> cases cy <;> cases cr <;> cases cM <;> cases cm <;> simp_all
    simp only [] at key ⊢
    rw [key, hx, hy]
    simp [axesOf, he]

theorem fetch_all {D : Device} {k : Kern} {x : Slot} (hc : x.changed = allChanged) (hx : x.lastX = k.x) (hy : x.lastY = k.y) (ha : k.orient ≤ 360) :
    fetch D k x = ({ x with axes := axesOf D k }, 0, 0, true) := by
  unfold fetch
  rw [hc, if_neg (by decide)]
  simp [allChanged, hx, hy, axesOf, size, rotation_eq _ ha]

/-- A slot at the end of a report. -/
theorem handleSlot_spec {D : Device} {k0 k : Kern} {x : Slot} {ch : Changed} (h : SlotMid D k0 k x ch) (now prev : Bool) (i : Nat) :
    ∃ y, handleSlot D now i k x prev = some (y, (if down k0 || down k then now else prev),
      slotEvents D i k0 k ch (if (down k0 || down k) && now != prev then some now else none)) ∧ SlotOk D k y ∧ y.tool = (x.tool || down k) := by
  have hst := h.state
  have hbeg := h.angle
  cases h0 : down k0 <;> cases h1 : down k <;> rw [h0, h1] at hst <;> simp only at hst
  · refine ⟨x, ?_, ⟨fun _ => hst, fun e => (by rw [h1] at e; cases e), h.angle, h.id⟩, by simp⟩
    simp [handleSlot, prepare, hst, slotEvents, h0, h1]
  · obtain ⟨Y, hp, y1, y2, y3, y4, y5⟩ : ∃ Y, prepare k x = some Y ∧ Y.state = .begin ∧ Y.tool = true ∧ Y.changed = allChanged ∧ Y.lastX = k.x ∧ Y.lastY = k.y := by
      unfold prepare
      rw [hst]
      exact ⟨_, rfl, rfl, rfl, rfl, rfl, rfl⟩
    have hf := fetch_all (D := D) y3 y4 y5 h.angle
    refine ⟨⟨.update, true, axesOf D k, {}, k.x, k.y⟩, ?_, ⟨fun e => (by rw [h1] at e; cases e), fun _ => ⟨rfl, rfl, rfl, rfl, rfl, rfl⟩, h.angle, h.id⟩, by simp⟩
    unfold handleSlot
    rw [hp]
    simp only
    rw [if_neg (by rw [y1]; simp), hf]
    simp only [middle, y1, finish, slotEvents, h0, h1, Bool.or_true, Bool.true_and, if_true, y2, y3]
    cases now <;> cases prev <;> simp [axesOf, allChanged]
  · have hf := fetch_on h h0
    obtain ⟨ht, ha, hx, hy, hc⟩ := h.on h0
    refine ⟨{ x with state := .none, changed := {}, axes := axesOf D k, lastX := k.x, lastY := k.y }, ?_, ⟨fun _ => rfl, fun e => (by rw [h1] at e; cases e), h.angle, h.id⟩, by simp⟩
    unfold handleSlot
    simp only [prepare, hst, ht, if_true]
    simp only [hf, middle, hst, finish, slotEvents, h0, h1, Bool.or_false, Bool.true_and, if_true, reduceCtorEq, if_false]
    cases now <;> cases prev <;> simp [axesOf, hc, ht]
  · have hf := fetch_on h h0
    obtain ⟨ht, ha, hx, hy, hc⟩ := h.on h0
    refine ⟨{ x with state := .update, changed := {}, axes := axesOf D k, lastX := k.x, lastY := k.y }, ?_,
      ⟨fun e => (by rw [h1] at e; cases e), fun _ => ⟨rfl, ht, rfl, rfl, rfl, rfl⟩, h.angle, h.id⟩, by simp [ht]⟩
    unfold handleSlot
    simp only [prepare, hst, ht, if_true]
    simp only [hf, middle, hst, finish, slotEvents, h0, h1, Bool.or_true, Bool.true_and, if_true, reduceCtorEq, if_false]
    by_cases he : ch = {} <;> cases now <;> cases prev <;> simp [axesOf, hc, he, ht]

/-- All slots at the end of a report. -/
theorem handleAll_spec {D : Device} (now : Bool) (ch : Nat → Changed) (ks0 ks : List Kern) (xs : List Slot) (i : Nat) (prev : Bool) (hl0 : ks0.length = ks.length)
    (hl : xs.length = ks.length)
    (h : ∀ (j : Nat) k0 k x, ks0[j]? = some k0 → ks[j]? = some k → xs[j]? = some x → SlotMid D k0 k x (ch (i + j))) :
    ∃ ys prev', handleAll D now i ks xs prev = some (ys, prev', slotsEvents D now ch i ks0 ks prev) ∧ ys.length = ks.length ∧
      (∀ (j : Nat) k y, ks[j]? = some k → ys[j]? = some y → SlotOk D k y) ∧
      (∀ (j : Nat) k (x y : Slot), ks[j]? = some k → xs[j]? = some x → ys[j]? = some y → y.tool = (x.tool || down k)) ∧
      prev' = (if ks0.any down || ks.any down then now else prev) := by
  induction ks generalizing ks0 xs i prev with
  | nil =>
    cases ks0 with
    | cons _ _ => simp at hl0
    | nil =>
      cases xs with
      | cons _ _ => simp at hl
      | nil => exact ⟨[], prev, rfl, rfl, by simp, by simp, by simp⟩
  | cons k ks ih =>
    cases ks0 with
    | nil => simp at hl0
    | cons k0 ks0 =>
      cases xs with
      | nil => simp at hl
      | cons x xs =>
        obtain ⟨y, e1, e2, e3⟩ := handleSlot_spec (h 0 k0 k x rfl rfl rfl) now prev i
        obtain ⟨ys, prev', f1, f2, f3, f4, f5⟩ := ih ks0 xs (i + 1) (if down k0 || down k then now else prev) (by simpa using hl0) (by simpa using hl) (by
          intro j k0' k' x' a b c
          have := h (j + 1) k0' k' x' (by simpa using a) (by simpa using b) (by simpa using c)
          rwa [show i + (j + 1) = i + 1 + j by omega] at this)
        refine ⟨y :: ys, prev', ?_, by simp [f2], ?_, ?_, ?_⟩
        · unfold handleAll
          rw [e1]
          simp only [f1, slotsEvents, Nat.add_zero]
        · intro j k' y' a b
          cases j with
          | zero => simp at a b; subst a; subst b; exact e2
          | succ j => exact f3 j k' y' (by simpa using a) (by simpa using b)
        · intro j k' x' y' a b c
          cases j with
          | zero => simp at a b c; subst a; subst b; subst c; exact e3
          | succ j => exact f4 j k' x' y' (by simpa using a) (by simpa using b) (by simpa using c)
        · rw [f5]
          simp only [List.any_cons]
          have : ∀ a b c d : Bool, (if (c || d) = true then now else if (a || b) = true then now else prev) = if (a || c || (b || d)) = true then now else prev := by
            intro a b c d; cases a <;> cases b <;> cases c <;> cases d <;> rfl
          exact this _ _ _ _

end Libinput.Totem
