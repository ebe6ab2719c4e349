import Verif.Totem.Steps

/-! # What was told, in careful histories -/
namespace Libinput.Totem
open Spec

/-- The phase of slot `j`. -/
def ph (ks : List Kern) (j : Nat) : Phase := if (ks[j]?).any down then .standing else .away

theorem slot_follow (D : Device) (l : Bool) (j i : Nat) (k0 k1 : Kern) (ch : Changed) (press : Option Bool) (p : Phase)
    (hp : j = i → p = if down k0 then .standing else .away) :
    (slotEvents D i k0 k1 ch press).foldlM (follow l j) p = some (if j = i then if down k1 then .standing else .away else p) := by
  by_cases hj : j = i
  · subst hj
    rw [hp rfl]
    unfold slotEvents
    cases down k0 <;> cases down k1 <;> cases press <;> simp [follow, List.foldlM] <;> by_cases hc : ch = {} <;> simp [hc, follow, List.foldlM]
  · have hj' : i ≠ j := fun e => hj e.symm
    unfold slotEvents
    rw [if_neg hj]
    cases down k0 <;> cases down k1 <;> cases press <;> simp [follow, List.foldlM, hj'] <;> by_cases hc : ch = {} <;> simp [hc, follow, List.foldlM, hj']

theorem slots_follow (D : Device) (l now : Bool) (ch : Nat → Changed) (ks0 ks1 : List Kern) (hl : ks0.length = ks1.length) (i : Nat) (prev : Bool) (j : Nat) (p : Phase)
    (hp : i ≤ j → p = ph ks0 (j - i)) :
    (slotsEvents D now ch i ks0 ks1 prev).foldlM (follow l j) p = some (if i ≤ j then ph ks1 (j - i) else p) := by
  induction ks0 generalizing ks1 i prev p with
  | nil =>
    cases ks1 with
    | cons _ _ => simp at hl
    | nil =>
      simp only [slotsEvents, List.foldlM_nil, Option.pure_def, Option.some.injEq]
      split
      · rw [hp ‹_›]
      · rfl
  | cons k0 ks0 ih =>
    cases ks1 with
    | nil => simp at hl
    | cons k1 ks1 =>
      simp only [slotsEvents, List.foldlM_append]
      rw [slot_follow D l j i k0 k1 _ _ p (by
        intro e
        rw [hp (by omega), e, Nat.sub_self]
        rfl)]
      simp only [Option.bind_eq_bind, Option.bind_some]
      rw [ih ks1 (by simpa using hl) (i + 1) _ _ (by
        intro hij
        rw [if_neg (by omega), hp (by omega)]
        unfold ph
        rw [show j - i = (j - (i + 1)) + 1 by omega, List.getElem?_cons_succ])]
      by_cases h1 : i + 1 ≤ j
      · rw [if_pos h1, if_pos (by omega)]
        unfold ph
        rw [show j - i = (j - (i + 1)) + 1 by omega, List.getElem?_cons_succ]
      · rw [if_neg h1]
        by_cases h2 : j = i
        · subst h2
          rw [if_pos rfl, if_pos (Nat.le_refl _), Nat.sub_self]
          rfl
        · rw [if_neg h2, if_neg (by omega)]

/-- No calls of the touch device. -/
def forClient : Ev → Bool
  | .toggle _ _ _ => false
  | .updateRect _ _ => false
  | _ => true

theorem slots_client (D : Device) (now : Bool) (ch : Nat → Changed) (ks0 ks1 : List Kern) (i : Nat) (prev : Bool) :
    ∀ e ∈ slotsEvents D now ch i ks0 ks1 prev, forClient e = true := by
  induction ks0 generalizing ks1 i prev with
  | nil => intro e he; simp [slotsEvents] at he
  | cons k0 ks0 ih =>
    cases ks1 with
    | nil => intro e he; simp [slotsEvents] at he
    | cons k1 ks1 =>
      intro e he
      simp only [slotsEvents, List.mem_append] at he
      rcases he with he | he
      · revert he
        generalize (if (down k0 || down k1) && now != prev then some now else none) = press
        unfold slotEvents
        cases down k0 <;> cases down k1 <;> cases press <;> by_cases hc : ch i = {} <;> simp [hc] <;> intro he <;> rcases he with rfl | rfl | rfl <;> rfl
      · exact ih ks1 _ _ e he

theorem told_client (id : Nat) (a : Arb) (evs : List Ev) (h : ∀ e ∈ evs, forClient e = true) : told id a evs = a := by
  induction evs with
  | nil => rfl
  | cons e evs ih =>
    have h1 := h e List.mem_cons_self
    have h2 := ih fun e he => h e (List.mem_cons_of_mem _ he)
    cases e <;> first | exact h2 | cases h1

theorem told_append (id : Nat) (a : Arb) (xs ys : List Ev) : told id a (xs ++ ys) = told id (told id a xs) ys := by
  induction xs generalizing a with
  | nil => rfl
  | cons e xs ih => cases e <;> exact ih _

theorem buttonTold_append (b : Bool) (xs ys : List Ev) : buttonTold b (xs ++ ys) = buttonTold (buttonTold b xs) ys := by
  induction xs generalizing b with
  | nil => rfl
  | cons e xs ih => cases e <;> exact ih _

theorem alternate_append (b : Bool) (xs ys : List Ev) : Alternate b (xs ++ ys) ↔ Alternate b xs ∧ Alternate (buttonTold b xs) ys := by
  induction xs generalizing b with
  | nil => simp [Alternate, buttonTold]
  | cons e xs ih => cases e <;> simp [Alternate, buttonTold, ih, and_assoc]

theorem slot_button (D : Device) (i : Nat) (k0 k1 : Kern) (ch : Changed) (now prev : Bool) :
    buttonTold prev (slotEvents D i k0 k1 ch (if (down k0 || down k1) && now != prev then some now else none)) = (if down k0 || down k1 then now else prev) ∧
    Alternate prev (slotEvents D i k0 k1 ch (if (down k0 || down k1) && now != prev then some now else none)) := by
  unfold slotEvents
  cases down k0 <;> cases down k1 <;> cases now <;> cases prev <;> by_cases hc : ch = {} <;> simp [buttonTold, Alternate, hc]

theorem slots_button (D : Device) (now : Bool) (ch : Nat → Changed) (ks0 ks1 : List Kern) (hl : ks0.length = ks1.length) (i : Nat) (prev : Bool) :
    buttonTold prev (slotsEvents D now ch i ks0 ks1 prev) = (if ks0.any down || ks1.any down then now else prev) ∧ Alternate prev (slotsEvents D now ch i ks0 ks1 prev) := by
  induction ks0 generalizing ks1 i prev with
  | nil =>
    cases ks1 with
    | cons _ _ => simp at hl
    | nil => simp [slotsEvents, buttonTold, Alternate]
  | cons k0 ks0 ih =>
    cases ks1 with
    | nil => simp at hl
    | cons k1 ks1 =>
      obtain ⟨a, b⟩ := slot_button D i k0 k1 (ch i) now prev
      obtain ⟨c, d⟩ := ih ks1 (by simpa using hl) (i + 1) (if down k0 || down k1 then now else prev)
      simp only [slotsEvents]
      refine ⟨?_, ?_⟩
      · rw [buttonTold_append, a, c]
        simp only [List.any_cons]
        have : ∀ a b c d : Bool, (if (c || d) = true then now else if (a || b) = true then now else prev) = if (a || c || (b || d)) = true then now else prev := by
          intro a b c d; cases a <;> cases b <;> cases c <;> cases d <;> rfl
        exact this _ _ _ _
      · rw [alternate_append, a]
        exact ⟨b, d⟩

/-! ### Suspending -/

theorem suspend_follow {D : Device} {i : Nat} {ks : List Kern} {xs : List Slot} {now : Bool} {evs : List Ev} (h : SuspendEvents D i ks xs now evs)
    (hok : ∀ (j : Nat) k x, ks[j]? = some k → xs[j]? = some x → SlotOk D k x) (j : Nat) (p : Phase) (hp : i ≤ j → p = ph ks (j - i)) :
    evs.foldlM (follow true j) p = some (if i ≤ j then .away else p) := by
  induction h generalizing p with
  | nil =>
    simp only [List.foldlM_nil, Option.pure_def, Option.some.injEq]
    split
    · rw [hp ‹_›]; rfl
    · rfl
  | @without i k ks x xs now evs ht h ih =>
    have ok := hok 0 k x rfl rfl
    have hd : down k = false := by
      cases hd : down k with
      | false => rfl
      | true => rw [(ok.on hd).2.1] at ht; cases ht
    rw [ih (fun j k' x' a b => hok (j + 1) k' x' (by simpa using a) (by simpa using b)) p (by
      intro hij
      rw [hp (by omega)]
      unfold ph
      rw [show j - i = (j - (i + 1)) + 1 by omega, List.getElem?_cons_succ])]
    by_cases h1 : i + 1 ≤ j
    · rw [if_pos h1, if_pos (by omega)]
    · rw [if_neg h1]
      by_cases h2 : i ≤ j
      · have : j = i := by omega
        rw [if_pos h2, hp h2, this, Nat.sub_self]
        simp [ph, hd]
      · rw [if_neg h2]
  | @standing i k ks x xs now evs ht hd h ih =>
    have ih' := ih (fun j k' x' a b => hok (j + 1) k' x' (by simpa using a) (by simpa using b))
    rw [List.foldlM_append]
    by_cases h2 : i = j
    · subst h2
      have hp' := hp (Nat.le_refl _)
      rw [Nat.sub_self] at hp'
      have : p = .standing := by rw [hp']; simp [ph, hd]
      subst this
      have := ih' .away (by intro; omega)
      rw [if_neg (by omega)] at this
      rw [if_pos (Nat.le_refl _)]
      cases now <;> simp [follow, List.foldlM, this]
    · have hq : ((if now then [Ev.button i true (axesOf D k) 0 0 false] else []) ++ [Ev.tip i false {} (axesOf D k) 0 0, Ev.prox i false {} (axesOf D k) 0 0]).foldlM (follow true j) p = some p := by
        cases now <;> simp [follow, List.foldlM, h2]
      rw [hq]
      simp only [Option.bind_eq_bind, Option.bind_some]
      rw [ih' p (by
        intro hij
        rw [hp (by omega)]
        unfold ph
        rw [show j - i = (j - (i + 1)) + 1 by omega, List.getElem?_cons_succ])]
      by_cases h1 : i + 1 ≤ j
      · rw [if_pos h1, if_pos (by omega)]
      · rw [if_neg h1, if_neg (by omega)]
  | @away i k ks x xs now evs a dx dy ht hd h ih =>
    have ih' := ih (fun j k' x' a b => hok (j + 1) k' x' (by simpa using a) (by simpa using b))
    rw [List.foldlM_append]
    by_cases h2 : i = j
    · subst h2
      have hp' := hp (Nat.le_refl _)
      rw [Nat.sub_self] at hp'
      have : p = .away := by rw [hp']; simp [ph, hd]
      subst this
      have := ih' .away (by intro; omega)
      rw [if_neg (by omega)] at this
      rw [if_pos (Nat.le_refl _)]
      cases now <;> simp [follow, List.foldlM, this]
    · have hq : ((if now then [Ev.button i false a dx dy false] else []) ++ [Ev.prox i false {} a dx dy]).foldlM (follow true j) p = some p := by
        cases now <;> simp [follow, List.foldlM, h2]
      rw [hq]
      simp only [Option.bind_eq_bind, Option.bind_some]
      rw [ih' p (by
        intro hij
        rw [hp (by omega)]
        unfold ph
        rw [show j - i = (j - (i + 1)) + 1 by omega, List.getElem?_cons_succ])]
      by_cases h1 : i + 1 ≤ j
      · rw [if_pos h1, if_pos (by omega)]
      · rw [if_neg h1, if_neg (by omega)]

theorem suspend_client {D : Device} {i : Nat} {ks : List Kern} {xs : List Slot} {now : Bool} {evs : List Ev} (h : SuspendEvents D i ks xs now evs) :
    (∀ e ∈ evs, forClient e = true) ∧ ∀ b, buttonTold b evs = (b && !(now && xs.any Slot.tool)) := by
  induction h with
  | nil => simp [buttonTold]
  | without ht _ ih => exact ⟨ih.1, fun b => by rw [ih.2]; simp [ht]⟩
  | @standing i k ks x xs now evs ht _ _ ih =>
    constructor
    · intro e he
      rcases List.mem_append.mp he with he | he
      · cases now <;> simp at he <;> rcases he with rfl | rfl | rfl <;> rfl
      · exact ih.1 e he
    · intro b
      rw [buttonTold_append, ih.2]
      cases now <;> simp [buttonTold, ht]
  | @away i k ks x xs now evs a dx dy ht _ _ ih =>
    constructor
    · intro e he
      rcases List.mem_append.mp he with he | he
      · cases now <;> simp at he <;> rcases he with rfl | rfl <;> rfl
      · exact ih.1 e he
    · intro b
      rw [buttonTold_append, ih.2]
      cases now <;> simp [buttonTold, ht]

end Libinput.Totem
