import Verif.Mouse.Careful
set_option linter.unusedSimpArgs false
set_option linter.unusedVariables false
/-
From the combined stream of button and key events to the two streams the caller sees.
-/
namespace Libinput.Mouse
open Libinput.Spec Libinput.Alt Libinput.Mouse.Spec
open Libinput.Buttons (Call Ev Stop Counts)

variable {R : Type}

theorem historyOf_cons (k : Nat) (e : Edge Nat) (es : List (Edge Nat)) :
    historyOf k (e :: es) = if e.key = k then e.down :: historyOf k es else historyOf k es := by
  unfold historyOf
  by_cases h : e.key = k <;> simp [h]

theorem kindOk_cons {o : Out R} {os : List (Out R)} (h : KindOk (o :: os)) : KindOk os :=
  ⟨fun e he => h.1 e (List.mem_cons_of_mem _ he), fun e he => h.2 e (List.mem_cons_of_mem _ he)⟩

theorem history_buttons {os : List (Out R)} (h : KindOk os) (k : Nat) :
    historyOf k (buttons os) = if getKeyType k = .button then historyOf k (edges os) else [] := by
  induction os with
  | nil => simp [buttons, edges, historyOf]
  | cons o os ih =>
    have ih := ih (kindOk_cons h)
    cases o with
    | button e =>
      have hk := h.1 e (by simp)
      have e1 : buttons (.button e :: os) = ⟨e.code, e.down⟩ :: buttons os := rfl
      have e2 : edges (.button e :: os) = ⟨e.code, e.down⟩ :: edges os := rfl
      rw [e1, e2, historyOf_cons, historyOf_cons, ih]
      by_cases hc : e.code = k
      · subst hc; simp [hk]
      · simp [hc]
    | key e =>
      have hk := h.2 e (by simp)
      have e1 : buttons (.key e :: os) = buttons os := rfl
      have e2 : edges (.key e :: os) = ⟨e.code, e.down⟩ :: edges os := rfl
      rw [e1, e2, historyOf_cons, ih]
      by_cases hc : e.code = k
      · subst hc; simp [hk]
      · simp [hc]
    | axis o => exact ih
    | wheel t v n => exact ih
    | motion t dx dy => exact ih

theorem history_keys {os : List (Out R)} (h : KindOk os) (k : Nat) :
    historyOf k (keys os) = if getKeyType k = .key then historyOf k (edges os) else [] := by
  induction os with
  | nil => simp [keys, edges, historyOf]
  | cons o os ih =>
    have ih := ih (kindOk_cons h)
    cases o with
    | key e =>
      have hk := h.2 e (by simp)
      have e1 : keys (.key e :: os) = ⟨e.code, e.down⟩ :: keys os := rfl
      have e2 : edges (.key e :: os) = ⟨e.code, e.down⟩ :: edges os := rfl
      rw [e1, e2, historyOf_cons, historyOf_cons, ih]
      by_cases hc : e.code = k
      · subst hc; simp [hk]
      · simp [hc]
    | button e =>
      have hk := h.1 e (by simp)
      have e1 : keys (.button e :: os) = keys os := rfl
      have e2 : edges (.button e :: os) = ⟨e.code, e.down⟩ :: edges os := rfl
      rw [e1, e2, historyOf_cons, ih]
      by_cases hc : e.code = k
      · subst hc; simp [hk]
      · simp [hc]
    | axis o => exact ih
    | wheel t v n => exact ih
    | motion t dx dy => exact ih

theorem streams_alternate {os : List (Out R)} (h : KindOk os) (hv : Alternating (edges os)) :
    Alternating (buttons os) ∧ Alternating (keys os) := by
  refine ⟨fun k => ?_, fun k => ?_⟩
  · rw [history_buttons h]
    split
    · exact hv k
    · trivial
  · rw [history_keys h]
    split
    · exact hv k
    · trivial

theorem held_buttons {os : List (Out R)} (h : KindOk os) (k : Nat) :
    heldAfter (buttons os) k = (decide (getKeyType k = .button) && heldAfter (edges os) k) := by
  unfold heldAfter
  rw [history_buttons h]
  by_cases hk : getKeyType k = .button <;> simp [hk]

theorem held_keyboard {os : List (Out R)} (h : KindOk os) (k : Nat) :
    heldAfter (keys os) k = (decide (getKeyType k = .key) && heldAfter (edges os) k) := by
  unfold heldAfter
  rw [history_keys h]
  by_cases hk : getKeyType k = .key <;> simp [hk]

theorem down_init (A : Scroll.Arith R) (has : Nat → Bool) (db md on : Bool) (b : Nat) :
    down (init A has db md on b).cnt = fun _ => false := by
  funext k; simp [down, init, Buttons.init]

/-- What the caller sees of a history, in terms of the use counts. -/
theorem run_streams (A : Scroll.Arith R) (has : Nat → Bool) (db md on : Bool) (b : Nat) (ops : List (Op R)) :
    Alternating (buttons (run A (init A has db md on b) ops).out) ∧
    Alternating (keys (run A (init A has db md on b) ops).out) ∧
    ∀ d, (run A (init A has db md on b) ops).next = .ok d →
      ∀ k, heldAfter (buttons (run A (init A has db md on b) ops).out) k =
          (decide (getKeyType k = .button) && decide (0 < d.cnt k)) ∧
        heldAfter (keys (run A (init A has db md on b) ops).out) k =
          (decide (getKeyType k = .key) && decide (0 < d.cnt k)) := by
  have hg := run_gate A ops _ (init_debCode A has db md on b)
  have hv := hg.val
  rw [down_init] at hv
  have ha := (alternating_iff_valid _).mpr hv
  refine ⟨(streams_alternate hg.kind ha).1, (streams_alternate hg.kind ha).2, ?_⟩
  intro d hd k
  have haft := hg.aft d hd
  rw [down_init] at haft
  have : heldAfter (edges (run A (init A has db md on b) ops).out) k = decide (0 < d.cnt k) := by
    rw [heldAfter_eq_after, haft]; rfl
  rw [held_buttons hg.kind, held_keyboard hg.kind, this]
  exact ⟨rfl, rfl⟩

end Libinput.Mouse
