/-
Shared specification vocabulary: what it means for a stream of press/release
events to be well formed.  Nothing in this file refers to libinput's code.
-/
namespace Libinput

/-- One press (`down = true`) or release (`down = false`) of something named
by `key` (a button code, a key code, a switch, …).  Specification only: it does
not model code in /repo. -/
structure Edge (K : Type) where
  key : K
  down : Bool
deriving DecidableEq, Repr

namespace Spec

/-- `AltFrom cur bs`: starting from logical state `cur`, every element of `bs`
flips the state.  Specification only. -/
def AltFrom : Bool → List Bool → Prop
  | _, [] => True
  | cur, b :: bs => b = !cur ∧ AltFrom b bs

/-- The press/release history of one key.  Specification only. -/
def historyOf {K : Type} [DecidableEq K] (k : K) (evs : List (Edge K)) : List Bool :=
  (evs.filter (fun e => e.key = k)).map Edge.down

/-- **Alternation.** For every key, the events seen are press, release, press,
release, … starting with a press.  Specification only. -/
def Alternating {K : Type} [DecidableEq K] (evs : List (Edge K)) : Prop :=
  ∀ k, AltFrom false (historyOf k evs)

/-- Is `k` down for a client which has seen exactly `evs`?  It is what the
last event about `k` said.  Specification only. -/
def heldAfter {K : Type} [DecidableEq K] (evs : List (Edge K)) (k : K) : Bool :=
  (historyOf k evs).getLast?.getD false

end Spec

namespace Alt
open Spec

variable {K : Type} [DecidableEq K]

theorem altFrom_append (cur : Bool) (a b : List Bool) :
    AltFrom cur (a ++ b) ↔ AltFrom cur a ∧ AltFrom (a.getLast?.getD cur) b := by
  induction a generalizing cur with
  | nil => simp [AltFrom]
  | cons x xs ih =>
    simp only [List.cons_append, AltFrom, ih]
    cases xs with
    | nil => simp [AltFrom]
    | cons y ys => simp [AltFrom, List.getLast?_cons, and_assoc]

theorem historyOf_append (k : K) (a b : List (Edge K)) :
    historyOf k (a ++ b) = historyOf k a ++ historyOf k b := by
  simp [historyOf]

theorem historyOf_singleton (k : K) (e : Edge K) :
    historyOf k [e] = if e.key = k then [e.down] else [] := by
  by_cases h : e.key = k <;> simp [historyOf, h]

theorem alternating_nil : Alternating ([] : List (Edge K)) := by
  intro k; simp [historyOf, AltFrom]

theorem heldAfter_nil (k : K) : heldAfter ([] : List (Edge K)) k = false := by
  simp [heldAfter, historyOf]

theorem heldAfter_snoc (evs : List (Edge K)) (e : Edge K) (k : K) :
    heldAfter (evs ++ [e]) k = if e.key = k then e.down else heldAfter evs k := by
  simp only [heldAfter, historyOf_append, historyOf_singleton]
  by_cases h : e.key = k <;> simp [h]

/-- Extending an alternating stream by one event. -/
theorem alternating_snoc (evs : List (Edge K)) (e : Edge K) :
    Alternating (evs ++ [e]) ↔ Alternating evs ∧ heldAfter evs e.key = !e.down := by
  constructor
  · intro h
    refine ⟨fun k => ?_, ?_⟩
    · have := h k
      rw [historyOf_append, altFrom_append] at this
      exact this.1
    · have := h e.key
      rw [historyOf_append, altFrom_append, historyOf_singleton] at this
      simp only [if_true, AltFrom] at this
      simp only [heldAfter]
      rw [this.2.1]; simp
  · rintro ⟨h1, h2⟩ k
    rw [historyOf_append, altFrom_append, historyOf_singleton]
    refine ⟨h1 k, ?_⟩
    by_cases hk : e.key = k
    · subst hk
      simp only [if_true, AltFrom, and_true]
      simp only [heldAfter] at h2
      rw [h2]; simp
    · simp [hk, AltFrom]

/-- A stream is `Valid` from a set of held keys; used to compose stages. -/
def Valid (held : K → Bool) : List (Edge K) → Prop
  | [] => True
  | e :: es => held e.key = !e.down ∧ Valid (fun k => if e.key = k then e.down else held k) es

/-- The set of held keys after a stream. -/
def after (held : K → Bool) : List (Edge K) → K → Bool
  | [] => held
  | e :: es => after (fun k => if e.key = k then e.down else held k) es

@[simp] theorem valid_nil (h : K → Bool) : Valid h [] := trivial
@[simp] theorem after_nil (h : K → Bool) : after h [] = h := rfl

theorem valid_append (h : K → Bool) (a b : List (Edge K)) :
    Valid h (a ++ b) ↔ Valid h a ∧ Valid (after h a) b := by
  induction a generalizing h with
  | nil => simp
  | cons e es ih => simp only [List.cons_append, Valid, after, ih, and_assoc]

theorem after_append (h : K → Bool) (a b : List (Edge K)) :
    after h (a ++ b) = after (after h a) b := by
  induction a generalizing h with
  | nil => simp
  | cons e es ih => simp only [List.cons_append, after, ih]

theorem after_eq_heldAfter (evs pre : List (Edge K)) :
    after (heldAfter pre) evs = heldAfter (pre ++ evs) := by
  induction evs generalizing pre with
  | nil => simp
  | cons e es ih =>
    have : (fun k => if e.key = k then e.down else heldAfter pre k) = heldAfter (pre ++ [e]) := by
      funext k; rw [heldAfter_snoc]
    simp only [after, this, ih, List.append_assoc, List.singleton_append]

/-- `Valid` from what a stream left held is exactly alternation of the
concatenation. -/
theorem alternating_append (pre evs : List (Edge K)) :
    Alternating (pre ++ evs) ↔ Alternating pre ∧ Valid (heldAfter pre) evs := by
  induction evs generalizing pre with
  | nil => simp
  | cons e es ih =>
    have h1 : pre ++ e :: es = (pre ++ [e]) ++ es := by simp
    have h2 : (fun k => if e.key = k then e.down else heldAfter pre k) = heldAfter (pre ++ [e]) := by
      funext k; rw [heldAfter_snoc]
    rw [h1, ih, alternating_snoc]
    simp only [Valid, h2, and_assoc]

theorem alternating_iff_valid (evs : List (Edge K)) :
    Alternating evs ↔ Valid (fun _ => false) evs := by
  have h := alternating_append (K := K) [] evs
  have h0 : (heldAfter ([] : List (Edge K))) = fun _ => false := by
    funext k; exact heldAfter_nil k
  rw [h0] at h
  simpa [alternating_nil] using h

theorem heldAfter_eq_after (evs : List (Edge K)) :
    heldAfter evs = after (fun _ => false) evs := by
  have h := after_eq_heldAfter (K := K) evs []
  have h0 : (heldAfter ([] : List (Edge K))) = fun _ => false := by
    funext k; exact heldAfter_nil k
  rw [h0] at h
  simpa using h.symm

end Alt
end Libinput
