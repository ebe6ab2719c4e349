import Verif.EventQueue.Model
/-!
# Specification of the event queue: a plain FIFO list
-/

namespace Libinput.EventQueue.Spec

/-- A queue of pending events with the capacity up to which no memory has to be requested. -/
structure Queue (α : Type) where
  pending : List α
  cap : Nat

/-- The queue after `libinput_init`. -/
def empty {α : Type} : Queue α := { pending := [], cap := 4 }

/-- Queue semantics: post appends (unless memory is needed and refused, which drops only the new event),
get removes the head, peek returns the head. -/
def step {α : Type} (q : Queue α) : Op α → Queue α × List (Option α)
  | .post e allocOk =>
    if q.pending.length < q.cap then ({ q with pending := q.pending ++ [e] }, [])
    else if allocOk then ({ pending := q.pending ++ [e], cap := q.cap * 2 }, [])
    else (q, [])
  | .get =>
    match q.pending with
    | [] => (q, [none])
    | e :: rest => ({ q with pending := rest }, [some e])
  | .peek => (q, [q.pending.head?])

/-- Outputs of a history. -/
def outputs {α : Type} (q : Queue α) : List (Op α) → List (Option α)
  | [] => []
  | op :: ops => (step q op).2 ++ outputs (step q op).1 ops

/-- The events posted in a history. -/
def posted {α : Type} : List (Op α) → List α
  | [] => []
  | .post e _ :: ops => e :: posted ops
  | _ :: ops => posted ops

/-- The events handed to the caller by `get` in a list of results of `get`s. -/
def delivered {α : Type} (os : List (Option α)) : List α := os.filterMap id

end Libinput.EventQueue.Spec
