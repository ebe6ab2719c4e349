import Verif.EventQueue.Lemmas
/-!
# C01: the event queue is a lossless FIFO
-/

namespace Libinput.EventQueue

/-- C01. Every history of queueing (with any pattern of allocation failures), reading and peeking is free
of undefined behaviour and returns to the caller exactly what the FIFO specification returns. -/
theorem event_queue_refines_fifo {α : Type} (ops : List (Op α)) :
    ∃ r, run (init : Ring α) ops = some (r, Spec.outputs Spec.empty ops) :=
  run_sim ops sim_init

/-- If no allocation fails, `n` reads after posting `es` return the first `n` of `es` in order followed by
NULLs: no loss, no duplication, no reordering, for every number of events. -/
theorem event_queue_delivers_in_order {α : Type} (es : List α) (n : Nat) :
    ∃ r, run (init : Ring α) (es.map (fun e => .post e true) ++ List.replicate n .get) =
      some (r, (es.take n).map some ++ List.replicate (n - es.length) none) := by
  obtain ⟨r, h⟩ := event_queue_refines_fifo (es.map (fun e => .post e true) ++ List.replicate n .get)
  refine ⟨r, ?_⟩
  rw [h]
  congr 2
  have gets : ∀ (n : Nat) (q : Spec.Queue α),
      Spec.outputs q (List.replicate n .get) =
        (q.pending.take n).map some ++ List.replicate (n - q.pending.length) none := by
    intro n
    induction n with
    | zero => intro q; simp [Spec.outputs]
    | succ n ih =>
      intro q
      cases hq : q.pending with
      | nil =>
        simp only [List.replicate_succ, Spec.outputs, Spec.step, hq, ih]
        simp [List.replicate_succ]
      | cons e rest =>
        simp only [List.replicate_succ, Spec.outputs, Spec.step, hq, ih]
        simp
  have posts : ∀ (es : List α) (q : Spec.Queue α) (ops : List (Op α)),
      Spec.outputs q (es.map (fun e => .post e true) ++ ops) =
        Spec.outputs ⟨q.pending ++ es, (es.foldl (fun q e => (Spec.step q (.post e true)).1) q).cap⟩ ops := by
    intro es
    induction es with
    | nil => intro q ops; simp
    | cons e es ih =>
      intro q ops
      simp only [List.map_cons, List.cons_append, Spec.outputs, List.foldl_cons]
      rw [ih]
      by_cases h : q.pending.length < q.cap <;> simp [Spec.step, h]
  rw [posts, gets]
  simp [Spec.empty]

/-- Conservation at any point of any history without allocation failure: events delivered by `get` so
far, followed by the events still pending, are exactly the events posted, in order. -/
theorem event_queue_conserves {α : Type} (ops : List (Op α))
    (hok : ∀ e, Op.post e false ∉ ops) (hpeek : Op.peek ∉ ops) :
    ∃ pending : List α, ∀ r os, run (init : Ring α) ops = some (r, os) →
      Spec.delivered os ++ pending = Spec.posted ops ∧ pending.length = r.count := by
  have key : ∀ (ops : List (Op α)), (∀ e, Op.post e false ∉ ops) → Op.peek ∉ ops →
      ∀ (r : Ring α) (q : Spec.Queue α), Sim r q → ∃ pending : List α, ∀ r' os,
      run r ops = some (r', os) →
      Spec.delivered os ++ pending = q.pending ++ Spec.posted ops ∧ pending.length = r'.count := by
    intro ops
    induction ops with
    | nil =>
      intro _ _ r q h
      refine ⟨q.pending, fun r' os hr => ?_⟩
      simp only [run, Option.some.injEq, Prod.mk.injEq] at hr
      obtain ⟨rfl, rfl⟩ := hr
      simp [Spec.delivered, Spec.posted, h.1.count]
    | cons op ops ih =>
      intro hok hpeek r q h
      obtain ⟨r', hs, h'⟩ := step_sim h op
      obtain ⟨pending, hp⟩ := ih (fun e => by have := hok e; simp_all) (by simp_all) r' _ h'
      refine ⟨pending, fun r'' os hr => ?_⟩
      simp only [run, hs] at hr
      cases hrun : run r' ops with
      | none => simp [hrun] at hr
      | some p =>
        obtain ⟨r3, os3⟩ := p
        simp only [hrun, Option.some.injEq, Prod.mk.injEq] at hr
        obtain ⟨rfl, rfl⟩ := hr
        obtain ⟨h1, h2⟩ := hp _ _ hrun
        refine ⟨?_, h2⟩
        cases op with
        | peek => simp at hpeek
        | get =>
          cases hq : q.pending with
          | nil => simp_all [Spec.delivered, Spec.posted, Spec.step]
          | cons e rest => simp_all [Spec.delivered, Spec.posted, Spec.step]
        | post e ok =>
          cases ok with
          | false => exact absurd (hok e) (by simp)
          | true =>
            by_cases hl : q.pending.length < q.cap <;>
              simp only [Spec.step, hl, if_true, if_false] at h1 ⊢ <;>
              simpa [Spec.delivered, Spec.posted] using h1
  obtain ⟨p, hp⟩ := key ops hok hpeek init Spec.empty sim_init
  exact ⟨p, by simpa [Spec.empty] using hp⟩

/-- The type reported by `libinput_next_event_type` is that of the event the next `libinput_get_event`
returns, after any history. -/
theorem next_type_predicts_get {α : Type} (ops : List (Op α)) (r : Ring α) (os : List (Option α))
    (h : run (init : Ring α) ops = some (r, os)) :
    ∃ e r', peek r = some e ∧ get r = some (r', e) := by
  have key : ∀ (ops : List (Op α)) (r0 : Ring α) (q : Spec.Queue α), Sim r0 q → ∀ r os,
      run r0 ops = some (r, os) → ∃ q', Sim r q' := by
    intro ops
    induction ops with
    | nil => intro r0 q hs r os hr; simp only [run, Option.some.injEq, Prod.mk.injEq] at hr; exact ⟨q, hr.1 ▸ hs⟩
    | cons op ops ih =>
      intro r0 q hs r os hr
      obtain ⟨r', hs', h'⟩ := step_sim hs op
      simp only [run, hs'] at hr
      cases hrun : run r' ops with
      | none => simp [hrun] at hr
      | some p =>
        simp only [hrun, Option.some.injEq, Prod.mk.injEq] at hr
        exact ih r' _ h' r p.2 (by rw [hrun, ← hr.1])
  obtain ⟨q, hsim⟩ := key ops init Spec.empty sim_init r os h
  obtain ⟨r1, h1, _⟩ := step_sim hsim .get
  obtain ⟨r2, h2, _⟩ := step_sim hsim .peek
  simp only [step, Option.map_eq_some_iff] at h1 h2
  obtain ⟨⟨r3, e⟩, hg, he⟩ := h1
  obtain ⟨e2, hp, he2⟩ := h2
  refine ⟨e, r3, ?_, hg⟩
  rw [hp]
  cases hq : q.pending <;> simp_all [Spec.step]

/-! Non-vacuity: histories that wrap the ring and grow it at a non-zero offset. -/

example : (run (init : Ring Nat)
    ([.post 1 true, .post 2 true, .get, .post 3 true, .post 4 true, .post 5 true, .post 6 true,
      .peek, .get, .get, .get, .get, .get, .get])).map (·.2) =
    some [some 1, some 2, some 2, some 3, some 4, some 5, some 6, none] := by decide

example : (run (init : Ring Nat)
    ([.post 1 true, .post 2 true, .post 3 true, .post 4 true, .post 5 false, .get, .post 6 false, .get])).map (·.2) =
    some [some 1, some 2] := by decide

end Libinput.EventQueue
