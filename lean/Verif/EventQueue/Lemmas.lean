import Verif.EventQueue.Spec

namespace Libinput.EventQueue

/-- Representation invariant: the ring holds exactly the list `q`. -/
structure Rep {α : Type} (r : Ring α) (q : List α) : Prop where
  lenPos : 0 < r.len
  count : r.count = q.length
  le : q.length ≤ r.len
  out : r.out < r.len
  inp : r.inp = (r.out + r.count) % r.len
  cells : ∀ k (h : k < q.length), r.mem ((r.out + k) % r.len) = some q[k]

theorem rep_init {α : Type} : Rep (init : Ring α) [] := by
  constructor <;> simp [init]

theorem mod_lt_self' {a n : Nat} (h : a < n) : a % n = a := Nat.mod_eq_of_lt h

theorem mod_sub_of {a n : Nat} (h1 : n ≤ a) (h2 : a < n + n) : a % n = a - n := by
  rw [Nat.mod_eq_sub_mod h1]; exact Nat.mod_eq_of_lt (by omega)

theorem store_rep {α : Type} {r : Ring α} {q : List α} (e : α) (h : Rep r q) (hlt : q.length < r.len) :
    ∃ r', store r e = some r' ∧ Rep r' (q ++ [e]) ∧ r'.len = r.len := by
  have hin : r.inp < r.len := by rw [h.inp]; exact Nat.mod_lt _ h.lenPos
  refine ⟨_, if_pos hin, ?_, rfl⟩
  have hc := h.count
  constructor
  · exact h.lenPos
  · simp [hc]
  · simp; omega
  · exact h.out
  · simp only [h.inp]
    rw [Nat.mod_add_mod, Nat.add_assoc]
  · intro k hk
    simp only [List.length_append, List.length_cons, List.length_nil] at hk
    have ho := h.out
    by_cases hkq : k = q.length
    · subst hkq
      simp [h.inp, hc]
    · have hkl : k < q.length := by omega
      have hne : (r.out + k) % r.len ≠ r.inp := by
        rw [h.inp, hc]
        intro hEq
        by_cases h1 : r.out + k < r.len <;> by_cases h2 : r.out + q.length < r.len
        · rw [mod_lt_self' h1, mod_lt_self' h2] at hEq; omega
        · rw [mod_lt_self' h1, mod_sub_of (by omega) (by omega)] at hEq; omega
        · omega
        · rw [mod_sub_of (by omega) (by omega), mod_sub_of (by omega) (by omega)] at hEq; omega
      simp only [hne, if_false]
      rw [h.cells k hkl, List.getElem_append_left hkl]

theorem grow_rep {α : Type} {r : Ring α} {q : List α} (h : Rep r q) (hfull : q.length = r.len) :
    Rep (grow r) q ∧ (grow r).len = r.len * 2 := by
  have hc := h.count
  have hl := h.lenPos
  have ho := h.out
  have hio : r.inp = r.out := by
    rw [h.inp, hc, hfull, Nat.add_mod_right, mod_lt_self' ho]
  have hcpos : r.count > 0 := by omega
  by_cases h0 : r.inp = 0
  · have hg : grow r = { r with mem := fun i => if i < r.len then r.mem i else none,
                                inp := r.len, len := r.len * 2 } := by
      simp [grow, hcpos, h0]
    rw [hg]
    refine ⟨?_, rfl⟩
    constructor
    · simp; omega
    · exact hc
    · simp; omega
    · simp; omega
    · simp only; rw [mod_lt_self' (by omega)]; omega
    · intro k hk
      simp only
      have := h.cells k hk
      have hout0 : r.out = 0 := by omega
      rw [hout0] at this ⊢
      simp only [Nat.zero_add] at this ⊢
      rw [mod_lt_self' (by omega)] at this ⊢
      simp [this, show k < r.len by omega]
  · have hg : grow r = { r with
        mem := memmove (fun i => if i < r.len then r.mem i else none)
                 (r.len * 2 - (r.len - r.out)) r.out (r.len - r.out),
        out := r.len * 2 - (r.len - r.out), len := r.len * 2 } := by
      simp only [grow, hcpos, h0, and_false, if_false]
      rw [if_pos ⟨trivial, by omega⟩]
    rw [hg]
    refine ⟨?_, rfl⟩
    have hout0 : r.out ≠ 0 := by omega
    constructor
    · simp; omega
    · exact hc
    · simp; omega
    · simp; omega
    · simp only
      rw [hc, hfull, hio, mod_sub_of (by omega) (by omega)]; omega
    · intro k hk
      simp only [memmove]
      have hcell := h.cells k hk
      by_cases hk1 : r.out + k < r.len
      · rw [mod_lt_self' hk1] at hcell
        rw [mod_lt_self' (by omega)]
        rw [if_pos (by omega)]
        rw [if_pos (by omega)]
        rw [show r.len * 2 - (r.len - r.out) + k - (r.len * 2 - (r.len - r.out)) + r.out = r.out + k by omega]
        exact hcell
      · rw [mod_sub_of (by omega) (by omega)] at hcell
        rw [mod_sub_of (by omega) (by omega)]
        rw [if_neg (by omega)]
        rw [if_pos (by omega)]
        rw [show r.len * 2 - (r.len - r.out) + k - r.len * 2 = r.out + k - r.len by omega]
        exact hcell

/-- Joint representation of the concrete ring and the abstract queue. -/
def Sim {α : Type} (r : Ring α) (q : Spec.Queue α) : Prop := Rep r q.pending ∧ r.len = q.cap

theorem step_sim {α : Type} {r : Ring α} {q : Spec.Queue α} (h : Sim r q) (op : Op α) :
    ∃ r', step r op = some (r', (Spec.step q op).2) ∧ Sim r' (Spec.step q op).1 := by
  obtain ⟨h, hcap⟩ := h
  have hle := h.le
  have hc := h.count
  cases op with
  | post e ok =>
    simp only [step, post, Spec.step]
    by_cases hlt : q.pending.length < q.cap
    · obtain ⟨r', hs, hr, hl⟩ := store_rep e h (by omega)
      rw [if_neg (by omega), hs]
      simp only [hlt, if_true]
      exact ⟨r', rfl, hr, by simp [hl, hcap]⟩
    · rw [if_pos (by omega)]
      simp only [hlt, if_false]
      cases ok with
      | true =>
        obtain ⟨hg, hgl⟩ := grow_rep h (by omega)
        obtain ⟨r', hs, hr, hl⟩ := store_rep e hg (by rw [hgl]; have := h.lenPos; omega)
        rw [if_pos rfl, if_pos rfl, hs]
        exact ⟨r', rfl, hr, by simp [hl, hgl, hcap]⟩
      | false =>
        simp only [Bool.false_eq_true, if_false, Option.map_some]
        exact ⟨r, rfl, h, hcap⟩
  | get =>
    simp only [step, get, Spec.step]
    cases hq : q.pending with
    | nil =>
      simp [hc, hq]
      exact ⟨hq ▸ h, hcap⟩
    | cons e rest =>
      have hne : r.count ≠ 0 := by simp [hc, hq]
      have hcell := h.cells 0 (by simp [hq])
      simp only [Nat.add_zero, mod_lt_self' h.out, hq, List.getElem_cons_zero] at hcell
      simp only [hne, if_false, h.out, if_true, hcell, Option.map_some]
      refine ⟨_, rfl, ?_, hcap⟩
      have hl := h.lenPos
      rw [hq] at hle hc
      simp only [List.length_cons] at hle hc
      constructor
      · exact h.lenPos
      · simp [hc]
      · simp; omega
      · exact Nat.mod_lt _ h.lenPos
      · simp only [h.inp, hc]
        rw [Nat.mod_add_mod]; congr 1; omega
      · intro k hk
        simp only at hk ⊢
        have := h.cells (k+1) (by rw [hq]; simpa using hk)
        simp only [hq, List.getElem_cons_succ] at this
        rw [← this, Nat.mod_add_mod]; congr 2; omega
  | peek =>
    simp only [step, peek, Spec.step]
    cases hq : q.pending with
    | nil =>
      simp [hc, hq]
      exact ⟨h, hcap⟩
    | cons e rest =>
      have hne : r.count ≠ 0 := by simp [hc, hq]
      have hcell := h.cells 0 (by simp [hq])
      simp only [Nat.add_zero, mod_lt_self' h.out, hq, List.getElem_cons_zero] at hcell
      simp only [hne, if_false, h.out, if_true, hcell, Option.map_some]
      exact ⟨_, rfl, h, hcap⟩

theorem run_sim {α : Type} (ops : List (Op α)) : ∀ {r : Ring α} {q : Spec.Queue α}, Sim r q →
    ∃ r', run r ops = some (r', Spec.outputs q ops) := by
  induction ops with
  | nil => intro r q _; exact ⟨r, rfl⟩
  | cons op ops ih =>
    intro r q h
    obtain ⟨r', hs, h'⟩ := step_sim h op
    obtain ⟨r'', hr⟩ := ih h'
    exact ⟨r'', by simp [run, hs, hr, Spec.outputs]⟩

theorem sim_init {α : Type} : Sim (init : Ring α) Spec.empty := ⟨rep_init, rfl⟩

end Libinput.EventQueue
