import Verif.Scroll.Model
namespace Libinput.Scroll

/-! ## Property theorems: scroll sequences are terminated (C33) -/

/-! Specification: which axes a client considers to be scrolling. -/
namespace Spec

/-- The horizontal (vertical) axis has received a non-zero scroll value and no terminator since. -/
def openH {R : Type} (outs : List (Out R)) : Bool :=
  outs.foldl (fun o e => match e with
    | .axis _ h _ => o || h.isSome
    | .stop _ h _ => o && !h) false
def openV {R : Type} (outs : List (Out R)) : Bool :=
  outs.foldl (fun o e => match e with
    | .axis _ _ v => o || v.isSome
    | .stop _ _ v => o && !v) false

end Spec
open Spec

variable {R : Type} (A : Arith R)

theorem openH_append (a : List (Out R)) (e : Out R) :
    openH (a ++ [e]) = match e with | .axis _ h _ => openH a || h.isSome | .stop _ h _ => openH a && !h := by
  simp [openH]
theorem openV_append (a : List (Out R)) (e : Out R) :
    openV (a ++ [e]) = match e with | .axis _ _ v => openV a || v.isSome | .stop _ _ v => openV a && !v := by
  simp [openV]

/-- Every event sent so far is sane. -/
def EvOk (A : Arith R) : Out R → Prop
  | .axis _ h v => (h.isSome = true ∨ v.isSome = true) ∧ (∀ x, h = some x → A.isZero x = false) ∧
      (∀ x, v = some x → A.isZero x = false)
  | .stop _ h v => h = true ∨ v = true

theorem run_append (s : State R) (a b : List (Op R)) :
    run A s (a ++ b) = ((run A (run A s a).1 b).1, (run A s a).2 ++ (run A (run A s a).1 b).2) := by
  induction a generalizing s with
  | nil => simp [run]
  | cons op ops ih => simp only [List.cons_append, run]; rw [ih]; simp

/-- Invariant without any assumption on the thresholds: an axis with unterminated scroll events is
marked in `direction`. -/
structure Inv0 (s : State R) (outs : List (Out R)) : Prop where
  h : openH outs = true → s.dirH = true
  v : openV outs = true → s.dirV = true
  ok : ∀ e ∈ outs, EvOk A e
  term : ∀ pre t h v post, outs = pre ++ .stop t h v :: post →
    (openH pre = true → h = true) ∧ (openV pre = true → v = true)

theorem term_snoc {outs : List (Out R)} {e : Out R} {P : List (Out R) → Nat → Bool → Bool → Prop}
    (h : ∀ pre t h v post, outs = pre ++ .stop t h v :: post → P pre t h v)
    (he : ∀ t h v, e = .stop t h v → P outs t h v) :
    ∀ pre t h v post, outs ++ [e] = pre ++ .stop t h v :: post → P pre t h v := by
  intro pre t hh v post heq
  rcases List.eq_nil_or_concat post with rfl | ⟨l, x, rfl⟩
  · have := List.append_inj' heq (by simp)
    obtain ⟨h1, h2⟩ := this
    simp only [List.cons.injEq, and_true] at h2
    subst h1
    exact he t hh v h2
  · have heq' : outs ++ [e] = (pre ++ .stop t hh v :: l) ++ [x] := by rw [heq]; simp
    have := List.append_inj' heq' (by simp)
    exact h pre t hh v l this.1

theorem step_inv0 {s : State R} {outs : List (Out R)} (hi : Inv0 A s outs) (hz : A.isZero A.zero = true)
    (op : Op R) : Inv0 A (step A s op).1 (outs ++ (step A s op).2) := by
  obtain ⟨hh, hv, hok, hterm⟩ := hi
  cases op with
  | stop t =>
    simp only [step, stop]
    split
    · rename_i hd
      refine ⟨?_, ?_, ?_, ?_⟩
      · rw [openH_append]; simp only
        cases ho : openH outs with
        | false => simp
        | true => simp [hh ho]
      · rw [openV_append]; simp only
        cases ho : openV outs with
        | false => simp
        | true => simp [hv ho]
      · intro e he
        rw [List.mem_append, List.mem_singleton] at he
        rcases he with he | rfl
        · exact hok e he
        · simpa [EvOk] using hd
      · refine term_snoc (P := fun pre _ h v => (openH pre = true → h = true) ∧ (openV pre = true → v = true)) hterm ?_
        intro t h v he
        cases he
        exact ⟨hh, hv⟩
    · rename_i hd
      have hd' : s.dirH = false ∧ s.dirV = false := by simpa using hd
      rw [List.append_nil]
      refine ⟨?_, ?_, hok, hterm⟩
      · intro h; have := hh h; rw [hd'.1] at this; cases this
      · intro h; have := hv h; rw [hd'.2] at this; cases this
  | post t dx dy =>
    -- directions only grow
    have hmono : (s.dirH = true → (start A s dx dy).dirH = true) ∧
        (s.dirV = true → (start A s dx dy).dirV = true) := by
      unfold start
      cases s.dirH <;> cases s.dirV <;> simp
    simp only [step, post]
    generalize start A s dx dy = s' at *
    -- shape of the output
    have hshape : emit A s' t dx dy = [] ∨ ∃ h v, emit A s' t dx dy = [.axis t h v] ∧
        (h.isSome = true → s'.dirH = true) ∧
        (v.isSome = true → s'.dirV = true) ∧ EvOk A (.axis t h v) := by
      unfold emit
      cases s'.dirH <;> cases s'.dirV <;> cases hx : A.isZero dx <;> cases hy : A.isZero dy <;>
        simp [EvOk, hx, hy, hz] <;>
        first
          | exact ⟨_, _, ⟨rfl, rfl⟩, by simp [hx, hy]⟩
          | skip
    generalize emit A s' t dx dy = o at *
    rcases hshape with rfl | ⟨h, v, rfl, h1, h2, h3⟩
    · rw [List.append_nil]
      exact ⟨fun h => hmono.1 (hh h), fun h => hmono.2 (hv h), hok, hterm⟩
    · refine ⟨?_, ?_, ?_, ?_⟩
      · rw [openH_append]; simp only [Bool.or_eq_true]
        rintro (h | h)
        · exact hmono.1 (hh h)
        · exact h1 h
      · rw [openV_append]; simp only [Bool.or_eq_true]
        rintro (h | h)
        · exact hmono.2 (hv h)
        · exact h2 h
      · intro e he
        rw [List.mem_append, List.mem_singleton] at he
        rcases he with he | rfl
        · exact hok e he
        · exact h3
      · refine term_snoc (P := fun pre _ h v => (openH pre = true → h = true) ∧ (openV pre = true → v = true)) hterm ?_
        intro t h v he; cases he

theorem init_inv0 : Inv0 A (init A) [] := by
  refine ⟨by simp [openH], by simp [openV], by simp, ?_⟩
  intro pre t h v post he; simp at he

theorem run_inv0 (hz : A.isZero A.zero = true) (ops : List (Op R)) :
    ∀ {s : State R} {outs : List (Out R)}, Inv0 A s outs →
      Inv0 A (run A s ops).1 (outs ++ (run A s ops).2) := by
  induction ops with
  | nil => intro s outs h; simpa [run] using h
  | cons op ops ih =>
    intro s outs h
    have := ih (step_inv0 A h hz op)
    simp only [run]
    rw [← List.append_assoc]
    exact this

/-- **C33, termination, all devices.**  For every sequence of scroll calls and every threshold (also 0, as
on touchpads): each terminating event covers every axis with unterminated scroll values, no
non-terminating event carries a zero value or no axis at all, and directly after the scroll is
stopped no axis is left open. -/
theorem scroll_always_terminated (hz : A.isZero A.zero = true) (ops : List (Op R)) (t : Nat) :
    (∀ pre t' h v post, (run A (init A) ops).2 = pre ++ .stop t' h v :: post →
      (openH pre = true → h = true) ∧ (openV pre = true → v = true)) ∧
    (∀ t' h v, .axis t' h v ∈ (run A (init A) ops).2 →
      (h.isSome = true ∨ v.isSome = true) ∧ (∀ x, h = some x → A.isZero x = false) ∧
      (∀ x, v = some x → A.isZero x = false)) ∧
    openH (run A (init A) (ops ++ [.stop t])).2 = false ∧
    openV (run A (init A) (ops ++ [.stop t])).2 = false := by
  have hi := run_inv0 A hz ops (init_inv0 A)
  have hi2 := run_inv0 A hz (ops ++ [.stop t]) (init_inv0 A)
  simp only [List.nil_append] at hi hi2
  refine ⟨hi.term, ?_, ?_, ?_⟩
  · intro t' h v hm; exact hi.ok _ hm
  · rw [Bool.eq_false_iff]; intro h
    have := hi2.h h
    rw [run_append] at this
    simp [run, step, stop] at this
  · rw [Bool.eq_false_iff]; intro h
    have := hi2.v h
    rw [run_append] at this
    simp [run, step, stop] at this

/-! ### Exactness with positive thresholds -/

/-- With positive thresholds `direction` is exactly the set of open axes. -/
structure Inv1 (s : State R) (outs : List (Out R)) : Prop where
  h : openH outs = s.dirH
  v : openV outs = s.dirV
  low : s.dirH = false → s.dirV = false → A.past s.bx = false ∧ A.past s.bys = false
  term : ∀ pre t h v post, outs = pre ++ .stop t h v :: post → openH pre = h ∧ openV pre = v

theorem step_inv1 (hA : A.Lawful) {s : State R} {outs : List (Out R)} (hi : Inv1 A s outs)
    (op : Op R) : Inv1 A (step A s op).1 (outs ++ (step A s op).2) := by
  obtain ⟨hh, hv, hlow, hterm⟩ := hi
  cases op with
  | stop t =>
    simp only [step, stop]
    split
    · refine ⟨?_, ?_, ?_, ?_⟩
      · rw [openH_append]; simp [hh]
      · rw [openV_append]; simp [hv]
      · intro _ _; exact ⟨hA.past_zero, hA.past_zero⟩
      · refine term_snoc (P := fun pre _ h v => openH pre = h ∧ openV pre = v) hterm ?_
        intro t h v he
        cases he
        exact ⟨hh, hv⟩
    · rename_i hd
      have hd' : s.dirH = false ∧ s.dirV = false := by simpa using hd
      rw [List.append_nil]
      exact ⟨hh.trans hd'.1, hv.trans hd'.2, fun _ _ => ⟨hA.past_zero, hA.past_zero⟩, hterm⟩
  | post t dx dy =>
    obtain ⟨dH, dV, bx, bys⟩ := s
    have hterm' : ∀ h v, ∀ pre t' h' v' post, outs ++ [Out.axis t h v] = pre ++ .stop t' h' v' :: post →
        openH pre = h' ∧ openV pre = v' := fun h v =>
      term_snoc (P := fun pre _ h v => openH pre = h ∧ openV pre = v) hterm (by intro t h v he; cases he)
    simp only at hh hv hlow
    -- a new axis starts only with a non-zero delta
    have hx : A.past bx = false → A.past (A.add bx dx) = true → A.isZero dx = false := by
      intro h1 h2
      cases hz : A.isZero dx with
      | false => rfl
      | true => rw [hA.past_add_zero _ _ hz, h1] at h2; cases h2
    have hy : A.past bys = false → A.past (A.add bys dy) = true → A.isZero dy = false := by
      intro h1 h2
      cases hz : A.isZero dy with
      | false => rfl
      | true => rw [hA.past_add_zero _ _ hz, h1] at h2; cases h2
    have hxl : A.pastLock dx = true → A.isZero dx = false := by
      intro h; cases hz : A.isZero dx with
      | false => rfl
      | true => rw [hA.pastLock_zero _ hz] at h; cases h
    have hyl : A.pastLock dy = true → A.isZero dy = false := by
      intro h; cases hz : A.isZero dy with
      | false => rfl
      | true => rw [hA.pastLock_zero _ hz] at h; cases h
    have hz0 := hA.zero_isZero
    cases dH <;> cases dV <;> simp only [step, post, start, emit]
    · obtain ⟨l1, l2⟩ := hlow rfl rfl
      simp only [Bool.false_eq_true, if_false]
      cases p1 : A.past (A.add bx dx) <;> cases p2 : A.past (A.add bys dy)
      · simp only [Bool.false_eq_true, if_false, hz0, Bool.and_self, if_true, List.append_nil]
        exact ⟨hh, hv, fun _ _ => ⟨p1, p2⟩, hterm⟩
      · simp only [if_true, hy l2 p2, hz0, Bool.and_false, Bool.false_eq_true, if_false,
          Bool.not_false, Bool.and_self, Bool.not_true]
        refine ⟨?_, ?_, ?_, hterm' _ _⟩
        · rw [openH_append]; simpa using hh
        · rw [openV_append]; simp
        · intro _ h; cases h
      · simp only [if_true, hx l1 p1, hz0, Bool.and_true, Bool.false_eq_true, if_false,
          Bool.not_false, Bool.and_self, Bool.not_true]
        refine ⟨?_, ?_, ?_, hterm' _ _⟩
        · rw [openH_append]; simp
        · rw [openV_append]; simpa using hv
        · intro h; cases h
      · simp only [if_true, hx l1 p1, hy l2 p2, Bool.and_self, Bool.false_eq_true, if_false,
          Bool.not_false]
        refine ⟨?_, ?_, ?_, hterm' _ _⟩
        · rw [openH_append]; simp
        · rw [openV_append]; simp
        · intro h; cases h
    · cases p1 : A.pastLock dx
      · cases zy : A.isZero dy <;> simp [hz0, zy]
        · refine ⟨?_, ?_, ?_, hterm' _ _⟩
          · rw [openH_append]; simpa using hh
          · rw [openV_append]; simp
          · intro _ h; cases h
        · exact ⟨hh, hv, fun _ h => (by cases h), hterm⟩
      · cases zy : A.isZero dy <;> simp [zy, hxl p1]
        · refine ⟨?_, ?_, ?_, hterm' _ _⟩
          · rw [openH_append]; simp
          · rw [openV_append]; simp
          · intro h; cases h
        · refine ⟨?_, ?_, ?_, hterm' _ _⟩
          · rw [openH_append]; simp
          · rw [openV_append]; simpa using hv
          · intro h; cases h
    · cases p1 : A.pastLock dy
      · cases zx : A.isZero dx <;> simp [hz0, zx]
        · refine ⟨?_, ?_, ?_, hterm' _ _⟩
          · rw [openH_append]; simp
          · rw [openV_append]; simpa using hv
          · intro h; cases h
        · exact ⟨hh, hv, fun h => (by cases h), hterm⟩
      · cases zx : A.isZero dx <;> simp [zx, hyl p1]
        · refine ⟨?_, ?_, ?_, hterm' _ _⟩
          · rw [openH_append]; simp
          · rw [openV_append]; simp
          · intro h; cases h
        · refine ⟨?_, ?_, ?_, hterm' _ _⟩
          · rw [openH_append]; simpa using hh
          · rw [openV_append]; simp
          · intro h; cases h
    · cases zx : A.isZero dx <;> cases zy : A.isZero dy <;> simp [zx, zy]
      all_goals first
        | exact ⟨hh, hv, fun h => (by cases h), hterm⟩
        | (refine ⟨?_, ?_, ?_, hterm' _ _⟩
           · rw [openH_append]; simp [hh]
           · rw [openV_append]; simp [hv]
           · intro h; cases h)

theorem run_inv1 (hA : A.Lawful) (ops : List (Op R)) :
    ∀ {s : State R} {outs : List (Out R)}, Inv1 A s outs →
      Inv1 A (run A s ops).1 (outs ++ (run A s ops).2) := by
  induction ops with
  | nil => intro s outs h; simpa [run] using h
  | cons op ops ih =>
    intro s outs h
    have := ih (step_inv1 A hA h op)
    simp only [run]
    rw [← List.append_assoc]
    exact this

theorem init_inv1 (hA : A.Lawful) : Inv1 A (init A) [] :=
  ⟨rfl, rfl, fun _ _ => ⟨hA.past_zero, hA.past_zero⟩, by intro pre t h v post he; simp at he⟩

/-- **C33, exact terminators.**  With positive thresholds (all devices but touchpads) the terminating event
carries exactly the axes that received a non-zero value since the last terminator. -/
theorem scroll_terminator_exact (hA : A.Lawful) (ops : List (Op R)) (pre post : List (Out R)) (t : Nat) (h v : Bool)
    (he : (run A (init A) ops).2 = pre ++ .stop t h v :: post) : h = openH pre ∧ v = openV pre := by
  have hi := run_inv1 A hA ops (init_inv1 A hA)
  simp only [List.nil_append] at hi
  have := hi.term pre t h v post he
  exact ⟨this.1.symm, this.2.symm⟩

/-- Integer arithmetic with the thresholds of an ordinary device. -/
def intArith : Arith Int :=
  ⟨0, (· + ·), fun x => decide (5 ≤ x.natAbs), fun x => decide (5 ≤ x.natAbs), fun x => x == 0⟩

theorem intArith_lawful : intArith.Lawful := by
  refine ⟨rfl, rfl, ?_, ?_⟩
  · intro x h
    have : x = 0 := by simpa [intArith] using h
    subst this; rfl
  · intro x z h
    have : z = 0 := by simpa [intArith] using h
    subst this; simp [intArith]

/-- Integer arithmetic with the touchpad's threshold of 0. -/
def touchpadArith : Arith Int :=
  ⟨0, (· + ·), fun x => decide (0 ≤ x.natAbs), fun x => decide (5 ≤ x.natAbs), fun x => x == 0⟩

/-- **C33 fails on touchpads.**  With threshold 0 a purely vertical scroll is terminated on the horizontal
axis too, which never received a scroll value. -/
theorem touchpad_terminates_unscrolled_axis :
    (run touchpadArith (init touchpadArith) [.post 1 0 3, .stop 2]).2
      = [.axis 1 none (some 3), .stop 2 true true] := by decide

/-- Non-vacuity: a vertical scroll which later also engages the horizontal axis. -/
example : (run intArith (init intArith) [.post 1 0 3, .post 2 1 3, .post 3 7 2, .stop 4, .post 5 1 0, .stop 6]).2
    = [.axis 2 none (some 3), .axis 3 (some 7) (some 2), .stop 4 true true] := by decide

end Libinput.Scroll
