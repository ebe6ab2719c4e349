import Verif.Tap.Inv
/-
A whole tap: fingers are put down one or several at a time, then lifted one or several at a time.
-/
set_option linter.unusedSimpArgs false
set_option linter.unusedVariables false
namespace Libinput.Tap
open Libinput.Buttons (Call)
open Libinput.Tap.Spec

/-- The settings are untouched. -/
structure Same (f g : Fsm) : Prop where
  map : g.map = f.map
  wantMap : g.wantMap = f.wantMap
  drag : g.drag = f.drag

theorem Same.refl (f : Fsm) : Same f f := ⟨rfl, rfl, rfl⟩
theorem Same.trans {f g h : Fsm} (a : Same f g) (b : Same g h) : Same f h :=
  ⟨b.map.trans a.map, b.wantMap.trans a.wantMap, b.drag.trans a.drag⟩

/-- The state with `k` fingers just put down. -/
def landSt : Nat → TSt
  | 0 => .idle
  | 1 => .touch
  | 2 => .touch2
  | 3 => .touch3
  | _ => .dead

theorem land_one (f : Fsm) (now k : Nat) (h : f.st = landSt k) :
    (handle f now .touch).1.st = landSt (k + 1) ∧ (handle f now .touch).2 = ([], false) ∧
    Same f (handle f now .touch).1 := by
  obtain ⟨st, timer, pressed, sp, sr, map, wm, drag, dl, nf, bugs, faults⟩ := f
  simp only at h; subst h
  match k with
  | 0 => exact ⟨rfl, rfl, rfl, rfl, rfl⟩
  | 1 => exact ⟨rfl, rfl, rfl, rfl, rfl⟩
  | 2 => exact ⟨rfl, rfl, rfl, rfl, rfl⟩
  | 3 => exact ⟨rfl, rfl, rfl, rfl, rfl⟩
  | _ + 4 => exact ⟨rfl, rfl, rfl, rfl, rfl⟩

/-- A view that does nothing does nothing. -/
theorem still_step (now : Nat) (f : Fsm) (t : Touch) (v : View) (h : still v = true) :
    touchStep now f t v = (f, t, []) := by
  obtain ⟨ts, dirty, palm, thumbTap, thumb, palmTap, exceeds⟩ := v
  simp only [still, Bool.and_eq_true, Bool.or_eq_true, beq_iff_eq, Bool.not_eq_true'] at h
  obtain ⟨⟨⟨h1, rfl⟩, rfl⟩, rfl⟩ := h
  unfold touchStep
  split
  · rfl
  split
  · rfl
  split
  · rcases h1 with (rfl | rfl) | rfl <;> rfl
  rcases h1 with (rfl | rfl) | rfl
  · rfl
  · rfl
  · simp [updateStep]

theorem land_step (now : Nat) (f : Fsm) (t : Touch) (v : View) (k : Nat) (h : lands v = true)
    (ht : t.ok = true) (hs : f.st = landSt k) :
    (touchStep now f t v).1.st = landSt (k + 1) ∧ (touchStep now f t v).2 = (t, []) ∧
    Same f (touchStep now f t v).1 := by
  obtain ⟨ts, dirty, palm, thumbTap, thumb, palmTap, exceeds⟩ := v
  simp only [lands, Bool.and_eq_true, beq_iff_eq, Bool.not_eq_true'] at h
  obtain ⟨⟨⟨⟨rfl, rfl⟩, rfl⟩, rfl⟩, rfl⟩ := h
  obtain ⟨ph, th, pa⟩ := t
  simp only [Touch.ok, Bool.and_eq_true, Bool.not_eq_true'] at ht
  obtain ⟨rfl, rfl⟩ := ht
  obtain ⟨a, b, c⟩ := land_one { f with nf := f.nf + 1 } now k hs
  simp only [touchStep, beginStep]
  refine ⟨a, ?_, ⟨c.map, c.wantMap, c.drag⟩⟩
  simp [b]

theorem not_both {v : View} (h : still v = true) : lands v = false ∧ lifts v = false := by
  simp only [still, Bool.and_eq_true, Bool.or_eq_true, beq_iff_eq] at h
  rcases h.1.1.1 with (h | h) | h <;> simp [lands, lifts, h]

theorem land_loop (now : Nat) (f : Fsm) (ts : List Touch) (vs : List View) (k : Nat)
    (hv : (vs.all fun v => still v || lands v) = true) (hl : ts.length = vs.length)
    (hb : ∀ p ∈ ts.zip vs, p.2.ts = .begin → p.1.ok = true) (hs : f.st = landSt k) :
    (touchLoop now f ts vs).1.st = landSt (k + nLands vs) ∧ (touchLoop now f ts vs).2 = (ts, []) ∧
    Same f (touchLoop now f ts vs).1 := by
  induction ts generalizing f vs k with
  | nil =>
    cases vs with
    | nil => exact ⟨hs, rfl, Same.refl _⟩
    | cons v vs => simp at hl
  | cons t ts ih =>
    cases vs with
    | nil => simp at hl
    | cons v vs =>
      simp only [List.all_cons, Bool.and_eq_true] at hv
      simp only [List.zip_cons_cons, List.mem_cons, forall_eq_or_imp] at hb
      simp only [touchLoop]
      cases hst : still v with
      | true =>
        rw [still_step now f t v hst]
        obtain ⟨a, b, c⟩ := ih f vs k hv.2 (by simpa using hl) hb.2 hs
        refine ⟨?_, ?_, c⟩
        · rw [a]; simp [nLands, (not_both hst).1]
        · simp [b]
      | false =>
        have hla : lands v = true := by
          have := hv.1; rw [hst] at this; simpa using this
        have hbt : v.ts = .begin := by
          simp only [lands, Bool.and_eq_true, beq_iff_eq] at hla; exact hla.1.1.1.1
        obtain ⟨x, y, z⟩ := land_step now f t v k hla (hb.1 hbt) hs
        obtain ⟨a, b, c⟩ := ih (touchStep now f t v).1 vs (k + 1) hv.2 (by simpa using hl) hb.2 x
        refine ⟨?_, ?_, z.trans c⟩
        · rw [a]; congr 1; simp [nLands, hla]; omega
        · simp [b, y]

theorem beginAll_ok (ts : List Touch) (vs : List View) :
    ∀ p ∈ (beginAll ts vs).zip vs, p.2.ts = .begin → p.1.ok = true := by
  induction ts generalizing vs with
  | nil => cases vs <;> simp [beginAll]
  | cons t ts ih =>
    cases vs with
    | nil => simp
    | cons v vs =>
      simp only [beginAll, List.zip_cons_cons, List.mem_cons, forall_eq_or_imp]
      refine ⟨?_, ih vs⟩
      intro h; simp [beginFlags, h, Touch.ok]

/-- Every finger that is down takes part. -/
def AllOk (ts : List Touch) : Prop := ∀ t ∈ ts, t.phase = .down → t.ok = true

theorem setPhases_ok (ts : List Touch) (vs : List View) (h : AllOk ts)
    (hf : fitsAll (ts.map Touch.phase) vs = true) : AllOk (setPhases (beginAll ts vs) vs) := by
  induction ts generalizing vs with
  | nil => cases vs <;> simp [beginAll, setPhases, AllOk]
  | cons t ts ih =>
    cases vs with
    | nil => simp [fitsAll] at hf
    | cons v vs =>
      simp only [List.map_cons, fitsAll, Bool.and_eq_true] at hf
      have := ih vs (fun u hu => h u (List.mem_cons_of_mem _ hu)) hf.2
      intro u hu
      simp only [beginAll, setPhases, List.mem_cons] at hu
      rcases hu with rfl | hu
      · intro hd
        have ht := h t (List.mem_cons_self ..)
        obtain ⟨ph, th, pa⟩ := t
        have h1 := hf.1
        simp only at hd ht
        cases hts : v.ts <;> rw [hts] at hd <;> simp [phaseAfter] at hd
        · simp [beginFlags, hts, Touch.ok]
        · simp only [Spec.fits, hts, beq_iff_eq] at h1
          simpa [beginFlags, hts, Touch.ok] using ht h1
      · exact this u hu

/-- During the landing part of a tap. -/
structure Landing (s : State) (k : Nat) (m : Map) (d : Bool) : Prop where
  on : s.on = true
  dev : s.devSuspended = false
  st : s.fsm.st = landSt k
  map : s.fsm.map = m
  drag : s.fsm.drag = d
  ok : AllOk s.touches

theorem landSt_idle {k : Nat} (h : landSt k = .idle) : k = 0 := by
  match k with
  | 0 => rfl
  | 1 | 2 | 3 | _ + 4 => cases h

theorem updateMap_of_ne {f : Fsm} (h : f.st ≠ .idle) : updateMap f = f := if_neg h

theorem checkCounts_same (f : Fsm) (vs : List View) :
    (checkCounts f vs).st = f.st ∧ Same f (checkCounts f vs) := by
  unfold checkCounts; split <;> exact ⟨rfl, rfl, rfl, rfl⟩

theorem land_frame (s : State) (now : Nat) (vs : List View) (k : Nat) (m : Map) (d : Bool)
    (h : Landing s k m d) (hv : (vs.all fun v => still v || lands v) = true)
    (hf : fitsAll (s.touches.map Touch.phase) vs = true) (hk : 0 < k + nLands vs) :
    Landing (frame s now false vs).1 (k + nLands vs) m d ∧ (frame s now false vs).2 = [] := by
  have hlen : (beginAll s.touches vs).length = vs.length := by
    rw [beginAll_length]; simpa using fitsAll_length hf
  obtain ⟨a, b, c⟩ := land_loop now s.fsm (beginAll s.touches vs) vs k hv hlen
    (beginAll_ok _ _) h.st
  unfold frame
  rw [if_pos ⟨h.on, h.dev⟩]
  simp only [handleState, Bool.false_eq_true, if_false, ok]
  rw [b]
  obtain ⟨e1, e2⟩ := checkCounts_same (touchLoop now s.fsm (beginAll s.touches vs) vs).1 vs
  have hne : (checkCounts (touchLoop now s.fsm (beginAll s.touches vs) vs).1 vs).st ≠ .idle := by
    rw [e1, a]; intro hi; have := landSt_idle hi; omega
  rw [updateMap_of_ne hne]
  refine ⟨⟨h.on, h.dev, ?_, ?_, ?_, ?_⟩, rfl⟩
  · exact e1.trans a
  · exact (c.trans e2).map.trans h.map
  · exact (c.trans e2).drag.trans h.drag
  · exact setPhases_ok _ _ h.ok hf

theorem land_ops (s : State) (ops : List Op) (k : Nat) (m : Map) (d : Bool) (h : Landing s k m d)
    (hk : 0 < k) (hi : Inv s) (hv : (ops.all landing) = true)
    (hp : Possible (s.touches.map Touch.phase) ops) :
    Landing (run s ops).1 (k + landed ops) m d ∧ (run s ops).2 = [] := by
  induction ops generalizing s k with
  | nil => exact ⟨h, rfl⟩
  | cons op ops ih =>
    simp only [List.all_cons, Bool.and_eq_true] at hv
    have hst := step_inv s op hi (by intro now btn vs e; subst e; exact hp.1)
    cases op with
    | frame now btn vs =>
      simp only [landing, Bool.and_eq_true, Bool.not_eq_true'] at hv
      obtain ⟨⟨rfl, hv1⟩, hv2⟩ := hv
      obtain ⟨a, b⟩ := land_frame s now vs k m d h hv1 hp.1 (by omega)
      obtain ⟨a', b'⟩ := ih (frame s now false vs).1 (k + nLands vs) a (by omega) hst.1 hv2
        (by rw [show (frame s now false vs).1.touches.map Touch.phase = _ from hst.2.2]; exact hp.2)
      simp only [run, step, landed]
      refine ⟨?_, by rw [b, b']; rfl⟩
      rw [← Nat.add_assoc]; exact a'
    | setMap m' =>
      have hne : s.fsm.st ≠ .idle := by
        rw [h.st]; intro hi; have := landSt_idle hi; omega
      have e : setMap s m' = { s with fsm := { s.fsm with wantMap := m' } } := by
        unfold setMap; rw [updateMap_of_ne (f := { s.fsm with wantMap := m' }) hne]
      obtain ⟨a', b'⟩ := ih (setMap s m') k (by rw [e]; exact ⟨h.on, h.dev, h.st, h.map, h.drag, h.ok⟩) hk
        hst.1 hv.2 hp.2
      simp only [run, step, landed]
      exact ⟨a', b'⟩
    | _ => simp [landing] at hv

/-- The states with `r` of `n` fingers still down. -/
def LiftSt (n r : Nat) (d : Bool) (st : TSt) : Prop :=
  match n, r with
  | 1, 1 => st = .touch
  | 2, 2 => st = .touch2
  | 2, 1 => st = .touch2Release
  | 3, 3 => st = .touch3
  | 3, 2 => st = .touch3Release
  | 3, 1 => st = .touch3Release2
  | 1, 0 => st = if d then .tapped .one else .idle
  | 2, 0 => st = if d then .tapped .two else .idle
  | 3, 0 => st = if d then .tapped .three else .idle
  | _, _ => 3 < n ∧ (st = .dead ∨ st = .idle)

theorem lift_one (f : Fsm) (now n r : Nat) (hr : 0 < r) (hrn : r ≤ n) (h : LiftSt n r f.drag f.st) :
    LiftSt n (r - 1) f.drag (handle f now .release).1.st ∧ (handle f now .release).2.2 = false ∧
    edges (handle f now .release).2.1 = (if r = 1 then tapEdges f.map f.drag n else []) ∧
    Same f (handle f now .release).1 := by
  obtain ⟨st, timer, pressed, sp, sr, map, wm, drag, dl, nf, bugs, faults⟩ := f
  match n, r, hr, hrn with
  | 1, 1, _, _ =>
    simp only [LiftSt] at h; subst h
    cases drag <;> cases map <;> exact ⟨rfl, rfl, rfl, rfl, rfl, rfl⟩
  | 2, 2, _, _ =>
    simp only [LiftSt] at h; subst h
    exact ⟨rfl, rfl, rfl, rfl, rfl, rfl⟩
  | 2, 1, _, _ =>
    simp only [LiftSt] at h; subst h
    cases drag <;> cases map <;> exact ⟨rfl, rfl, rfl, rfl, rfl, rfl⟩
  | 3, 3, _, _ =>
    simp only [LiftSt] at h; subst h
    exact ⟨rfl, rfl, rfl, rfl, rfl, rfl⟩
  | 3, 2, _, _ =>
    simp only [LiftSt] at h; subst h
    exact ⟨rfl, rfl, rfl, rfl, rfl, rfl⟩
  | 3, 1, _, _ =>
    simp only [LiftSt] at h; subst h
    cases drag <;> cases map <;> exact ⟨rfl, rfl, rfl, rfl, rfl, rfl⟩
  | n + 4, r, hr, hrn =>
    have hst : st = .dead ∨ st = .idle := h.2
    rcases hst with rfl | rfl
    · by_cases h0 : nf = 0
      · subst h0
        refine ⟨⟨by omega, Or.inr rfl⟩, rfl, ?_, rfl, rfl, rfl⟩
        split <;> cases map <;> rfl
      · refine ⟨⟨by omega, Or.inl ?_⟩, ?_, ?_, ?_, ?_, ?_⟩ <;>
          simp [handle, dispatch, deadH, h0, settle, clearTimer, ok, edges, tapEdges, tapButton]
    · refine ⟨⟨by omega, Or.inr rfl⟩, rfl, ?_, rfl, rfl, rfl⟩
      split <;> cases map <;> rfl

theorem lift_step (now : Nat) (f : Fsm) (t : Touch) (v : View) (n r : Nat) (h : lifts v = true)
    (ht : t.ok = true) (hr : 0 < r) (hrn : r ≤ n) (hs : LiftSt n r f.drag f.st) :
    LiftSt n (r - 1) f.drag (touchStep now f t v).1.st ∧ (touchStep now f t v).2.1 = t ∧
    edges (touchStep now f t v).2.2 = (if r = 1 then tapEdges f.map f.drag n else []) ∧
    Same f (touchStep now f t v).1 := by
  obtain ⟨ts, dirty, palm, thumbTap, thumb, palmTap, exceeds⟩ := v
  simp only [lifts, Bool.and_eq_true, beq_iff_eq, Bool.not_eq_true'] at h
  obtain ⟨⟨rfl, rfl⟩, rfl⟩ := h
  obtain ⟨ph, th, pa⟩ := t
  simp only [Touch.ok, Bool.and_eq_true, Bool.not_eq_true'] at ht
  obtain ⟨rfl, rfl⟩ := ht
  have hd : (decFingers f).st = f.st ∧ Same f (decFingers f) := by
    unfold decFingers; split <;> exact ⟨rfl, rfl, rfl, rfl⟩
  have := lift_one (decFingers f) now n r hr hrn (by rw [hd.1, hd.2.drag]; exact hs)
  rw [hd.2.drag, hd.2.map] at this
  obtain ⟨a, b, c, e⟩ := this
  simp only [touchStep, endStep]
  refine ⟨a, ?_, c, hd.2.trans e⟩
  simp [b]

theorem lift_loop (now : Nat) (f : Fsm) (ts : List Touch) (vs : List View) (n r : Nat)
    (hv : (vs.all fun v => still v || lifts v) = true) (hl : ts.length = vs.length)
    (hb : ∀ p ∈ ts.zip vs, p.2.ts = .end_ → p.1.ok = true) (hr : nLifts vs ≤ r) (hrn : r ≤ n)
    (hs : LiftSt n r f.drag f.st) :
    LiftSt n (r - nLifts vs) f.drag (touchLoop now f ts vs).1.st ∧ (touchLoop now f ts vs).2.1 = ts ∧
    edges (touchLoop now f ts vs).2.2 =
      (if 0 < r ∧ r = nLifts vs then tapEdges f.map f.drag n else []) ∧
    Same f (touchLoop now f ts vs).1 := by
  induction ts generalizing f vs r with
  | nil =>
    cases vs with
    | nil =>
      refine ⟨hs, rfl, ?_, Same.refl _⟩
      rw [if_neg]; · rfl
      simp [nLifts]; omega
    | cons v vs => simp at hl
  | cons t ts ih =>
    cases vs with
    | nil => simp at hl
    | cons v vs =>
      simp only [List.all_cons, Bool.and_eq_true] at hv
      simp only [List.zip_cons_cons, List.mem_cons, forall_eq_or_imp] at hb
      simp only [touchLoop]
      cases hst : still v with
      | true =>
        have hn : nLifts (v :: vs) = nLifts vs := by simp [nLifts, (not_both hst).2]
        rw [hn] at hr ⊢
        rw [still_step now f t v hst]
        obtain ⟨a, b, c, e⟩ := ih f vs r hv.2 (by simpa using hl) hb.2 hr hrn hs
        exact ⟨a, by rw [b], by simpa using c, e⟩
      | false =>
        have hla : lifts v = true := by
          have := hv.1; rw [hst] at this; simpa using this
        have hbt : v.ts = .end_ := by
          simp only [lifts, Bool.and_eq_true, beq_iff_eq] at hla; exact hla.1.1
        have hn : nLifts (v :: vs) = nLifts vs + 1 := by simp [nLifts, hla]
        rw [hn] at hr ⊢
        obtain ⟨x, y, z, w⟩ := lift_step now f t v n r hla (hb.1 hbt) (by omega) hrn hs
        obtain ⟨a, b, c, e⟩ := ih (touchStep now f t v).1 vs (r - 1) hv.2 (by simpa using hl) hb.2
          (by omega) (by omega) (by rw [w.drag]; exact x)
        rw [w.drag] at a c
        rw [w.map] at c
        refine ⟨?_, by rw [y, b], ?_, w.trans e⟩
        · rw [show r - (nLifts vs + 1) = r - 1 - nLifts vs by omega]; exact a
        · rw [edges_append, z, c]
          by_cases h1 : r = 1
          · subst h1
            rw [if_pos rfl, if_neg (by omega), if_pos ⟨by omega, by omega⟩]; simp
          · rw [if_neg h1]
            by_cases h2 : r = nLifts vs + 1
            · rw [if_pos ⟨by omega, by omega⟩, if_pos ⟨by omega, h2⟩]; rfl
            · rw [if_neg (by omega), if_neg (by omega)]; rfl

/-- During the lifting part of a tap of `n` fingers, `r` of them still down. -/
structure Lifting (s : State) (n r : Nat) (m : Map) (d : Bool) : Prop where
  on : s.on = true
  dev : s.devSuspended = false
  st : LiftSt n r d s.fsm.st
  map : 0 < r → n ≤ 3 → s.fsm.map = m
  drag : s.fsm.drag = d
  ok : AllOk s.touches

theorem liftSt_of_land {k : Nat} {d : Bool} (h : 0 < k) : LiftSt k k d (landSt k) := by
  match k, h with
  | 1, _ | 2, _ | 3, _ => rfl
  | k + 4, _ => exact ⟨by omega, Or.inl rfl⟩

theorem liftSt_busy {n r : Nat} {d : Bool} {st : TSt} (hr : 0 < r) (hrn : r ≤ n) (hn : n ≤ 3)
    (h : LiftSt n r d st) : st ≠ .idle := by
  match n, r, hr, hrn with
  | 1, 1, _, _ | 2, 2, _, _ | 2, 1, _, _ | 3, 3, _, _ | 3, 2, _, _ | 3, 1, _, _ =>
    simp only [LiftSt] at h; subst h; intro h; cases h
  | n + 4, r, _, _ => omega

theorem zip_end_ok (ts : List Touch) (vs : List View) (h : AllOk ts)
    (hf : fitsAll (ts.map Touch.phase) vs = true) :
    ∀ p ∈ (beginAll ts vs).zip vs, p.2.ts = .end_ → p.1.ok = true := by
  induction ts generalizing vs with
  | nil => cases vs <;> simp [beginAll]
  | cons t ts ih =>
    cases vs with
    | nil => simp
    | cons v vs =>
      simp only [List.map_cons, fitsAll, Bool.and_eq_true] at hf
      simp only [beginAll, List.zip_cons_cons, List.mem_cons, forall_eq_or_imp]
      refine ⟨?_, ih vs (fun u hu => h u (List.mem_cons_of_mem _ hu)) hf.2⟩
      intro he
      have h1 := hf.1
      simp only [Spec.fits, he, Bool.and_eq_true, beq_iff_eq] at h1
      have := h t (List.mem_cons_self ..) h1.1
      simpa [beginFlags, he] using this

theorem lift_frame (s : State) (now : Nat) (vs : List View) (n r : Nat) (m : Map) (d : Bool)
    (h : Lifting s n r m d) (hv : (vs.all fun v => still v || lifts v) = true)
    (hf : fitsAll (s.touches.map Touch.phase) vs = true) (hr : nLifts vs ≤ r) (hrn : r ≤ n) :
    Lifting (frame s now false vs).1 n (r - nLifts vs) m d ∧
    edges (frame s now false vs).2 = (if 0 < r ∧ r = nLifts vs then tapEdges m d n else []) := by
  have hlen : (beginAll s.touches vs).length = vs.length := by
    rw [beginAll_length]; simpa using fitsAll_length hf
  obtain ⟨a, b, c, e⟩ := lift_loop now s.fsm (beginAll s.touches vs) vs n r hv hlen
    (zip_end_ok _ _ h.ok hf) hr hrn (by rw [h.drag]; exact h.st)
  unfold frame
  rw [if_pos ⟨h.on, h.dev⟩]
  simp only [handleState, Bool.false_eq_true, if_false, ok, List.nil_append]
  rw [b]
  obtain ⟨e1, e2⟩ := checkCounts_same (touchLoop now s.fsm (beginAll s.touches vs) vs).1 vs
  generalize hg : checkCounts (touchLoop now s.fsm (beginAll s.touches vs) vs).1 vs = g at e1 e2
  have hu : (updateMap g).st = g.st ∧ (updateMap g).drag = g.drag := by
    unfold updateMap; split <;> exact ⟨rfl, rfl⟩
  rw [h.drag] at a c
  refine ⟨⟨h.on, h.dev, ?_, ?_, ?_, ?_⟩, ?_⟩
  · show LiftSt _ _ _ (updateMap g).st
    rw [hu.1, e1]; exact a
  · intro h0 h3
    show (updateMap g).map = m
    rw [updateMap_of_ne]
    · exact (e.trans e2).map.trans (h.map (by omega) h3)
    · rw [e1]; exact liftSt_busy h0 (by omega) h3 a
  · show (updateMap g).drag = d
    rw [hu.2]; exact (e.trans e2).drag.trans h.drag
  · exact setPhases_ok _ _ h.ok hf
  · rw [c]
    split
    · rename_i hc
      by_cases h3 : n ≤ 3
      · rw [h.map hc.1 h3]
      · have hb : ∀ m, tapButton m n = none := by
          intro m
          match n, h3 with
          | n + 4, _ => cases m <;> rfl
          | 0, h3 | 1, h3 | 2, h3 | 3, h3 => exact absurd (by omega) h3
        simp [tapEdges, hb]
    · rfl

theorem lift_ops (s : State) (ops : List Op) (n r : Nat) (m : Map) (d : Bool) (h : Lifting s n r m d)
    (hr : lifted ops ≤ r) (hrn : r ≤ n) (hi : Inv s) (hv : (ops.all lifting) = true)
    (hp : Possible (s.touches.map Touch.phase) ops) :
    Lifting (run s ops).1 n (r - lifted ops) m d ∧
    edges (run s ops).2 = (if 0 < r ∧ r = lifted ops then tapEdges m d n else []) := by
  induction ops generalizing s r with
  | nil =>
    refine ⟨h, ?_⟩
    rw [if_neg]; · rfl
    simp [lifted]; omega
  | cons op ops ih =>
    simp only [List.all_cons, Bool.and_eq_true] at hv
    have hst := step_inv s op hi (by intro now btn vs e; subst e; exact hp.1)
    cases op with
    | frame now btn vs =>
      simp only [lifting, Bool.and_eq_true, Bool.not_eq_true'] at hv
      obtain ⟨⟨rfl, hv1⟩, hv2⟩ := hv
      have hlf : lifted (Op.frame now false vs :: ops) = nLifts vs + lifted ops := rfl
      rw [hlf] at hr ⊢
      obtain ⟨a, b⟩ := lift_frame s now vs n r m d h hv1 hp.1 (by omega) hrn
      obtain ⟨a', b'⟩ := ih (frame s now false vs).1 (r - nLifts vs) a (by omega) (by omega) hst.1 hv2
        (by rw [show (frame s now false vs).1.touches.map Touch.phase = _ from hst.2.2]; exact hp.2)
      simp only [run, step]
      refine ⟨?_, ?_⟩
      · rw [← Nat.sub_sub]; exact a'
      · rw [edges_append, b, b']
        by_cases h0 : 0 < r
        · by_cases h1 : r = nLifts vs
          · rw [if_pos ⟨h0, h1⟩, if_neg (by omega), if_pos ⟨h0, by omega⟩]; simp
          · rw [if_neg (by omega)]
            by_cases h2 : r = nLifts vs + lifted ops
            · rw [if_pos ⟨by omega, by omega⟩, if_pos ⟨h0, h2⟩]; rfl
            · rw [if_neg (by omega), if_neg (by omega)]; rfl
        · rw [if_neg (by omega), if_neg (by omega), if_neg (by omega)]; rfl
    | setMap m' =>
      have hu : (setMap s m').fsm.st = s.fsm.st ∧ (setMap s m').fsm.drag = s.fsm.drag ∧
          (s.fsm.st ≠ .idle → (setMap s m').fsm.map = s.fsm.map) := by
        unfold setMap updateMap; simp only
        split
        · exact ⟨rfl, rfl, fun hne => by rename_i hh; exact absurd hh hne⟩
        · exact ⟨rfl, rfl, fun _ => rfl⟩
      obtain ⟨a', b'⟩ := ih (setMap s m') r
        ⟨h.on, h.dev, by rw [hu.1]; exact h.st,
          fun h0 h3 => by rw [hu.2.2 (liftSt_busy h0 hrn h3 h.st)]; exact h.map h0 h3,
          by rw [hu.2.1]; exact h.drag, h.ok⟩ (by simpa [lifted] using hr) hrn hst.1 hv.2 hp.2
      simp only [run, step, lifted]
      exact ⟨a', b'⟩
    | _ => simp [lifting] at hv

end Libinput.Tap
