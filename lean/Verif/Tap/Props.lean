import Verif.Tap.TapLemmas
/-
Properties C15, C16 and C17: tap-to-click.
-/
set_option linter.unusedVariables false
namespace Libinput.Tap
open Libinput.Buttons (Call)
open Libinput.Tap.Spec

theorem buttons_eq_edges (cs : List Call) : buttons cs = edges cs := rfl

theorem possible_append (ps : List Phase) (a b : List Op) :
    Possible ps (a ++ b) ↔ Possible ps a ∧ Possible (a.foldl follow ps) b := by
  induction a generalizing ps with
  | nil => simp [Possible]
  | cons op a ih => simp only [List.cons_append, Possible, List.foldl_cons, ih, and_assoc]

/-- Everything known about a reachable state. -/
theorem reach (n : Nat) (en : Bool) (ops : List Op) (h : Possible (List.replicate n .none) ops) :
    Inv (run (init n en) ops).1 ∧
    Alt.Valid (fun _ => false) (edges (run (init n en) ops).2) ∧
    (∀ c, held (run (init n en) ops).2 c = heldCode (run (init n en) ops).1.fsm c) ∧
    (run (init n en) ops).1.touches.map Touch.phase = phases n ops := by
  obtain ⟨a, b, c⟩ := run_inv (init n en) ops (init_inv n en) (by rw [init_phases]; exact h)
  have h0 : heldCode (init n en).fsm = fun _ => false := by funext c; rfl
  have bv := b.valid; have ba := b.after
  rw [h0] at bv ba
  refine ⟨a, bv, ?_, by rw [c, init_phases]; rfl⟩
  intro c
  show Libinput.Spec.heldAfter (edges _) c = _
  rw [Alt.heldAfter_eq_after, ba]

/-! ### C15 -/

/-- **C15.** In every history a touchpad can produce — any number of fingers, any palm, thumb,
motion, clickpad, timer and configuration events — the button events of tapping alternate
press/release per button. -/
theorem tap_buttons_alternate (n : Nat) (en : Bool) (ops : List Op)
    (h : Possible (List.replicate n .none) ops) :
    Libinput.Spec.Alternating (buttons (run (init n en) ops).2) :=
  (Alt.alternating_iff_valid _).2 (reach n en ops h).2.1

/-- **C15.** At most one button is held by tapping at any time. -/
theorem one_button_at_a_time (n : Nat) (en : Bool) (ops : List Op)
    (h : Possible (List.replicate n .none) ops) (c c' : Nat)
    (h1 : held (run (init n en) ops).2 c = true) (h2 : held (run (init n en) ops).2 c' = true) :
    c = c' := by
  obtain ⟨a, b, hh, _⟩ := reach n en ops h
  rw [hh] at h1 h2
  unfold heldCode at h1 h2
  cases hs : heldOf (run (init n en) ops).1.fsm.st with
  | none => rw [hs] at h1; cases h1
  | some m =>
    rw [hs] at h1 h2
    simp only [decide_eq_true_eq] at h1 h2
    exact h1.symm.trans h2

theorem mem_countDown {ts : List Touch} (h : 0 < countDown ts) :
    ∃ t ∈ ts, t.phase = .down ∧ t.isPalm = false ∧ t.isThumb = false := by
  unfold countDown at h
  obtain ⟨t, ht⟩ := List.exists_mem_of_length_pos h
  simp only [List.mem_filter, decide_eq_true_eq, Touch.ok, Bool.and_eq_true, Bool.not_eq_true'] at ht
  exact ⟨t, ht.1, ht.2.1, ht.2.2.1, ht.2.2.2⟩

/-- **C15.** Whenever a button is held, there is a finger down that takes part in tapping (it is
neither a palm nor a thumb), or the timer is pending. -/
theorem held_button_has_cause (n : Nat) (en : Bool) (ops : List Op)
    (h : Possible (List.replicate n .none) ops) (c : Nat)
    (hc : held (run (init n en) ops).2 c = true) :
    (∃ t ∈ (run (init n en) ops).1.touches,
      t.phase = .down ∧ t.isPalm = false ∧ t.isThumb = false) ∨
    (run (init n en) ops).1.fsm.timer.isSome = true := by
  obtain ⟨a, b, hh, _⟩ := reach n en ops h
  rw [hh] at hc
  generalize (run (init n en) ops).1 = s at *
  by_cases hl : s.on = true ∧ s.devSuspended = false
  · have hlive := a.live hl.1 hl.2
    have ht := a.fsm.timer
    have hf := a.fsm.fits
    by_cases hp : 0 < s.fsm.nf
    · exact Or.inl (mem_countDown (hlive ▸ hp))
    · right
      have h0 : s.fsm.nf = 0 := by omega
      rw [h0] at hf
      apply ht
      unfold heldCode at hc
      cases hst : s.fsm.st <;> rw [hst] at hc hf <;> simp only [heldOf, Bool.false_eq_true] at hc <;>
        first | rfl | (exact absurd (hf _ rfl) (by decide))
  · obtain ⟨_, r⟩ := a.rest hl
    unfold heldCode at hc
    rcases r with r | r <;> rw [r] at hc <;> cases hc

theorem timeout_releases (f : Fsm) (now : Nat) (h : Fits f.st 0) :
    heldOf (handle f now .timeout).1.st = none := by
  obtain ⟨st, timer, pressed, sp, sr, map, wm, drag, dl, nf, bugs, faults⟩ := f
  cases st <;> first | rfl | (exact absurd (h _ rfl) (by decide))

/-- **C15.** With no finger down that takes part in tapping, the expiry of the timer releases
whatever is held. (When the timer is not pending nothing is held, see `held_button_has_cause`.) -/
theorem timer_releases (n : Nat) (en : Bool) (ops : List Op) (now : Nat)
    (h : Possible (List.replicate n .none) ops)
    (hd : ∀ t ∈ (run (init n en) ops).1.touches,
      ¬ (t.phase = .down ∧ t.isPalm = false ∧ t.isThumb = false)) (c : Nat) :
    held (run (init n en) (ops ++ [.timeout now])).2 c = false := by
  have h' : Possible (List.replicate n .none) (ops ++ [.timeout now]) :=
    (possible_append _ _ _).2 ⟨h, trivial, trivial⟩
  obtain ⟨a, _, _, _⟩ := reach n en ops h
  obtain ⟨_, _, hh, _⟩ := reach n en _ h'
  rw [hh, run_append]
  show heldCode (fire (run (init n en) ops).1 now).1.fsm c = false
  generalize (run (init n en) ops).1 = s at *
  have h0 : s.fsm.nf = 0 := by
    by_cases hl : s.on = true ∧ s.devSuspended = false
    · rw [a.live hl.1 hl.2]
      by_cases hp : 0 < countDown s.touches
      · obtain ⟨t, ht, hx⟩ := mem_countDown hp
        exact absurd hx (hd t ht)
      · omega
    · exact (a.rest hl).1
  have : heldOf (fire s now).1.fsm.st = none :=
    timeout_releases { s.fsm with timer := none } now (h0 ▸ a.fsm.fits)
  rw [heldCode_none this]

/-- **C15, in terms of fingers only.** When every finger has been lifted, then after the timer has
expired nothing is held by tapping; and if something is held before, the timer is pending. -/
theorem nothing_stuck (n : Nat) (en : Bool) (ops : List Op) (now : Nat)
    (h : Possible (List.replicate n .none) ops) (hd : ∀ p ∈ phases n ops, p ≠ .down) :
    (∀ c, held (run (init n en) (ops ++ [.timeout now])).2 c = false) ∧
    (∀ c, held (run (init n en) ops).2 c = true → (run (init n en) ops).1.fsm.timer.isSome = true) := by
  obtain ⟨a, _, _, hp⟩ := reach n en ops h
  have hu := phases_ne_down hp hd
  refine ⟨fun c => timer_releases n en ops now h (fun t ht hx => hu t ht hx.1) c, fun c hc => ?_⟩
  rcases held_button_has_cause n en ops h c hc with ⟨t, ht, hx, _⟩ | h'
  · exact absurd hx (hu t ht)
  · exact h'

/-- **C15.** The state machine never meets an event it calls a bug, its finger count never
underflows and its asserts never fail. -/
theorem no_bug_no_fault (n : Nat) (en : Bool) (ops : List Op)
    (h : Possible (List.replicate n .none) ops) :
    (run (init n en) ops).1.fsm.bugs = 0 ∧ (run (init n en) ops).1.fsm.faults = 0 :=
  ⟨(reach n en ops h).1.fsm.bugs, (reach n en ops h).1.fsm.faults⟩

/-! ### C16 -/

/-- **C16.** A tap: from rest, fingers are put down in one or several frames, then all of them are
lifted in one or several frames, with the map possibly being set in between. Exactly the button of
that number of fingers, in the map in force when the first finger touched, is pressed — and
released at once if dragging is off. Four or more fingers send nothing. -/
theorem tap_clicks (n : Nat) (en : Bool) (pre : List Op) (now0 : Nat) (vs0 : List View)
    (down up : List Op)
    (hp : Possible (List.replicate n .none) (pre ++ ((.frame now0 false vs0 :: down) ++ up)))
    (hon : (run (init n en) pre).1.on = true) (hdev : (run (init n en) pre).1.devSuspended = false)
    (hidle : (run (init n en) pre).1.fsm.st = .idle) (hup : ∀ p ∈ phases n pre, p ≠ .down)
    (h0 : landing (.frame now0 false vs0) = true) (h1 : 0 < nLands vs0)
    (hdown : down.all landing = true) (hlift : up.all lifting = true)
    (hall : lifted up = nLands vs0 + landed down) :
    buttons (run (init n en) (pre ++ ((.frame now0 false vs0 :: down) ++ up))).2 =
      buttons (run (init n en) pre).2 ++
        tapEdges (run (init n en) pre).1.fsm.map (run (init n en) pre).1.fsm.drag (lifted up) := by
  rw [possible_append, possible_append] at hp
  obtain ⟨hp0, hp1, hp2⟩ := hp
  obtain ⟨a, _, _, hph⟩ := reach n en pre hp0
  rw [run_append, run_append]
  simp only [buttons_eq_edges, edges_append]
  congr 1
  have hpe : pre.foldl follow (List.replicate n .none) = (run (init n en) pre).1.touches.map Touch.phase :=
    hph.symm
  rw [hpe] at hp1 hp2
  generalize (run (init n en) pre).1 = s at *
  have hL : Landing s 0 s.fsm.map s.fsm.drag :=
    ⟨hon, hdev, hidle, rfl, rfl, fun t ht hd => absurd hd (phases_ne_down hph hup t ht)⟩
  have hI1 := step_inv s (.frame now0 false vs0) a (by intro _ _ _ e; injection e with _ _ e; exact e ▸ hp1.1)
  have hv0 : (vs0.all fun v => still v || lands v) = true := by
    simpa [landing] using h0
  obtain ⟨L1, o1⟩ := land_frame s now0 vs0 0 s.fsm.map s.fsm.drag hL hv0 hp1.1 (by omega)
  obtain ⟨L2, o2⟩ := land_ops (frame s now0 false vs0).1 down _ _ _ L1 (by omega) hI1.1 hdown
    (by rw [show (frame s now0 false vs0).1.touches.map Touch.phase = _ from hI1.2.2]; exact hp1.2)
  have hI2 := run_inv s (.frame now0 false vs0 :: down) a hp1
  have hsum : 0 + nLands vs0 + landed down = lifted up := by omega
  rw [hsum] at L2
  have hrun : (run s (.frame now0 false vs0 :: down)).1 = (run (frame s now0 false vs0).1 down).1 := rfl
  have hout : (run s (.frame now0 false vs0 :: down)).2 = [] := by
    show (frame s now0 false vs0).2 ++ _ = []
    rw [o1]; exact o2
  rw [hout, hrun]
  obtain ⟨_, o3⟩ := lift_ops (run (frame s now0 false vs0).1 down).1 up (lifted up) (lifted up)
    s.fsm.map s.fsm.drag
    ⟨L2.on, L2.dev, by rw [L2.st]; exact liftSt_of_land (by omega), fun _ _ => L2.map, L2.drag, L2.ok⟩
    (Nat.le_refl _) (Nat.le_refl _) (hrun ▸ hI2.1) hlift
    (by rw [← hrun, hI2.2.2]; exact hp2)
  rw [o3, if_pos ⟨by omega, rfl⟩]
  rfl

/-- **C16.** A map set while no tap is in progress takes effect at once, whatever happened
before. -/
theorem map_set_at_rest (s : State) (m : Map) (h : s.fsm.st = .idle) :
    (step s (.setMap m)).1.fsm.map = m := by
  simp [step, setMap, updateMap, h]

/-- With dragging off, no event leaves a button held. -/
theorem handle_no_drag (f : Fsm) (now : Nat) (e : TEv) (hd : f.drag = false)
    (h : heldOf f.st = none) : heldOf (handle f now e).1.st = none := by
  obtain ⟨st, timer, pressed, sp, sr, map, wm, drag, dl, nf, bugs, faults⟩ := f
  simp only at hd; subst hd
  cases nf <;> cases st <;> cases e <;> first | rfl | (cases h)

/-- No drag is possible and nothing is held. -/
def NoDrag (f : Fsm) : Prop := f.drag = false ∧ heldOf f.st = none

theorem nodrag_handle (f : Fsm) (now : Nat) (e : TEv) (hp : PressedOk f) (h : NoDrag f) :
    NoDrag (handle f now e).1 ∧ PressedOk (handle f now e).1 :=
  ⟨⟨(handle_keeps f now e hp).drag.trans h.1, handle_no_drag f now e h.1 h.2⟩,
    (handle_keeps f now e hp).pressed⟩

theorem nodrag_nf {f : Fsm} {k : Nat} (h : NoDrag f) : NoDrag { f with nf := k } := h

theorem nodrag_dec {f : Fsm} (h : NoDrag f) (hp : PressedOk f) :
    NoDrag (decFingers f) ∧ PressedOk (decFingers f) := by
  unfold decFingers; split <;> exact ⟨h, hp⟩

theorem nodrag_touchStep (now : Nat) (f : Fsm) (t : Touch) (v : View) (hp : PressedOk f)
    (h : NoDrag f) : NoDrag (touchStep now f t v).1 ∧ PressedOk (touchStep now f t v).1 := by
  have hh := fun e => nodrag_handle f now e hp h
  unfold touchStep
  split
  · exact ⟨h, hp⟩
  split
  · exact ⟨h, hp⟩
  split
  · split
    · exact hh _
    · exact ⟨h, hp⟩
  split
  · exact ⟨h, hp⟩
  · exact ⟨h, hp⟩
  split
  · unfold palmStep
    split
    · exact ⟨h, hp⟩
    · exact nodrag_dec (hh _).1 (hh _).2
  split
  · unfold beginStep
    split
    · exact ⟨h, hp⟩
    · have h1 := nodrag_handle { f with nf := f.nf + 1 } now .touch hp h
      simp only
      split
      · exact nodrag_handle _ now .motion h1.2 h1.1
      · exact h1
  · unfold endStep
    have hdec := nodrag_dec h hp
    exact nodrag_handle _ now .release hdec.2 hdec.1
  · unfold updateStep
    split
    · exact hh _
    · split
      · exact hh _
      · exact ⟨h, hp⟩

theorem nodrag_loop (now : Nat) (f : Fsm) (ts : List Touch) (vs : List View) (hp : PressedOk f)
    (h : NoDrag f) : NoDrag (touchLoop now f ts vs).1 := by
  induction ts generalizing f vs with
  | nil => cases vs <;> exact h
  | cons t ts ih =>
    cases vs with
    | nil => exact h
    | cons v vs =>
      have h1 := nodrag_touchStep now f t v hp h
      exact ih _ vs h1.2 h1.1

theorem nodrag_frame (s : State) (now : Nat) (btn : Bool) (vs : List View) (hp : PressedOk s.fsm)
    (h : NoDrag s.fsm) : NoDrag (frame s now btn vs).1.fsm := by
  have hu : ∀ f : Fsm, NoDrag f → NoDrag (updateMap f) := by
    intro f hf; unfold updateMap; split <;> exact hf
  have hck : ∀ f : Fsm, NoDrag f → NoDrag (checkCounts f vs) := by
    intro f hf; unfold checkCounts; split <;> exact hf
  unfold frame
  split
  · simp only [handleState]
    apply hu; apply hck
    cases btn with
    | false => exact nodrag_loop now _ _ _ hp h
    | true =>
      have h1 := nodrag_handle s.fsm now .button hp h
      exact nodrag_loop now _ _ _ h1.2 h1.1
  · exact hu _ h

theorem nodrag_releaseAll (s : State) (now : Nat) (hp : PressedOk s.fsm) (h : NoDrag s.fsm) :
    NoDrag (releaseAll s now).1.fsm := by
  rw [(releaseAll_eq s now hp).2.1]; exact ⟨h.1, rfl⟩

theorem nodrag_enabledUpdate (s : State) (a b : Bool) (now : Nat) (hp : PressedOk s.fsm)
    (h : NoDrag s.fsm) : NoDrag (enabledUpdate s a b now).1.fsm := by
  unfold enabledUpdate
  simp only
  split
  · exact h
  split
  · exact ⟨h.1, rfl⟩
  · exact nodrag_releaseAll { s with suspended := a, enabled := b } now hp h

theorem nodrag_clear (s : State) (now : Nat) (btn : Bool) (hi : Inv s)
    (h : NoDrag s.fsm) : NoDrag (clear s now btn).1.fsm :=
  nodrag_frame _ now btn _ (releaseAll_inv s now hi.fsm).fsm.pressed
    (nodrag_releaseAll s now hi.fsm.pressed h)

theorem nodrag_step (s : State) (op : Op) (hi : Inv s) (h : NoDrag s.fsm) (ho : noDragOn op = true) :
    NoDrag (step s op).1.fsm := by
  have hp := hi.fsm.pressed
  cases op with
  | frame now btn vs => exact nodrag_frame s now btn vs hp h
  | timeout now => exact (nodrag_handle { s.fsm with timer := none } now .timeout hp h).1
  | setEnabled e now => exact nodrag_enabledUpdate s _ _ now hp h
  | suspend now => exact nodrag_enabledUpdate s _ _ now hp h
  | resume now => exact nodrag_enabledUpdate s _ _ now hp h
  | clear now btn => exact nodrag_clear s now btn hi h
  | devSuspend now btn => exact nodrag_clear s now btn hi h
  | devResume now btn => exact nodrag_clear s now btn hi h
  | setMap m => show NoDrag (updateMap _); unfold updateMap; split <;> exact h
  | setDrag e =>
    refine ⟨?_, h.2⟩
    simp only [noDragOn, Bool.not_eq_true'] at ho
    simp [step, ho]
  | setDragLock e => exact h

theorem nodrag_run (s : State) (ops : List Op) (hi : Inv s) (h : NoDrag s.fsm)
    (hp : Possible (s.touches.map Touch.phase) ops) (ho : ops.all noDragOn = true) :
    NoDrag (run s ops).1.fsm := by
  induction ops generalizing s with
  | nil => exact h
  | cons op ops ih =>
    simp only [List.all_cons, Bool.and_eq_true] at ho
    have hst := step_inv s op hi (by intro now btn vs e; subst e; exact hp.1)
    exact ih _ hst.1 (nodrag_step s op hi h ho.1) (by rw [hst.2.2]; exact hp.2) ho.2

theorem heldOf_of_held {f : Fsm} (h : ∀ c, heldCode f c = false) : heldOf f.st = none := by
  cases hs : heldOf f.st with
  | none => rfl
  | some n =>
    have := h (button f.map n)
    simp [heldCode, hs] at this

/-- **C16.** With dragging off and nothing held, tapping never leaves a button held: after every
further operation everything that was pressed has been released, so taps are released at once and no
drag ever starts. -/
theorem no_drag_when_off (n : Nat) (en : Bool) (pre ops : List Op)
    (hp : Possible (List.replicate n .none) (pre ++ ops))
    (hoff : (run (init n en) pre).1.fsm.drag = false)
    (hnone : ∀ c, held (run (init n en) pre).2 c = false) (ho : ops.all noDragOn = true) (c : Nat) :
    held (run (init n en) (pre ++ ops)).2 c = false := by
  obtain ⟨_, _, hh, _⟩ := reach n en _ hp
  rw [possible_append] at hp
  obtain ⟨a, _, hh0, hph⟩ := reach n en pre hp.1
  rw [hh, run_append]
  have := nodrag_run (run (init n en) pre).1 ops a
    ⟨hoff, heldOf_of_held (fun c => by rw [← hh0]; exact hnone c)⟩
    (by rw [hph]; exact hp.2) ho
  rw [heldCode_none this.2]

/-! ### C17 -/

/-- Tapping is at rest: nothing is held and no finger takes part. -/
def Quiet (s : State) : Prop := s.fsm.nf = 0 ∧ (s.fsm.st = .idle ∨ s.fsm.st = .dead)

theorem quiet_step (now : Nat) (f : Fsm) (t : Touch) (v : View) (p : Phase)
    (hq : f.nf = 0 ∧ (f.st = .idle ∨ f.st = .dead)) (hb : v.ts ≠ .begin) (hpe : pend t v = 0)
    (hf : Spec.fits p v = true) :
    (touchStep now f t v).2.2 = [] ∧ (touchStep now f t v).1.nf = 0 ∧
    ((touchStep now f t v).1.st = .idle ∨ (touchStep now f t v).1.st = .dead) := by
  obtain ⟨st, timer, pressed, sp, sr, map, wm, drag, dl, nf, bugs, faults⟩ := f
  obtain ⟨ph, th, pa⟩ := t
  obtain ⟨ts, dirty, palm, thumbTap, thumb, palmTap, exceeds⟩ := v
  simp only at hq hb
  obtain ⟨rfl, hq⟩ := hq
  unfold touchStep
  split
  · exact ⟨rfl, rfl, hq⟩
  split
  · exact ⟨rfl, rfl, hq⟩
  split
  · split
    · rcases hq with rfl | rfl
      · exact ⟨rfl, rfl, Or.inl rfl⟩
      · exact ⟨rfl, rfl, Or.inl rfl⟩
    · exact ⟨rfl, rfl, hq⟩
  rename_i h1 h2 h3
  simp only [Bool.not_eq_true] at h2 h3
  subst h2 h3
  cases ts with
  | none => exact ⟨rfl, rfl, hq⟩
  | hovering => exact ⟨rfl, rfl, hq⟩
  | begin => exact absurd rfl hb
  | update => simp [pend, Touch.ok] at hpe
  | end_ => simp [pend, Touch.ok] at hpe

theorem quiet_loop (now : Nat) (f : Fsm) (ts : List Touch) (vs : List View) (ps : List Phase)
    (hq : f.nf = 0 ∧ (f.st = .idle ∨ f.st = .dead)) (hl : ts.length = vs.length)
    (hb : (vs.all fun v => v.ts != .begin) = true)
    (hpe : sum2 pend ts vs = 0) (hf : fitsAll ps vs = true) :
    (touchLoop now f ts vs).2.2 = [] ∧ (touchLoop now f ts vs).1.nf = 0 ∧
    ((touchLoop now f ts vs).1.st = .idle ∨ (touchLoop now f ts vs).1.st = .dead) := by
  induction ts generalizing f vs ps with
  | nil =>
    cases vs with
    | nil => exact ⟨rfl, hq⟩
    | cons v vs => simp at hl
  | cons t ts ih =>
    cases vs with
    | nil => simp at hl
    | cons v vs =>
    cases ps with
    | nil => simp [fitsAll] at hf
    | cons p ps =>
      simp only [fitsAll, Bool.and_eq_true] at hf
      simp only [List.all_cons, Bool.and_eq_true, bne_iff_ne, ne_eq] at hb
      simp only [sum2] at hpe
      obtain ⟨a, b⟩ := quiet_step now f t v p hq hb.1 (by omega) hf.1
      obtain ⟨a', b'⟩ := ih (touchStep now f t v).1 vs ps b (by simpa using hl) hb.2 (by omega) hf.2
      simp only [touchLoop]
      exact ⟨by rw [a, a']; rfl, b'⟩

theorem quiet_updateMap {f : Fsm} (h : f.nf = 0 ∧ (f.st = .idle ∨ f.st = .dead)) :
    (updateMap f).nf = 0 ∧ ((updateMap f).st = .idle ∨ (updateMap f).st = .dead) := by
  unfold updateMap; split <;> exact h

theorem quiet_frame (s : State) (now : Nat) (btn : Bool) (vs : List View) (hi : Inv s) (hq : Quiet s)
    (hf : fitsAll (s.touches.map Touch.phase) vs = true)
    (hb : (vs.all fun v => v.ts != .begin) = true) :
    (frame s now btn vs).2 = [] ∧ Quiet (frame s now btn vs).1 := by
  have hlen : (beginAll s.touches vs).length = vs.length := by
    rw [beginAll_length]; simpa using fitsAll_length hf
  unfold frame
  split
  · rename_i hc
    simp only [handleState]
    have hpe : sum2 pend (beginAll s.touches vs) vs = 0 := by
      rw [sum2_pend_begin _ _ hf, ← hi.live hc.1 hc.2]; exact hq.1
    have hbq : (if btn = true then handle s.fsm now .button else ok s.fsm []).2.1 = [] ∧
        (if btn = true then handle s.fsm now .button else ok s.fsm []).1.nf = 0 ∧
        ((if btn = true then handle s.fsm now .button else ok s.fsm []).1.st = .idle ∨
         (if btn = true then handle s.fsm now .button else ok s.fsm []).1.st = .dead) := by
      cases btn with
      | false => exact ⟨rfl, hq⟩
      | true =>
        obtain ⟨⟨st, timer, pressed, sp, sr, map, wm, drag, dl, nf, bugs, faults⟩, tt, e1, e2, e3⟩ := s
        obtain ⟨q1, q2⟩ := hq
        simp only at q1 q2
        subst q1
        rcases q2 with rfl | rfl <;> exact ⟨rfl, rfl, Or.inr rfl⟩
    generalize (if btn = true then handle s.fsm now .button else ok s.fsm []) = b at hbq
    obtain ⟨a, q⟩ := quiet_loop now b.1 (beginAll s.touches vs) vs _ hbq.2 hlen hb hpe hf
    refine ⟨by rw [hbq.1, a]; rfl, ?_⟩
    apply quiet_updateMap
    unfold checkCounts; split <;> exact q
  · exact ⟨rfl, quiet_updateMap hq⟩

theorem quiet_held {s : State} (h : Quiet s) : heldOf s.fsm.st = none := by
  rcases h.2 with h | h <;> rw [h] <;> rfl

theorem quiet_releaseAll (s : State) (now : Nat) (hi : Inv s) (hq : Quiet s) :
    (releaseAll s now).2 = [] := by
  rw [(releaseAll_eq s now hi.fsm.pressed).1, quiet_held hq]

theorem quiet_clear (s : State) (now : Nat) (btn : Bool) (hi : Inv s) (hq : Quiet s) :
    (clear s now btn).2 = [] := by
  have h1 := releaseAll_inv s now hi.fsm
  have e := releaseAll_eq s now hi.fsm.pressed
  have hq1 : Quiet (releaseAll s now).1 := by
    unfold Quiet; rw [e.2.1]; exact ⟨rfl, Or.inl rfl⟩
  have := quiet_frame (releaseAll s now).1 now btn _ h1 hq1 (liftView_fits _) (by
    simp only [List.all_map, List.all_eq_true]
    intro t _
    obtain ⟨ph, th, pa⟩ := t
    cases ph <;> rfl)
  show _ ++ _ = _
  rw [quiet_releaseAll s now hi hq, this.1]; rfl

theorem quiet_enabledUpdate (s : State) (a b : Bool) (now : Nat) (hi : Inv s) (hq : Quiet s) :
    (enabledUpdate s a b now).2 = [] ∧ Quiet (enabledUpdate s a b now).1 := by
  unfold enabledUpdate
  simp only
  split
  · exact ⟨rfl, hq⟩
  split
  · exact ⟨rfl, rfl, Or.inl rfl⟩
  · have e := releaseAll_eq { s with suspended := a, enabled := b } now hi.fsm.pressed
    refine ⟨?_, ?_⟩
    · rw [e.1]; show (match heldOf s.fsm.st with | some n => _ | none => _) = _
      rw [quiet_held hq]
    · unfold Quiet; rw [e.2.1]; exact ⟨rfl, Or.inl rfl⟩

theorem quiet_op (s : State) (op : Op) (hi : Inv s) (hq : Quiet s)
    (hv : ∀ now btn vs, op = .frame now btn vs → fitsAll (s.touches.map Touch.phase) vs = true)
    (hb : noNewTouch op = true) : (step s op).2 = [] ∧ Quiet (step s op).1 := by
  cases op with
  | frame now btn vs => exact quiet_frame s now btn vs hi hq (hv _ _ _ rfl) hb
  | timeout now =>
    obtain ⟨⟨st, timer, pressed, sp, sr, map, wm, drag, dl, nf, bugs, faults⟩, tt, e1, e2, e3⟩ := s
    obtain ⟨q1, q2⟩ := hq
    simp only at q1 q2
    subst q1
    rcases q2 with rfl | rfl
    · exact ⟨rfl, rfl, Or.inl rfl⟩
    · exact ⟨rfl, rfl, Or.inr rfl⟩
  | setEnabled e now => exact quiet_enabledUpdate s _ _ now hi hq
  | suspend now => exact quiet_enabledUpdate s _ _ now hi hq
  | resume now => exact quiet_enabledUpdate s _ _ now hi hq
  | clear now btn => exact ⟨quiet_clear s now btn hi hq, clear_rest s now btn hi⟩
  | devSuspend now btn => exact ⟨quiet_clear s now btn hi hq, clear_rest s now btn hi⟩
  | devResume now btn => exact ⟨quiet_clear s now btn hi hq, clear_rest s now btn hi⟩
  | setMap m => exact ⟨rfl, quiet_updateMap (f := { s.fsm with wantMap := m }) hq⟩
  | setDrag e => exact ⟨rfl, hq⟩
  | setDragLock e => exact ⟨rfl, hq⟩

theorem quiet_run (s : State) (ops : List Op) (hi : Inv s) (hq : Quiet s)
    (hp : Possible (s.touches.map Touch.phase) ops) (hb : ops.all noNewTouch = true) :
    (run s ops).2 = [] := by
  induction ops generalizing s with
  | nil => rfl
  | cons op ops ih =>
    simp only [List.all_cons, Bool.and_eq_true] at hb
    have hv : ∀ now btn vs, op = .frame now btn vs →
        fitsAll (s.touches.map Touch.phase) vs = true := by
      intro now btn vs e; subst e; exact hp.1
    have hst := step_inv s op hi hv
    have hqs := quiet_op s op hi hq hv hb.1
    simp only [run]
    rw [hqs.1, ih _ hst.1 hqs.2 (by rw [hst.2.2]; exact hp.2) hb.2]; rfl

theorem turnsOff_quiet (s : State) (op : Op) (hi : Inv s) (ho : turnsOff op = true) :
    Quiet (step s op).1 := by
  have hst := step_inv s op hi (by intro now btn vs e; subst e; cases ho)
  have hon : ∀ a b now, (enabledUpdate s a b now).1.on = (b && !a) := by
    intro a b now
    unfold enabledUpdate State.on
    simp only
    split
    · rfl
    split
    · rfl
    · rfl
  cases op with
  | setEnabled e now =>
    simp only [turnsOff, Bool.not_eq_true'] at ho
    subst ho
    refine hst.1.rest ?_
    intro hx
    have := hon s.suspended false now
    exact absurd (hx.1.symm.trans this) (by simp)
  | suspend now =>
    refine hst.1.rest ?_
    intro hx
    have := hon true s.enabled now
    exact absurd (hx.1.symm.trans this) (by simp)
  | clear now btn => exact clear_rest s now btn hi
  | devSuspend now btn => exact clear_rest s now btn hi
  | devResume now btn => exact clear_rest s now btn hi
  | _ => cases ho

/-- **C17.** Disabling tapping, or suspending or removing the touchpad, releases at once whatever
tapping holds, in any state. -/
theorem turning_off_releases (n : Nat) (en : Bool) (ops : List Op) (off : Op)
    (h : Possible (List.replicate n .none) ops) (ho : turnsOff off = true) (c : Nat) :
    held (run (init n en) (ops ++ [off])).2 c = false := by
  have h' : Possible (List.replicate n .none) (ops ++ [off]) :=
    (possible_append _ _ _).2 ⟨h, (by cases off <;> first | trivial | (cases ho)), trivial⟩
  obtain ⟨a, _⟩ := reach n en ops h
  obtain ⟨_, _, hh, _⟩ := reach n en _ h'
  rw [hh, run_append]
  have := turnsOff_quiet (run (init n en) ops).1 off a ho
  show heldCode (step (run (init n en) ops).1 off).1.fsm c = false
  rw [heldCode_none (quiet_held this)]

/-- **C17.** And from then on nothing is sent by tapping until a new touch begins, whatever else
happens: timers, motion and lifting of the fingers that were down, palm and thumb detection,
clickpad presses, and any configuration change including switching tapping on again. -/
theorem silent_until_new_touch (n : Nat) (en : Bool) (ops : List Op) (off : Op) (rest : List Op)
    (h : Possible (List.replicate n .none) (ops ++ (off :: rest))) (ho : turnsOff off = true)
    (hb : rest.all noNewTouch = true) :
    (run (init n en) (ops ++ (off :: rest))).2 = (run (init n en) (ops ++ [off])).2 := by
  rw [possible_append] at h
  obtain ⟨a, _, _, hph⟩ := reach n en ops h.1
  have hpe : ops.foldl follow (List.replicate n .none) = (run (init n en) ops).1.touches.map Touch.phase :=
    hph.symm
  rw [hpe] at h
  rw [run_append, run_append]
  have hst := step_inv (run (init n en) ops).1 off a (by intro now btn vs e; subst e; cases ho)
  have := quiet_run (step (run (init n en) ops).1 off).1 rest hst.1 (turnsOff_quiet _ off a ho)
    (by rw [hst.2.2]; exact h.2.2) hb
  simp [run, this]

/-! ### Concrete cases -/

/-- Views for the examples. -/
def vNone : View := ⟨.none, false, false, false, false, false, false⟩
def vBegin : View := ⟨.begin, true, false, false, false, false, false⟩
def vUpdate : View := ⟨.update, true, false, false, false, false, false⟩
def vMove : View := ⟨.update, true, false, false, false, false, true⟩
def vEnd : View := ⟨.end_, true, false, false, false, false, false⟩

/-- `Possible` can be computed. -/
def decPossible : (ps : List Phase) → (ops : List Op) → Decidable (Possible ps ops)
  | _, [] => isTrue trivial
  | ps, op :: ops =>
    have := decPossible (follow ps op) ops
    match op with
    | .frame _ _ vs => inferInstanceAs (Decidable (fitsAll ps vs = true ∧ _))
    | .timeout _ | .setEnabled _ _ | .suspend _ | .resume _ | .clear _ _ | .devSuspend _ _
    | .devResume _ _ | .setMap _ | .setDrag _ | .setDragLock _ => inferInstanceAs (Decidable (True ∧ _))

instance (ps : List Phase) (ops : List Op) : Decidable (Possible ps ops) := decPossible ps ops

/-- A two-finger tap with dragging on. -/
def twoFingerTap : List Op :=
  [.frame 100 false [vBegin, vNone], .frame 110 false [vUpdate, vBegin],
   .frame 120 false [vEnd, vUpdate], .frame 130 false [vNone, vEnd]]

example : Possible (List.replicate 2 .none) twoFingerTap ∧
    (run (init 2 true) twoFingerTap).2 = [⟨110, BTN_RIGHT, true⟩] ∧
    held (run (init 2 true) twoFingerTap).2 BTN_RIGHT = true ∧
    (run (init 2 true) twoFingerTap).1.fsm.timer = some 200130 ∧
    (∀ p ∈ phases 2 twoFingerTap, p ≠ .down) ∧
    (run (init 2 true) (twoFingerTap ++ [.timeout 200130])).2 =
      [⟨110, BTN_RIGHT, true⟩, ⟨120, BTN_RIGHT, false⟩] := by decide +kernel

/-- The hypotheses of `tap_clicks`: a two-finger tap after another tap, with the map changed while
the fingers are down; the old map is used. -/
example : Possible (List.replicate 2 .none) ((twoFingerTap ++ [.timeout 200130]) ++
      ((.frame 300000 false [vBegin, vNone] :: [.setMap .lmr, .frame 300010 false [vUpdate, vBegin]]) ++
        [.frame 300020 false [vEnd, vEnd]])) ∧
    (run (init 2 true) (twoFingerTap ++ [.timeout 200130])).1.on = true ∧
    (run (init 2 true) (twoFingerTap ++ [.timeout 200130])).1.fsm.st = .idle ∧
    (∀ p ∈ phases 2 (twoFingerTap ++ [.timeout 200130]), p ≠ .down) ∧
    landing (.frame 300000 false [vBegin, vNone]) = true ∧
    ([.setMap .lmr, .frame 300010 false [vUpdate, vBegin]] : List Op).all landing = true ∧
    ([.frame 300020 false [vEnd, vEnd]] : List Op).all lifting = true ∧
    tapEdges .lrm true 2 = [⟨BTN_RIGHT, true⟩] ∧
    buttons (run (init 2 true) ((twoFingerTap ++ [.timeout 200130]) ++
      ((.frame 300000 false [vBegin, vNone] :: [.setMap .lmr, .frame 300010 false [vUpdate, vBegin]]) ++
        [.frame 300020 false [vEnd, vEnd]]))).2 =
      [⟨BTN_RIGHT, true⟩, ⟨BTN_RIGHT, false⟩, ⟨BTN_RIGHT, true⟩] := by decide +kernel

/-- Tap and drag: tap, touch again and move: the button stays held while the finger is down. -/
def tapAndDrag : List Op :=
  [.frame 100 false [vBegin], .frame 120 false [vEnd], .frame 200 false [vBegin],
   .frame 210 false [vMove]]

example : Possible (List.replicate 1 .none) tapAndDrag ∧
    held (run (init 1 true) tapAndDrag).2 BTN_LEFT = true ∧
    (run (init 1 true) tapAndDrag).1.touches = [⟨.down, false, false⟩] ∧
    (run (init 1 true) (tapAndDrag ++ [.frame 300 false [vEnd]])).2 =
      [⟨100, BTN_LEFT, true⟩, ⟨300, BTN_LEFT, false⟩] ∧
    -- with drag lock it is held until the timer
    (run (init 1 true) (.setDragLock true :: tapAndDrag ++ [.frame 300 false [vEnd]])).2 =
      [⟨100, BTN_LEFT, true⟩] ∧
    (run (init 1 true) (.setDragLock true :: tapAndDrag ++ [.frame 300 false [vEnd], .timeout 300300])).2 =
      [⟨100, BTN_LEFT, true⟩, ⟨300300, BTN_LEFT, false⟩] := by decide +kernel

/-- With dragging off. -/
example : (run (init 1 true) (.setDrag false :: tapAndDrag)).2 =
      [⟨100, BTN_LEFT, true⟩, ⟨120, BTN_LEFT, false⟩] ∧
    (run (init 1 true) [.setDrag false]).1.fsm.drag = false ∧
    tapAndDrag.all noDragOn = true := by decide +kernel

/-- Turning tapping off in the middle of a drag, then on again with the finger still down: it is
ignored until it has been lifted. -/
example :
    (run (init 1 true) (tapAndDrag ++ [.setEnabled false 220])).2 =
      [⟨100, BTN_LEFT, true⟩, ⟨220, BTN_LEFT, false⟩] ∧
    (run (init 1 true) (tapAndDrag ++ [.setEnabled false 220, .setEnabled true 230,
        .frame 240 false [vMove], .frame 250 false [vEnd], .timeout 500000])).2 =
      [⟨100, BTN_LEFT, true⟩, ⟨220, BTN_LEFT, false⟩] ∧
    Possible (List.replicate 1 .none) (tapAndDrag ++ [.setEnabled false 220, .setEnabled true 230,
        .frame 240 false [vMove], .frame 250 false [vEnd], .timeout 500000]) := by decide +kernel

/-- A pressed clickpad without a finger that takes part moves the state machine to `DEAD` with no
finger down, so `tap_clicks` asks for `idle` and not only for no finger down: the next tap is lost. -/
theorem click_without_finger_swallows_tap :
    ∃ ops, Possible (List.replicate 1 .none) ops ∧ (∀ p ∈ phases 1 ops, p ≠ .down) ∧
      (run (init 1 true) ops).1.on = true ∧ (run (init 1 true) ops).1.fsm.timer = none ∧
      (run (init 1 true) (ops ++ [.frame 100 false [vBegin], .frame 110 false [vEnd]])).2 = [] :=
  ⟨[.frame 50 true [vNone]], by decide +kernel⟩

end Libinput.Tap
