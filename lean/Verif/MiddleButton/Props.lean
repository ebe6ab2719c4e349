import Verif.MiddleButton.Lemmas
import Verif.Buttons.Props
namespace Libinput.MiddleButton
open Libinput.Buttons (Call exec)
open Libinput.MiddleButton.Spec
open Libinput.Spec (Alternating heldAfter)

/-! ## Property theorems: middle-button emulation (C06, C07, C08) -/

/-- What the client receives: the emulation's output sent through the per-device gate. -/
def delivered (en : Bool) (ops : List Op) : List Buttons.Ev × Option Buttons.Stop :=
  Buttons.run Buttons.init (run (init en) ops).2

/-- **C06.**  For every history of physical button events, timer dispatches and setting changes (the
setting not switched on while a button is held), the process does not abort, the delivered events
alternate per button, and no internal "invalid event" is ever logged. -/
theorem middle_events_alternate_no_abort (en : Bool) (ops : List Op)
    (hb : ButtonsWellFormed en ops) (hr : EnabledOnlyAtRest en ops) :
    (delivered en ops).2 = none ∧
    Alternating ((delivered en ops).1.map fun e => ⟨e.code, e.down⟩) ∧
    (run (init en) ops).1.errors = 0 := by
  obtain ⟨cnt, hex, hi⟩ := run_inv en ops hb hr
  exact ⟨(Buttons.run_of_exec hex).1, Buttons.device_events_alternate _, hi.errs⟩

theorem delivered_held {en : Bool} {ops : List Op} {cnt : Buttons.Counts}
    (hex : exec (fun _ => 0) (run (init en) ops).2 = some cnt) (b : Nat) :
    heldAfter ((delivered en ops).1.map fun e => ⟨e.code, e.down⟩) b = decide (0 < cnt b) := by
  have h := (Buttons.run_of_exec hex).2
  rw [Alt.heldAfter_eq_after]
  exact congrFun h b

/-- **C06.**  Whenever no physical button is held, no button is reported held. -/
theorem middle_all_up_nothing_held (en : Bool) (ops : List Op)
    (hb : ButtonsWellFormed en ops) (hr : EnabledOnlyAtRest en ops)
    (hup : ∀ b, (world en ops).held b = false) (b : Nat) :
    heldAfter ((delivered en ops).1.map fun e => ⟨e.code, e.down⟩) b = false := by
  obtain ⟨cnt, hex, hi⟩ := run_inv en ops hb hr
  rw [delivered_held hex]
  cases he : (world en ops).eff with
  | true =>
    obtain ⟨hm, hph, hcnt, hpt⟩ := hi.on he
    have hst : (run (init en) ops).1.st ≠ .middle := by
      intro h; rw [h] at hph; simp [Phys, hup] at hph
    rw [hcnt, expected_rest hup _ hst]; rfl
  | false =>
    obtain ⟨_, _, _, hcnt⟩ := hi.off he
    rw [hcnt]; simp [hup]

/-- **C06.**  Buttons other than left, right and middle are never affected: they are reported held
exactly while they are physically held; and left/right are never reported held unless they
physically are. -/
theorem middle_other_buttons_untouched (en : Bool) (ops : List Op)
    (hb : ButtonsWellFormed en ops) (hr : EnabledOnlyAtRest en ops) (b : Nat) :
    (b ≠ 0x110 → b ≠ 0x111 → b ≠ 0x112 →
      heldAfter ((delivered en ops).1.map fun e => ⟨e.code, e.down⟩) b = (world en ops).held b) ∧
    (b ≠ 0x112 → heldAfter ((delivered en ops).1.map fun e => ⟨e.code, e.down⟩) b = true →
      (world en ops).held b = true) ∧
    ((world en ops).held 0x112 = true →
      heldAfter ((delivered en ops).1.map fun e => ⟨e.code, e.down⟩) 0x112 = true) ∧
    (heldAfter ((delivered en ops).1.map fun e => ⟨e.code, e.down⟩) 0x112 = true →
      (world en ops).held 0x112 = true ∨
        ((world en ops).held 0x110 = true ∧ (world en ops).held 0x111 = true)) := by
  obtain ⟨cnt, hex, hi⟩ := run_inv en ops hb hr
  rw [delivered_held hex, delivered_held hex]
  cases he : (world en ops).eff with
  | false =>
    obtain ⟨_, _, _, hcnt⟩ := hi.off he
    subst hcnt
    refine ⟨?_, ?_, ?_, ?_⟩
    · intros; cases h : (world en ops).held b <;> simp [h]
    · intro _; cases h : (world en ops).held b <;> simp [h]
    · intro h; simp [h]
    · cases h : (world en ops).held 0x112 <;> simp [h]
  | true =>
    obtain ⟨hm, hph, hcnt, hpt⟩ := hi.on he
    subst hcnt
    refine ⟨?_, ?_, ?_, ?_⟩
    · intro h1 h2 h3
      simp only [expected, BTN_LEFT, BTN_RIGHT, BTN_MIDDLE, h1, h2, h3, if_false]
      cases (world en ops).held b <;> rfl
    · intro h3
      simp only [expected, BTN_LEFT, BTN_RIGHT, BTN_MIDDLE, h3, if_false]
      cases (world en ops).held b <;> simp
    · intro h
      simp [expected, BTN_LEFT, BTN_RIGHT, BTN_MIDDLE, h]
      omega
    · simp only [expected, BTN_LEFT, BTN_RIGHT, BTN_MIDDLE]
      intro h
      cases hM : (world en ops).held 0x112 with
      | true => exact Or.inl rfl
      | false =>
        right
        by_cases hst : (run (init en) ops).1.st = .middle
        · rw [hst] at hph; exact hph
        · simp [hM, hst] at h

/-- **C06/C08, timeliness.**  A left (right) button held alone long enough for the timer to have been
dispatched is reported held: after any history, once a timer dispatch 50ms after the press has
happened, the machine is not waiting any more. -/
theorem middle_not_waiting_after_timeout (en : Bool) (ops : List Op)
    (hb : ButtonsWellFormed en ops) (hr : EnabledOnlyAtRest en ops) (now : Nat)
    (hnow : (run (init en) ops).1.firstTime + 50000 ≤ now) :
    (run (init en) (ops ++ [.timer now])).1.st ≠ .leftDown ∧
    (run (init en) (ops ++ [.timer now])).1.st ≠ .rightDown := by
  obtain ⟨cnt, hex, hi⟩ := run_inv en ops hb hr
  rw [run_append]
  simp only [run, step, fire]
  have ht := hi.tmr
  unfold TimerOk at ht
  cases hst : (run (init en) ops).1.st <;> rw [hst] at ht <;> simp only at ht <;> rw [ht] <;>
    simp [hst, hnow, handle, ldownH, rdownH, setSt]

/-! ### C07 -/

/-- The last value configured. -/
def lastSet (en : Bool) (ops : List Op) : Bool :=
  ops.foldl (fun v op => match op with | .set on => on | _ => v) en

theorem world_want (en : Bool) (ops : List Op) : (world en ops).want = lastSet en ops := by
  suffices h : ∀ (w : World) (v : Bool), w.want = v →
      (ops.foldl stepWorld w).want = ops.foldl (fun v op => match op with | .set on => on | _ => v) v from
    h _ _ rfl
  induction ops with
  | nil => intro w v h; exact h
  | cons op ops ih =>
    intro w v h
    simp only [List.foldl_cons]
    apply ih
    cases op <;> simp [stepWorld, h]

theorem handle_want_eq (s : State) (t : Nat) (ev : MEv) : (handle s t ev).1.wantEnabled = s.wantEnabled := by
  rcases s with ⟨en, want, st, tm, mask, ft, er⟩
  cases st <;> cases ev <;> rfl

theorem applyConfig_want (s : State) : (applyConfig s).wantEnabled = s.wantEnabled := by
  unfold applyConfig; split
  · rfl
  · split <;> rfl

theorem step_wantEnabled (s : State) (op : Op) :
    (step s op).1.wantEnabled = match op with | .set on => on | _ => s.wantEnabled := by
  cases op with
  | set on => simp [step, setConfig, applyConfig_want]
  | timer now =>
    simp only [step, fire]
    split
    · rfl
    · split
      · exact handle_want_eq _ _ _
      · rfl
  | button t c d =>
    have h1 : ∀ (a : Res), (if a.2.2 = true then (a.1, a.2.1) else (a.1, a.2.1 ++ [(⟨t, c, d⟩ : Call)])).1 = a.1 := by
      intro a; split <;> rfl
    simp only [step, physicalButton]
    rw [h1]
    unfold filterButton
    split
    · rfl
    · split
      · rfl
      · simp only
        split
        · simp only [applyConfig_want, handle_want_eq]
        · simp only [handle_want_eq]

/-- **C07, getter.**  The getter returns the last value set, at any time, held buttons or not. -/
theorem middle_getter_returns_last_set (en : Bool) (ops : List Op) :
    getConfig (run (init en) ops).1 = lastSet en ops := by
  suffices h : ∀ s v, s.wantEnabled = v → (run s ops).1.wantEnabled
      = ops.foldl (fun v op => match op with | .set on => on | _ => v) v from h _ _ rfl
  induction ops with
  | nil => intro s v h; exact h
  | cons op ops ih =>
    intro s v h
    simp only [run, List.foldl_cons]
    apply ih
    rw [step_wantEnabled]
    cases op <;> simp [h]

/-- **C07, deferral.**  While emulation is in effect and a button is held, changing the setting makes no
difference to what is reported: for as long as some button stays held, up to and including the event
that releases the last one, the output is the same as if the setting had not been changed. -/
theorem middle_setting_deferred (en : Bool) (pre mid : List Op) (on : Bool)
    (hb : ButtonsWellFormed en (pre ++ mid)) (hr : EnabledOnlyAtRest en (pre ++ mid))
    (heff : (world en pre).eff = true)
    (hheld : ∀ m1 m2, mid = m1 ++ m2 → m2 ≠ [] → ∃ b, (world en (pre ++ m1)).held b = true) :
    (run (run (init en) (pre ++ [.set on])).1 mid).2 = (run (run (init en) pre).1 mid).2 := by
  -- invariant for each prefix of mid
  have hinv : ∀ m1 m2, mid = m1 ++ m2 → ∃ cnt, Inv (run (init en) (pre ++ m1)).1 (world en (pre ++ m1)) cnt := by
    intro m1 m2 h
    have hb' : ButtonsWellFormed en (pre ++ m1) := by
      intro a b t c d h'
      exact hb a (b ++ m2) t c d (by rw [h, ← List.append_assoc, h']; simp)
    have hr' : EnabledOnlyAtRest en (pre ++ m1) := by
      intro a b h'
      exact hr a (b ++ m2) (by rw [h, ← List.append_assoc, h']; simp)
    obtain ⟨cnt, _, hi⟩ := run_inv en _ hb' hr'
    exact ⟨cnt, hi⟩
  -- emulation stays in effect while held
  have heff' : ∀ m1 m2, mid = m1 ++ m2 → m2 ≠ [] → (world en (pre ++ m1)).eff = true := by
    intro m1
    suffices h : ∀ n (m1 : List Op), m1.length = n → ∀ m2, mid = m1 ++ m2 → m2 ≠ [] →
        (world en (pre ++ m1)).eff = true from h _ m1 rfl
    intro n
    induction n with
    | zero => intro m1 hm; rw [List.length_eq_zero_iff] at hm; subst hm; intros; rw [List.append_nil]; exact heff
    | succ n ih =>
      intro m1 hm m2 h hne
      obtain ⟨b, hbh⟩ := hheld m1 m2 h hne
      rcases List.eq_nil_or_concat m1 with rfl | ⟨l, op, rfl⟩
      · simp at hm
      · simp only [List.concat_eq_append, List.length_append, List.length_cons, List.length_nil] at hm h hbh ⊢
        have he := ih l (by omega) (op :: m2) (by rw [h]; simp) (by simp)
        obtain ⟨cnt, hi⟩ := hinv (l ++ [op]) m2 h
        have hz : noneHeld (world en (pre ++ (l ++ [op]))).held = false := by
          obtain ⟨h1, h2⟩ := hi.rng b hbh
          exact noneHeld_false_of h1 h2 hbh
        rw [← List.append_assoc] at hz ⊢
        rw [world_append] at hz ⊢
        simp only [List.foldl_cons, List.foldl_nil] at hz ⊢
        cases op with
        | button t c d => simp only [stepWorld] at hz ⊢; simp [hz, he]
        | timer now => exact he
        | set v => simp only [stepWorld] at hz ⊢; simp [hz, he]
  have hmask : ∀ m1 m2, mid = m1 ++ m2 → m2 ≠ [] → maskEmpty (run (init en) (pre ++ m1)).1.mask = false := by
    intro m1 m2 h hne
    obtain ⟨cnt, hi⟩ := hinv m1 m2 h
    obtain ⟨b, hbh⟩ := hheld m1 m2 h hne
    obtain ⟨h1, h2⟩ := hi.rng b hbh
    rw [(hi.on (heff' m1 m2 h hne)).1]
    exact noneHeld_false_of h1 h2 hbh
  cases hmid : mid with
  | nil => rfl
  | cons o os =>
  rw [← hmid]
  have hm0 := hmask [] mid rfl (by rw [hmid]; simp)
  rw [List.append_nil] at hm0
  have hset : (run (init en) (pre ++ [.set on])).1 = { (run (init en) pre).1 with wantEnabled := on } := by
    rw [run_append]
    simp only [run, step, setConfig, applyConfig]
    by_cases h : on = (run (init en) pre).1.enabled
    · simp [h]
    · simp [h, hm0]
  rw [hset]
  suffices h : ∀ done todo x, mid = done ++ todo →
      (run { (run (init en) (pre ++ done)).1 with wantEnabled := x } todo).2
        = (run (run (init en) (pre ++ done)).1 todo).2 by
    have := h [] mid on rfl
    rwa [List.append_nil] at this
  intro done todo
  induction todo generalizing done with
  | nil => intros; rfl
  | cons op todo ih =>
    intro x heq
    have hme := hmask done (op :: todo) heq (by simp)
    obtain ⟨ho, hs⟩ := step_want (run (init en) (pre ++ done)).1 op x hme
    simp only [run]
    rw [ho]
    congr 1
    have hnext : (run (init en) (pre ++ (done ++ [op]))).1 = (step (run (init en) (pre ++ done)).1 op).1 := by
      rw [← List.append_assoc, run_append]; simp [run]
    cases todo with
    | nil => rfl
    | cons op2 todo2 =>
      have hme2 := hmask (done ++ [op]) (op2 :: todo2) (by rw [heq]; simp) (by simp)
      rw [hnext] at hme2
      obtain ⟨y, hy⟩ := hs hme2
      rw [hy]
      have := ih (done ++ [op]) y (by rw [heq]; simp)
      rw [hnext] at this
      exact this

/-- **C07, taking effect.**  Once no button is held, the device behaves from then on exactly like a fresh
device with the last setting, for every continuation. -/
theorem middle_setting_in_effect_at_rest (en : Bool) (ops rest : List Op)
    (hb : ButtonsWellFormed en ops) (hr : EnabledOnlyAtRest en ops)
    (hup : ∀ b, (world en ops).held b = false) :
    (run (run (init en) ops).1 rest).2 = (run (init (lastSet en ops)) rest).2 := by
  obtain ⟨cnt, hex, hi⟩ := run_inv en ops hb hr
  have hz : noneHeld (world en ops).held = true := (noneHeld_iff hi.rng).mpr hup
  have hew := hi.rest hz
  rw [← world_want]
  apply run_norm
  rw [norm_eq_iff]
  have hst : (run (init en) ops).1.st = .idle := by
    cases he : (world en ops).eff with
    | false => exact (hi.off he).2.2.1
    | true =>
      obtain ⟨hm, hph, hcnt, hpt⟩ := hi.on he
      have hpt' := hpt
      cases h : (run (init en) ops).1.st <;> rw [h] at hph hpt' <;> simp [Phys, hup, hz] at hph hpt' ⊢
  have htm : (run (init en) ops).1.timer = none := by
    have := hi.tmr; unfold TimerOk at this; rw [hst] at this; exact this
  have hmk : (run (init en) ops).1.mask = fun _ => false := by
    cases he : (world en ops).eff with
    | false => exact (hi.off he).2.1
    | true => rw [(hi.on he).1]; funext b; exact hup b
  refine ⟨hi.eff.trans hew, hi.wnt, hst, htm, hmk, ?_⟩
  rw [hst]; simp [init]

/-- **C07 fails when switching on.**  Emulation switched on while the left button is held (it was off, so
its button mask is empty) takes effect at once; the release of the left button is swallowed and the client
sees the button stuck down although nothing is held.  This is why the theorems above assume
`EnabledOnlyAtRest`. -/
theorem enabling_while_held_sticks :
    let ops : List Op := [.button 1000 0x110 true, .set true, .button 2000 0x110 false]
    ButtonsWellFormed false ops ∧ (world false ops).held 0x110 = false ∧
    heldAfter ((delivered false ops).1.map fun e => ⟨e.code, e.down⟩) 0x110 = true := by
  refine ⟨?_, by decide, by decide +kernel⟩
  intro pre post t c d h
  rcases pre with _ | ⟨o1, _ | ⟨o2, _ | ⟨o3, _ | ⟨o4, pre⟩⟩⟩⟩ <;> simp at h
  · obtain ⟨⟨rfl, rfl, rfl⟩, -⟩ := h; decide
  · obtain ⟨rfl, rfl, ⟨rfl, rfl, rfl⟩, -⟩ := h; decide

/-- **C07/C10 fail for buttons the mask cannot hold.**  A button outside 0x110..0x12f (here 0x130,
`BTN_SOUTH`) is swallowed while emulation is on; pressed while it is on and released after it was switched
off, its release reaches the gate alone and the assertion there fails. -/
theorem out_of_mask_button_aborts :
    (delivered true [.button 1000 0x130 true, .set false, .button 2000 0x130 false]).2
      = some .assertFailed := by decide +kernel

/-! ### C08 -/

theorem run_timers {s : State} (ts : List Nat) (h : ∀ n ∈ ts, ∀ e, s.timer = some e → n < e) :
    run s (ts.map Op.timer) = (s, []) := by
  induction ts with
  | nil => rfl
  | cons n ts ih =>
    have h1 : fire s n = (s, []) := by
      unfold fire
      cases htm : s.timer with
      | none => rfl
      | some e =>
        have := h n (by simp) e htm
        have h2 : ¬ e ≤ n := by omega
        simp [h2]
    simp only [List.map_cons, run, step, h1]
    rw [ih (fun m hm => h m (by simp [hm]))]
    rfl

theorem run_cons_state (s : State) (op : Op) (rest : List Op) :
    (run s (op :: rest)).2 = (step s op).2 ++ (run (step s op).1 rest).2 := rfl

theorem run_append_out (s : State) (a b : List Op) :
    (run s (a ++ b)).2 = (run s a).2 ++ (run (run s a).1 b).2 := by rw [run_append]

theorem step_button_on (s : State) (t c : Nat) (d : Bool) (he : s.enabled = true)
    (hc : 0x110 ≤ c ∧ c < 0x130) (hbit : s.mask c ≠ d)
    (hne : maskEmpty (fun b => if b = c then d else s.mask b) = false) :
    step s (.button t c d) =
      ({ (handle s t (eventOf c d)).1 with mask := fun b => if b = c then d else s.mask b },
       (handle s t (eventOf c d)).2.1 ++ if (handle s t (eventOf c d)).2.2 then [] else [⟨t, c, d⟩]) := by
  have hr : inRange c = true := by
    have h2 : c < 0x110 + 32 := by omega
    simp [inRange, BTN_LEFT, hc.1, h2]
  have hm : (handle s t (eventOf c d)).1.mask = s.mask := by
    rcases s with ⟨en, want, st, tm, mask, ft, er⟩
    cases st <;> cases (eventOf c d) <;> rfl
  simp only [step, physicalButton, filterButton, he, hr, Bool.not_true, Bool.false_eq_true, if_false]
  generalize handle s t (eventOf c d) = r at *
  obtain ⟨s1, o1, rc⟩ := r
  simp only at hm ⊢
  rw [hm]
  simp only [hne, Bool.false_eq_true, and_false, if_false]
  cases rc <;> simp

theorem step_button_last (s : State) (t c : Nat) (he : s.enabled = true)
    (hc : 0x110 ≤ c ∧ c < 0x130) (hbit : s.mask c = true)
    (hne : maskEmpty (fun b => if b = c then false else s.mask b) = true)
    (hno : (handle { (handle s t (eventOf c false)).1 with mask := fun b => if b = c then false else s.mask b }
        t .allUp).2.1 = []) :
    (step s (.button t c false)).2 =
       (handle s t (eventOf c false)).2.1 ++
         if (handle s t (eventOf c false)).2.2 then [] else [⟨t, c, false⟩] := by
  have hr : inRange c = true := by
    have h2 : c < 0x110 + 32 := by omega
    simp [inRange, BTN_LEFT, hc.1, h2]
  have hm : (handle s t (eventOf c false)).1.mask = s.mask := by
    rcases s with ⟨en, want, st, tm, mask, ft, er⟩
    cases st <;> cases (eventOf c false) <;> rfl
  simp only [step, physicalButton, filterButton, he, hr, Bool.not_true, Bool.false_eq_true, if_false]
  generalize handle s t (eventOf c false) = r at *
  obtain ⟨s1, o1, rc⟩ := r
  simp only at hm hno ⊢
  rw [hm]
  simp only [hne, hbit, ne_eq, Bool.true_eq_false, not_false_eq_true, and_self, if_true]
  rw [hno]
  cases rc <;> simp

/-- The two buttons of the chord. -/
def IsLR (a b : Nat) : Prop := (a = 0x110 ∧ b = 0x111) ∨ (a = 0x111 ∧ b = 0x110)

/-- **C08, chord.**  With emulation on and nothing held before, pressing left and right (in either order)
with no timer dispatch in between at or after 50ms, and then releasing them (in either order), makes
exactly two requests: middle pressed at the time of the second press, and middle released at the
time of the first release -- whatever timers are dispatched meanwhile. -/
theorem chord_is_one_middle_click (en : Bool) (ops : List Op)
    (hb : ButtonsWellFormed en ops) (hr : EnabledOnlyAtRest en ops)
    (hup : ∀ b, (world en ops).held b = false) (hon : lastSet en ops = true)
    (a b x y t1 t2 t3 t4 : Nat) (ts1 ts2 ts3 : List Nat)
    (hab : IsLR a b) (hxy : IsLR x y) (hts : ∀ n ∈ ts1, n < t1 + 50000) :
    (run (run (init en) ops).1
        ([.button t1 a true] ++ ts1.map .timer ++ [.button t2 b true] ++ ts2.map .timer ++
         [.button t3 x false] ++ ts3.map .timer ++ [.button t4 y false])).2
      = [⟨t2, BTN_MIDDLE, true⟩, ⟨t3, BTN_MIDDLE, false⟩] := by
  rw [middle_setting_in_effect_at_rest en ops _ hb hr hup, hon]
  simp only [List.append_assoc, List.cons_append, List.nil_append]
  -- first press
  rw [run_cons_state]
  have e1 : step (init true) (.button t1 a true) =
      (⟨true, true, (if a = 0x110 then .leftDown else .rightDown), some (t1 + 50000),
        fun c => if c = a then true else false, t1, 0⟩, []) := by
    rcases hab with ⟨rfl, rfl⟩ | ⟨rfl, rfl⟩ <;>
      rw [step_button_on _ _ _ _ rfl (by decide) (by (try dsimp only); decide) (by (try dsimp only); decide)] <;> rfl
  rw [e1, run_append_out, run_timers ts1 (by simpa using hts)]
  simp only [List.nil_append]
  rw [run_cons_state]
  have e2 : step ⟨true, true, (if a = 0x110 then .leftDown else .rightDown), some (t1 + 50000),
        fun c => if c = a then true else false, t1, 0⟩ (.button t2 b true) =
      (⟨true, true, .middle, none,
        fun c => if c = b then true else if c = a then true else false, t1, 0⟩, [⟨t2, BTN_MIDDLE, true⟩]) := by
    rcases hab with ⟨rfl, rfl⟩ | ⟨rfl, rfl⟩ <;>
      rw [step_button_on _ _ _ _ rfl (by decide) (by (try dsimp only); decide) (by (try dsimp only); decide)] <;> rfl
  rw [e2, run_append_out, run_timers ts2 (by simp)]
  simp only [List.nil_append, List.cons_append, List.cons.injEq, true_and]
  rw [run_cons_state]
  have e3 : step ⟨true, true, .middle, none,
        fun c => if c = b then true else if c = a then true else false, t1, 0⟩ (.button t3 x false) =
      (⟨true, true, (if x = 0x110 then .rightUpPending else .leftUpPending), none,
        fun c => if c = x then false else if c = b then true else if c = a then true else false, t1, 0⟩,
        [⟨t3, BTN_MIDDLE, false⟩]) := by
    rcases hab with ⟨rfl, rfl⟩ | ⟨rfl, rfl⟩ <;> rcases hxy with ⟨rfl, rfl⟩ | ⟨rfl, rfl⟩ <;>
      rw [step_button_on _ _ _ _ rfl (by decide) (by (try dsimp only); decide) (by (try dsimp only); decide)] <;> rfl
  rw [e3, run_append_out, run_timers ts3 (by simp)]
  simp only [List.nil_append, List.cons_append, List.cons.injEq, true_and]
  rw [run_cons_state]
  rcases hab with ⟨rfl, rfl⟩ | ⟨rfl, rfl⟩ <;> rcases hxy with ⟨rfl, rfl⟩ | ⟨rfl, rfl⟩ <;>
    (rw [step_button_last _ _ _ rfl (by decide) (by (try dsimp only); decide) (by (try dsimp only); decide) (by rfl)]; rfl)

/-- **C08, one button alone, short click.**  A left or right click shorter than the timeout is reported
as that button, pressed at the press time and released at the release time. -/
theorem short_click_reported (en : Bool) (ops : List Op)
    (hb : ButtonsWellFormed en ops) (hr : EnabledOnlyAtRest en ops)
    (hup : ∀ b, (world en ops).held b = false) (hon : lastSet en ops = true)
    (a t1 t2 : Nat) (ts : List Nat) (ha : a = 0x110 ∨ a = 0x111) (hts : ∀ n ∈ ts, n < t1 + 50000) :
    (run (run (init en) ops).1 ([.button t1 a true] ++ ts.map .timer ++ [.button t2 a false])).2
      = [⟨t1, a, true⟩, ⟨t2, a, false⟩] := by
  rw [middle_setting_in_effect_at_rest en ops _ hb hr hup, hon]
  simp only [List.append_assoc, List.cons_append, List.nil_append]
  rw [run_cons_state]
  have e1 : step (init true) (.button t1 a true) =
      (⟨true, true, (if a = 0x110 then .leftDown else .rightDown), some (t1 + 50000),
        fun c => if c = a then true else false, t1, 0⟩, []) := by
    rcases ha with rfl | rfl <;>
      rw [step_button_on _ _ _ _ rfl (by decide) (by (try dsimp only); decide) (by (try dsimp only); decide)] <;> rfl
  rw [e1, run_append_out, run_timers ts (by simpa using hts)]
  simp only [List.nil_append]
  rw [run_cons_state]
  rcases ha with rfl | rfl <;>
    (rw [step_button_last _ _ _ rfl (by decide) (by (try dsimp only); decide) (by (try dsimp only); decide) (by rfl)]; rfl)

/-- **C08, one button alone, held.**  A left or right button still held when the timer is dispatched at or
after 50ms is reported pressed then, with the time stamp of the press; its release is reported when
it happens. -/
theorem long_press_reported (en : Bool) (ops : List Op)
    (hb : ButtonsWellFormed en ops) (hr : EnabledOnlyAtRest en ops)
    (hup : ∀ b, (world en ops).held b = false) (hon : lastSet en ops = true)
    (a t1 now t2 : Nat) (ts ts' : List Nat) (ha : a = 0x110 ∨ a = 0x111)
    (hts : ∀ n ∈ ts, n < t1 + 50000) (hnow : t1 + 50000 ≤ now) :
    (run (run (init en) ops).1 ([.button t1 a true] ++ ts.map .timer ++ [.timer now])).2 = [⟨t1, a, true⟩] ∧
    (run (run (init en) ops).1 ([.button t1 a true] ++ ts.map .timer ++ [.timer now] ++ ts'.map .timer ++
        [.button t2 a false])).2 = [⟨t1, a, true⟩, ⟨t2, a, false⟩] := by
  rw [middle_setting_in_effect_at_rest en ops _ hb hr hup, hon,
    middle_setting_in_effect_at_rest en ops _ hb hr hup, hon]
  simp only [List.append_assoc, List.cons_append, List.nil_append]
  rw [run_cons_state, run_cons_state]
  have e1 : step (init true) (.button t1 a true) =
      (⟨true, true, (if a = 0x110 then .leftDown else .rightDown), some (t1 + 50000),
        fun c => if c = a then true else false, t1, 0⟩, []) := by
    rcases ha with rfl | rfl <;>
      rw [step_button_on _ _ _ _ rfl (by decide) (by (try dsimp only); decide) (by (try dsimp only); decide)] <;> rfl
  have e2 : step ⟨true, true, (if a = 0x110 then .leftDown else .rightDown), some (t1 + 50000),
        fun c => if c = a then true else false, t1, 0⟩ (.timer now) =
      (⟨true, true, .passthrough, none, fun c => if c = a then true else false, t1, 0⟩, [⟨t1, a, true⟩]) := by
    rcases ha with rfl | rfl <;> simp [step, fire, hnow, handle, ldownH, rdownH, setSt] <;> rfl
  rw [e1, run_append_out, run_timers ts (by simpa using hts), run_append_out, run_timers ts (by simpa using hts)]
  simp only [List.nil_append]
  rw [run_cons_state, run_cons_state, e2, run_append_out, run_timers ts' (by simp)]
  refine ⟨rfl, ?_⟩
  simp only [List.nil_append, List.cons_append, List.cons.injEq, true_and]
  rw [run_cons_state]
  rcases ha with rfl | rfl <;>
    (rw [step_button_last _ _ _ rfl (by decide) (by (try dsimp only); decide) (by (try dsimp only); decide) (by rfl)]; rfl)

/-! ### Non-vacuity -/

/-- A history with a chord, an extra physical middle press, a deferred setting change and a plain click. -/
def sample : List Op :=
  [.button 1000 0x110 true, .button 2000 0x111 true, .set false, .button 3000 0x112 true,
   .button 4000 0x110 false, .button 5000 0x112 false, .button 6000 0x111 false,
   .button 7000 0x110 true, .button 8000 0x110 false]

/-- Executable check of the two well-formedness hypotheses (used for examples only). -/
def check (en : Bool) (pre : List Op) : List Op → Bool
  | [] => true
  | op :: ops =>
    (match op with
     | .button _ c d => (world en pre).held c == !d && decide (0x110 ≤ c) && decide (c < 0x130)
     | .set true => (world en pre).eff || pre.isEmpty
     | _ => true) && check en (pre ++ [op]) ops

theorem wf_of_check (en : Bool) (ops : List Op) (h : check en [] ops = true) :
    ButtonsWellFormed en ops ∧ EnabledOnlyAtRest en ops := by
  have key : ∀ (done todo : List Op), check en done todo = true →
      ∀ pre op post, todo = pre ++ op :: post → check en (done ++ pre) (op :: post) = true := by
    intro done todo h pre
    induction pre generalizing done todo with
    | nil => intro op post he; subst he; simpa using h
    | cons o pre ih =>
      intro op post he
      subst he
      simp only [List.cons_append, check, Bool.and_eq_true] at h
      have := ih (done ++ [o]) _ h.2 op post rfl
      simpa using this
  constructor
  · intro pre post t c d he
    have := key [] ops h pre _ post he
    simp only [List.nil_append, check, Bool.and_eq_true, beq_iff_eq, decide_eq_true_eq] at this
    exact ⟨this.1.1.1, this.1.1.2, this.1.2⟩
  · intro pre post he
    have := key [] ops h pre _ post he
    simp only [List.nil_append, check, Bool.and_eq_true, Bool.or_eq_true, List.isEmpty_iff] at this
    rcases this.1 with h1 | h1
    · exact Or.inl h1
    · right; subst h1; intro b; rfl

example : ButtonsWellFormed true sample ∧ EnabledOnlyAtRest true sample ∧
    (delivered true sample).1 = [⟨2000, 0x112, true⟩, ⟨3000, 0x112, false⟩, ⟨3000, 0x112, true⟩,
      ⟨5000, 0x112, false⟩, ⟨7000, 0x110, true⟩, ⟨8000, 0x110, false⟩] := by
  have h := wf_of_check true sample (by decide +kernel)
  exact ⟨h.1, h.2, by decide +kernel⟩

/-- The chord theorem's hypotheses on the initial history hold for the empty history (and, by the
example above, for non-empty ones). -/
example : (run (init true) [.button 1000 0x111 true, .timer 20000, .button 30000 0x110 true,
    .button 90000 0x111 false, .button 95000 0x110 false]).2
    = [⟨30000, 0x112, true⟩, ⟨90000, 0x112, false⟩] := by decide +kernel

end Libinput.MiddleButton
