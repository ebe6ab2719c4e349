import Verif.Tablet.Props
/-
The touch device of a tablet is told to ignore fingers while a pen is near.
-/
namespace Libinput.Tablet

/-! ### The touch device -/

/-- The touch device of a tablet: an external touchpad (`pad`) or a touch screen.  Only what arbitration is about; touch
sequences are in `Verif.TouchSlots` and `Verif.Motion`.  Models: /repo/src/evdev-fallback.h:148-156,
/repo/src/evdev-mt-touchpad.h:293-297. -/
structure Touch where
  pad : Bool
  state : Arb := .notActive
  inArb : Bool := false
  timer : Option Nat := none
deriving DecidableEq

/-- `fallback_interface_toggle_touch` and `tp_interface_toggle_touch`.  Models: /repo/src/evdev-fallback.c:1249-1288,
/repo/src/evdev-mt-touchpad.c:2773-2804.  Simplified: no touches and no rectangle. -/
def Touch.tell (d : Touch) (which : Arb) (now : Nat) : Touch :=
  if which = d.state then d
  else if d.pad then
    match which with
    | .notActive => { d with timer := some (now + 90000) }
    | w => { d with state := w, timer := none }
  else
    match which with
    | .notActive => { d with state := .notActive, timer := some (now + 90000) }
    | .ignoreRect => { d with state := .ignoreRect }
    | .ignoreAll => { d with state := .ignoreAll, timer := none, inArb := true }

/-- `fallback_arbitration_timeout` and `tp_arbitration_timeout`, when the timer has expired.
Models: /repo/src/evdev-fallback.c:1684-1691, /repo/src/evdev-mt-touchpad.c:2764-2771. -/
def Touch.tick (d : Touch) (now : Nat) : Touch :=
  match d.timer with
  | none => d
  | some t => if t ≤ now then if d.pad then { d with timer := none, state := .notActive } else { d with timer := none, inArb := false } else d

/-- It drops new fingers: everywhere, or where the hand with the pen is.
Models: /repo/src/evdev-mt-touchpad.c:1120-1131, /repo/src/evdev-fallback.c:886-899,
/repo/src/evdev-fallback.c:1050-1051. -/
def Touch.ignores (d : Touch) : Bool := if d.pad then d.state ≠ .notActive else d.inArb || d.state = .ignoreRect

/-- A tablet with its touch device; time passes for the touch device. -/
inductive WOp where
  | tab (op : Op)
  | tick (now : Nat)

def Op.time : Op → Nat
  | .frame _ now | .timeout now | .suspend now => now
  | _ => 0

/-- `tablet_set_touch_device_enabled`: the messages reach the touch device.  A new touch device is in its initial state.
Models: /repo/src/evdev-tablet.c:1922-1943, /repo/src/evdev-tablet.c:2116-2170, /repo/src/evdev-fallback.c:1693-1709,
/repo/src/evdev-mt-touchpad.c:3343-3358. -/
def hear (d : Option Touch) (op : Op) (o : List Out) : Option Touch :=
  let d := match op with
    | .touchAdded pad _ => some { pad }
    | .touchRemoved => none
    | _ => d
  o.foldl (fun d x => match x with | .arb b => d.map (·.tell b op.time) | _ => d) d

abbrev World := Pen × Option Touch

def wstep (cfg : Cfg) (w : World) : WOp → World × List Ev
  | .tab op => (((step cfg w.1 op).1, hear w.2 op (step cfg w.1 op).2), events (step cfg w.1 op).2)
  | .tick now => ((w.1, w.2.map (·.tick now)), [])

def wrun (cfg : Cfg) : World → List WOp → World × List Ev
  | w, [] => (w, [])
  | w, op :: ops =>
    let r := wstep cfg w op
    let r' := wrun cfg r.1 ops
    (r'.1, r.2 ++ r'.2)

/-! ### The specification -/

/-- Pens only; touch devices are added only when there is none, and removed only when no tool is near. -/
def WOp.Plain (w : World) (es : List Ev) : WOp → Prop
  | .tab (.frame evs _) => ∀ e ∈ evs, isCursorKey e = false
  | .tab (.touchAdded _ _) => w.2 = none
  | .tab .touchRemoved => near es = false
  | _ => True

instance (w : World) (es : List Ev) (op : WOp) : Decidable (op.Plain w es) := by
  unfold WOp.Plain; split <;> infer_instance

def Plain (cfg : Cfg) (w : World) (es : List Ev) : List WOp → Prop
  | [] => True
  | op :: ops => op.Plain w es ∧ Plain cfg (wstep cfg w op).1 (es ++ (wstep cfg w op).2) ops

/-- A pen that comes does so when the touchpad no longer waits for the end of the last arbitration. -/
def Slow (cfg : Cfg) (w : World) (es : List Ev) : List WOp → Prop
  | [] => True
  | op :: ops =>
    (near es = false → near (es ++ (wstep cfg w op).2) = true → w.2.bind Touch.timer = none) ∧
    Slow cfg (wstep cfg w op).1 (es ++ (wstep cfg w op).2) ops

def WOp.time : WOp → Nat
  | .tab op => op.time
  | .tick _ => 0

/-! ### Nearness and the state -/

/-- What the client believes is what the tablet does. -/
structure Near (s : Pen) (b : Bool) : Prop where
  far : s.st.outOfProx = true → b = false
  here : s.st.outOfProx = false → b = true ∨ s.st.entering = true

theorem pass_near (cfg : Cfg) (s : Pen) (j : Bool) (now : Nat) (b : Bool) (N : Near s b)
    (hr : s.st.outOfRange = false) (hp : ∀ k, (s.toolChange j now).1.t.kind = some k → k.isCursor = false)
    (hk : s.t.kind = none → s.st.outOfProx = true) :
    let b' := (events (s.pass cfg j now).2.1).foldl nearStep b
    ((s.pass cfg j now).1.st.outOfProx = true → b' = false) ∧ ((s.pass cfg j now).1.st.outOfProx = false → b' = true ∧ (s.pass cfg j now).1.st.leaving = false) := by
  dsimp only
  unfold Pen.pass
  dsimp only
  obtain ⟨n, p, kd, q, st', ec, hst, _⟩ := toolChange_any s j now
  rw [ec] at hp ⊢
  dsimp only at hp ⊢
  have hr' : st'.outOfRange = false := by
    rcases hst with ⟨rfl, _⟩ | ⟨rfl, _⟩ | ⟨rfl, _⟩ <;> exact hr
  have far : st'.outOfProx = true → b = false := by
    intro h
    rcases hst with ⟨rfl, _⟩ | ⟨rfl, _⟩ | ⟨rfl, _⟩
    · exact N.far h
    · exact N.far h
    · cases h
  have here : st'.outOfProx = false → b = true ∨ st'.entering = true := by
    intro h
    rcases hst with ⟨rfl, _⟩ | ⟨rfl, _⟩ | ⟨rfl, _⟩
    · exact N.here h
    · exact N.here h
    · exact .inr rfl
  cases kd with
  | none =>
    have ho : st'.outOfProx = true := by
      rcases hst with ⟨rfl, _, h⟩ | ⟨rfl, h⟩ | ⟨_, _, k, h, _⟩
      · exact hk h.symm
      · exact hk h.symm
      · cases h
    exact ⟨far, fun h => by dsimp only at h; rw [ho] at h; cases h⟩
  | some k =>
    dsimp only
    generalize ToolSt.getTool cfg _ k = g
    rw [hp k rfl]
    simp only [Bool.false_eq_true, if_false, hr', Bool.or_false]
    by_cases ho : st'.outOfProx = true
    · rw [if_pos ho]
      exact ⟨far, fun h => by dsimp only at h; rw [ho] at h; cases h⟩
    · rw [if_neg ho]
      have ho' : st'.outOfProx = false := by simpa using ho
      dsimp only
      generalize hx : ({ s with t := g.1, q := q, st := st' } : Pen) = x
      have e1 : x.st = st' := by rw [← hx]
      obtain ⟨_, v, l, bb, e, lv, r, ep⟩ := prepare_any cfg x g.2
      have hpst : (x.prepare cfg g.2).1.st.entering = st'.entering ∧ (x.prepare cfg g.2).1.st.outOfProx = false := by
        rw [ep]; dsimp only; rw [e1]; exact ⟨rfl, ho'⟩
      obtain ⟨_, i2⟩ := send_inside cfg (x.prepare cfg g.2).1 (x.prepare cfg g.2).2 b (by rw [hpst.1]; exact here ho')
      rw [i2]
      obtain ⟨v', h', e'⟩ := send_state cfg (x.prepare cfg g.2).1 (x.prepare cfg g.2).2
      rw [e']
      dsimp only [Bits.sent]
      rw [hpst.2]
      cases (x.prepare cfg g.2).1.st.leaving <;> simp

theorem flush_near (cfg : Cfg) (s : Pen) (j : Bool) (now n : Nat) (f : Nat → Bool) (b t : Bool) (N : Near s b)
    (P : Pens cfg s f t) (A : Ahead s f) :
    let b' := (events (s.flush cfg j now (n + 2)).2).foldl nearStep b
    ((s.flush cfg j now (n + 2)).1.st.outOfProx = true → b' = false) ∧ ((s.flush cfg j now (n + 2)).1.st.outOfProx = false → b' = true ∧ (s.flush cfg j now (n + 2)).1.st.leaving = false) := by
  have R := pass_clean cfg s j now f t P A
  have N1 := pass_near cfg s j now b N P.range (toolChange_pens s j now P.now P.prev P.pens).2.2 P.someTool
  unfold Pen.flush
  dsimp only at N1 ⊢
  generalize s.pass cfg j now = r at R N1 ⊢
  obtain ⟨r1, r2, ag⟩ := r
  cases ag with
  | false => exact N1
  | true =>
    dsimp only at N1 ⊢
    rw [if_pos rfl]
    obtain ⟨a1, a2⟩ := R.again rfl
    have hf := R.pens.dead a2
    have A1 : Ahead r1 ((events r2).foldl heldStep f) := by
      intro c hc
      have := hf c
      dsimp only at this
      rw [this] at hc; cases hc
    have R2 := pass_clean cfg r1 j now _ _ R.pens A1
    have P1 := R.pens
    dsimp only at P1
    have N2 := pass_near cfg r1 j now ((events r2).foldl nearStep b) ⟨N1.1, fun h => .inl (N1.2 h).1⟩ P1.range
      (toolChange_pens r1 j now P1.now P1.prev P1.pens).2.2 P1.someTool
    unfold Pen.flush
    dsimp only at N2 ⊢
    generalize r1.pass cfg j now = q at R2 N2 ⊢
    obtain ⟨q1, q2, ag2⟩ := q
    have : ag2 = false := by
      cases ag2
      · rfl
      · have := (R2.again rfl).1
        dsimp only at a2
        rw [a2] at this; cases this
    subst this
    dsimp only at N2 ⊢
    simp only [Bool.false_eq_true, if_false]
    rw [events_append, List.foldl_append]
    exact N2

/-- Between two frames with a tool in proximity, all changes of tools have been processed. -/
theorem pass_even (cfg : Cfg) (s : Pen) (j : Bool) (now : Nat)
    (hp : ∀ k, (s.toolChange j now).1.t.kind = some k → k.isCursor = false) (hr : s.st.outOfRange = false)
    (hk : s.t.kind = none → s.st.outOfProx = true) (ha : (s.pass cfg j now).2.2 = false)
    (ho : (s.pass cfg j now).1.st.outOfProx = false) : (s.pass cfg j now).1.t.now = (s.pass cfg j now).1.t.prev := by
  revert ha ho
  unfold Pen.pass
  dsimp only
  obtain ⟨n, p, kd, q, st', ec, hst, he⟩ := toolChange_any s j now
  rw [ec] at hp ⊢
  dsimp only at hp ⊢
  have hr' : st'.outOfRange = false := by
    rcases hst with ⟨rfl, _⟩ | ⟨rfl, _⟩ | ⟨rfl, _⟩ <;> exact hr
  cases kd with
  | none =>
    intro _ ho
    exfalso
    have : st'.outOfProx = true := by
      rcases hst with ⟨rfl, _, h⟩ | ⟨rfl, h⟩ | ⟨_, _, k, h, _⟩
      · exact hk h.symm
      · exact hk h.symm
      · cases h
    dsimp only at ho
    rw [this] at ho; cases ho
  | some k =>
    dsimp only
    have gt : (ToolSt.getTool cfg { s.t with now := n, prev := p, kind := some k } k).1.now = n ∧
        (ToolSt.getTool cfg { s.t with now := n, prev := p, kind := some k } k).1.prev = p := by
      obtain ⟨_, ⟨l, gl⟩, _⟩ := getTool_key cfg { s.t with now := n, prev := p, kind := some k } k
      rw [gl]; exact ⟨rfl, rfl⟩
    generalize ToolSt.getTool cfg _ k = g at gt ⊢
    rw [hp k rfl]
    simp only [Bool.false_eq_true, if_false, hr', Bool.or_false]
    by_cases ho : st'.outOfProx = true
    · rw [if_pos ho]
      intro _ h
      dsimp only at h
      rw [ho] at h; cases h
    · rw [if_neg ho]
      dsimp only
      intro ha _
      generalize hx : ({ s with t := g.1, q := q, st := st' } : Pen) = x
      have e1 : x.t.now = n ∧ x.t.prev = p := by rw [← hx]; exact gt
      obtain ⟨_, v, l, bb, e, lv, r, ep⟩ := prepare_any cfg x g.2
      obtain ⟨v', h', e'⟩ := send_state cfg (x.prepare cfg g.2).1 (x.prepare cfg g.2).2
      rw [e', ep]
      dsimp only
      rw [e1.1, e1.2, he ha]

theorem flush_even (cfg : Cfg) (s : Pen) (j : Bool) (now n : Nat) (f : Nat → Bool) (t : Bool) (P : Pens cfg s f t) (A : Ahead s f)
    (ho : (s.flush cfg j now (n + 2)).1.st.outOfProx = false) :
    (s.flush cfg j now (n + 2)).1.t.now = (s.flush cfg j now (n + 2)).1.t.prev := by
  have R := pass_clean cfg s j now f t P A
  have E1 := pass_even cfg s j now (toolChange_pens s j now P.now P.prev P.pens).2.2 P.range P.someTool
  revert ho
  unfold Pen.flush
  dsimp only at E1 ⊢
  generalize s.pass cfg j now = r at R E1 ⊢
  obtain ⟨r1, r2, ag⟩ := r
  cases ag with
  | false => exact fun ho => E1 rfl ho
  | true =>
    dsimp only at E1 ⊢
    rw [if_pos rfl]
    obtain ⟨a1, a2⟩ := R.again rfl
    have hf := R.pens.dead a2
    have A1 : Ahead r1 ((events r2).foldl heldStep f) := by
      intro c hc
      have := hf c
      dsimp only at this
      rw [this] at hc; cases hc
    have R2 := pass_clean cfg r1 j now _ _ R.pens A1
    have P1 := R.pens
    dsimp only at P1
    have E2 := pass_even cfg r1 j now (toolChange_pens r1 j now P1.now P1.prev P1.pens).2.2 P1.range P1.someTool
    unfold Pen.flush
    dsimp only at E2 ⊢
    generalize r1.pass cfg j now = q at R2 E2 ⊢
    obtain ⟨q1, q2, ag2⟩ := q
    have : ag2 = false := by
      cases ag2
      · rfl
      · have := (R2.again rfl).1
        dsimp only at a2
        rw [a2] at this; cases this
    subst this
    dsimp only at E2 ⊢
    simp only [Bool.false_eq_true, if_false]
    exact fun ho => E2 rfl ho

/-- A tool that leaves when all changes have been processed leaves. -/
theorem flush_leave (cfg : Cfg) (s : Pen) (j : Bool) (now n : Nat) (f : Nat → Bool) (t : Bool) (P : Pens cfg s f t) (A : Ahead s f)
    (he : s.t.now = s.t.prev) (hl : s.st.leaving = true) : (s.flush cfg j now (n + 2)).1.st.outOfProx = true := by
  have R := pass_clean cfg s j now f t P A
  have ag : (s.pass cfg j now).2.2 = false := by
    have : (s.toolChange j now).2 = false := by
      unfold Pen.toolChange
      obtain ⟨n, q, e, h⟩ := emulate_state s
      rw [e]
      dsimp only
      rcases h with h | ⟨h1, h2, _⟩
      · rw [if_pos (h.trans he)]
      · split
        · rfl
        · have h3 : decide (Kind.pen.bit &&& (Kind.pen.bit - 1) ≠ 0) = false := by decide
          rw [h2, h3]
          simp only [Bool.false_eq_true, if_false]
    rcases pass_cases cfg s j now with ⟨h, _⟩ | ⟨s₁, t, _, _, e, _⟩
    · rw [h]
    · rw [e]; exact this
  unfold Pen.flush
  dsimp only
  have := R.gone hl
  rw [ag]
  exact this

/-! ### What is sent where -/

/-- Nothing is said to the touch device about arbitration. -/
def Mute (o : List Out) : Prop := ∀ a, Out.arb a ∉ o

theorem mute_append (x y : List Out) : Mute (x ++ y) ↔ Mute x ∧ Mute y := by
  constructor
  · intro h
    exact ⟨fun a ha => h a (by simp [ha]), fun a ha => h a (by simp [ha])⟩
  · intro h a ha
    rcases List.mem_append.1 ha with ha | ha
    · exact h.1 a ha
    · exact h.2 a ha

theorem changeRotation_mute (s : Pen) (b : Bool) : Mute (s.changeRotation b).2 ∧ (s.changeRotation b).1.h.touch = s.h.touch ∧
    (s.changeRotation b).1.arb = s.arb := by
  unfold Pen.changeRotation Pen.applyRotation
  dsimp only
  refine ⟨?_, ?_, ?_⟩
  · intro a ha
    split at ha <;> simp at ha
  · split <;> rfl
  · split <;> rfl

theorem changeLeft_mute (s : Pen) : Mute s.changeLeft.2 ∧ s.changeLeft.1.h.touch = s.h.touch ∧ s.changeLeft.1.arb = s.arb := by
  unfold Pen.changeLeft
  split
  · exact ⟨fun a h => (by cases h), rfl, rfl⟩
  · exact changeRotation_mute _ true

theorem sendProxOut_mute (s : Pen) (i : ToolId) (a : Axes) : Mute (s.sendProxOut i a).2 ∧ (s.sendProxOut i a).1.h.touch = s.h.touch := by
  unfold Pen.sendProxOut
  split
  · dsimp only
    obtain ⟨h1, h2, _⟩ := changeLeft_mute { s with st.outOfProx := true, st.leaving := false, v.changed := [] }
    refine ⟨?_, ?_⟩
    · intro b hb
      rcases List.mem_cons.1 hb with hb | hb
      · cases hb
      · exact h1 b hb
    · unfold Pen.applyRotation
      split
      · exact h2
      · exact h2
  · exact ⟨fun a h => (by cases h), rfl⟩

theorem sendTip_h (s : Pen) (i : ToolId) (a : Axes) : (s.sendTip i a).1.h = s.h := by
  unfold Pen.sendTip
  repeat' split
  all_goals rfl

theorem send_mute (cfg : Cfg) (s : Pen) (t : Tool) : Mute (s.send cfg t).2 ∧ (s.send cfg t).1.h.touch = s.h.touch := by
  unfold Pen.send
  dsimp only
  have h0 : (if s.st.leaving = true then ({ s with st.axesUpdated := false }, s.v.axes) else s.notifyAxes cfg t).1.h = s.h := by
    split <;> rfl
  generalize (if s.st.leaving = true then ({ s with st.axesUpdated := false }, s.v.axes) else s.notifyAxes cfg t) = r at h0 ⊢
  have h1 : (r.1.sendProxIn t.key r.2).1.h = s.h := by
    rw [← h0]; unfold Pen.sendProxIn; split <;> rfl
  generalize r.1.sendProxIn t.key r.2 = p at h1 ⊢
  have h2 : (p.1.sendTip t.key r.2).1.h = s.h := by rw [sendTip_h, h1]
  generalize p.1.sendTip t.key r.2 = q at h2 ⊢
  have h3 : (if q.2.2 = true then (q.1, []) else q.1.sendAxes t.key r.2).1.h = s.h := by
    split
    · exact h2
    · rw [← h2]; unfold Pen.sendAxes; split <;> rfl
  generalize (if q.2.2 = true then (q.1, []) else q.1.sendAxes t.key r.2) = x at h3 ⊢
  generalize hb : Pen.sendButtons _ _ = b
  have h4 : b.1.h = s.h := by rw [← hb, ← h3]; rfl
  obtain ⟨m1, m2⟩ := sendProxOut_mute b.1 t.key r.2
  refine ⟨?_, m2.trans (by rw [h4])⟩
  rw [mute_append]
  refine ⟨?_, m1⟩
  intro a ha
  obtain ⟨e, _, he⟩ := List.mem_map.1 ha
  cases he

theorem pass_mute (cfg : Cfg) (s : Pen) (j : Bool) (now : Nat) :
    Mute (s.pass cfg j now).2.1 ∧ (s.pass cfg j now).1.h.touch = s.h.touch ∧ (s.pass cfg j now).1.arb = s.arb := by
  rcases pass_cases cfg s j now with ⟨h, v, b, pb, t, q, st, e⟩ | ⟨s₁, t, _, _, e, v, b, pb, tt, q, st, e'⟩
  · rw [e, h]
    exact ⟨fun a h => (by cases h), rfl, rfl⟩
  · rw [e]
    dsimp only
    obtain ⟨m1, m2⟩ := send_mute cfg (s₁.prepare cfg t).1 (s₁.prepare cfg t).2
    obtain ⟨_, v2, l, bb, e2, lv, r, ep⟩ := prepare_any cfg s₁ t
    refine ⟨m1, ?_, ?_⟩
    · rw [m2, ep, e']
    · obtain ⟨v', h', es⟩ := send_state cfg (s₁.prepare cfg t).1 (s₁.prepare cfg t).2
      rw [es, ep, e']

theorem flush_mute (cfg : Cfg) (j : Bool) (now : Nat) : ∀ n s,
    Mute (Pen.flush cfg j now n s).2 ∧ (Pen.flush cfg j now n s).1.h.touch = s.h.touch ∧ (Pen.flush cfg j now n s).1.arb = s.arb := by
  intro n
  induction n with
  | zero => intro s; exact ⟨fun a h => (by cases h), rfl, rfl⟩
  | succ n ih =>
    intro s
    unfold Pen.flush
    dsimp only
    obtain ⟨h1, h2, h3⟩ := pass_mute cfg s j now
    generalize s.pass cfg j now = r at h1 h2 h3 ⊢
    obtain ⟨i1, i2, i3⟩ := ih r.1
    split
    · exact ⟨(mute_append _ _).2 ⟨h1, i1⟩, i2.trans h2, i3.trans h3⟩
    · exact ⟨h1, h2, h3⟩

theorem kev_hand (cfg : Cfg) (s : Pen) (e : KEv) : (kev cfg s e).h = s.h ∧ (kev cfg s e).arb = s.arb := by
  cases e with
  | abs a x => obtain ⟨v, b, h⟩ := absEvent_shape cfg s a x; rw [kev, h]; exact ⟨rfl, rfl⟩
  | wheel x => exact ⟨rfl, rfl⟩
  | id x => exact ⟨rfl, rfl⟩
  | serial x => simp only [kev]; split <;> exact ⟨rfl, rfl⟩
  | key c x =>
    simp only [kev, keyEvent]
    split
    · exact ⟨rfl, rfl⟩
    · split
      · exact ⟨rfl, rfl⟩
      · repeat' split
        all_goals exact ⟨rfl, rfl⟩

theorem fold_hand (cfg : Cfg) (evs : List KEv) : ∀ s, (evs.foldl (kev cfg) s).h = s.h ∧ (evs.foldl (kev cfg) s).arb = s.arb := by
  induction evs with
  | nil => intro s; exact ⟨rfl, rfl⟩
  | cons e evs ih =>
    intro s
    obtain ⟨h1, h2⟩ := kev_hand cfg s e
    obtain ⟨i1, i2⟩ := ih (kev cfg s e)
    exact ⟨i1.trans h1, i2.trans h2⟩

/-! ### The touch device follows -/

/-- The touch device, `w` having been said last.  `T`: no message came later.  `slow`: pens take their time. -/
structure Good (d : Touch) (w : Arb) (T : Nat) (slow : Bool) : Prop where
  same : d.pad = false → d.state = w
  all : d.pad = false → w = .ignoreAll → d.inArb = true ∧ d.timer = none
  over : w = .notActive → d.ignores = true → ∃ t, d.timer = some t ∧ t ≤ T + 90000
  rest : d.pad = true → w = .notActive → d.timer = none → d.state = .notActive
  pad : slow = true → d.pad = true → w ≠ .notActive → d.state = w ∧ d.timer = none

theorem good_new (pad : Bool) (T : Nat) (slow : Bool) : Good { pad } .notActive T slow :=
  ⟨fun _ => rfl, fun _ h => (by cases h), fun _ h => (by cases pad <;> cases h), fun _ _ _ => rfl, fun _ _ h => absurd rfl h⟩

theorem good_tell (d : Touch) (w w' : Arb) (T now : Nat) (slow : Bool) (G : Good d w T slow) (hn : now ≤ T)
    (hs : slow = true → d.pad = true → w = .notActive → w' ≠ .notActive → d.timer = none) : Good (d.tell w' now) w' T slow := by
  obtain ⟨p, st, ia, tm⟩ := d
  obtain ⟨g1, g2, g3, g4, g5⟩ := G
  cases p with
  | true =>
    unfold Touch.tell
    dsimp only at *
    split
    · rename_i h
      subst h
      refine ⟨fun h => (by cases h), fun h => (by cases h), ?_, ?_, ?_⟩
      · intro h h'; subst h; simp [Touch.ignores] at h'
      · intro _ h _; exact h
      · intro h1 _ h3
        by_cases hw : w = .notActive
        · exact ⟨rfl, hs h1 rfl hw h3⟩
        · exact ⟨rfl, (g5 h1 rfl hw).2⟩
    · rename_i h
      cases w' with
      | notActive =>
        dsimp only
        exact ⟨fun h => (by cases h), fun h => (by cases h), fun _ _ => ⟨_, rfl, by omega⟩, fun _ _ h => (by cases h), fun _ _ h => absurd rfl h⟩
      | ignoreAll => exact ⟨fun h => (by cases h), fun h => (by cases h), fun h => (by cases h), fun _ h => (by cases h), fun _ _ _ => ⟨rfl, rfl⟩⟩
      | ignoreRect => exact ⟨fun h => (by cases h), fun h => (by cases h), fun h => (by cases h), fun _ h => (by cases h), fun _ _ _ => ⟨rfl, rfl⟩⟩
  | false =>
    have e : st = w := g1 rfl
    subst e
    unfold Touch.tell
    dsimp only at *
    split
    · rename_i h
      subst h
      exact ⟨g1, g2, g3, g4, g5⟩
    · rename_i h
      cases w' with
      | notActive =>
        exact ⟨fun _ => rfl, fun _ h => (by cases h), fun _ _ => ⟨_, rfl, by omega⟩, fun h => (by cases h), fun _ h => (by cases h)⟩
      | ignoreAll => exact ⟨fun _ => rfl, fun _ _ => ⟨rfl, rfl⟩, fun h => (by cases h), fun h => (by cases h), fun _ h => (by cases h)⟩
      | ignoreRect => exact ⟨fun _ => rfl, fun _ h => (by cases h), fun h => (by cases h), fun h => (by cases h), fun _ h => (by cases h)⟩

theorem good_tick (d : Touch) (w : Arb) (T now : Nat) (slow : Bool) (G : Good d w T slow) : Good (d.tick now) w T slow := by
  obtain ⟨p, st, ia, tm⟩ := d
  obtain ⟨g1, g2, g3, g4, g5⟩ := G
  cases tm with
  | none => exact ⟨g1, g2, g3, g4, g5⟩
  | some t =>
    unfold Touch.tick
    dsimp only at *
    split
    · cases p with
      | true =>
        refine ⟨fun h => (by cases h), fun h => (by cases h), fun _ h => (by cases h), fun _ _ _ => rfl, ?_⟩
        intro h1 _ h3
        have := (g5 h1 rfl h3).2
        cases this
      | false =>
        refine ⟨fun _ => g1 rfl, ?_, ?_, fun h => (by cases h), fun _ h => (by cases h)⟩
        · intro _ h
          have := (g2 rfl h).2
          cases this
        · intro h h'
          have := g1 rfl
          subst h
          simp [Touch.ignores, this] at h'
    · exact ⟨g1, g2, g3, g4, g5⟩

theorem Good.later {d : Touch} {w : Arb} {T T' : Nat} {slow : Bool} (G : Good d w T slow) (h : T ≤ T') : Good d w T' slow := by
  obtain ⟨g1, g2, g3, g4, g5⟩ := G
  refine ⟨g1, g2, ?_, g4, g5⟩
  intro a b
  obtain ⟨t, h1, h2⟩ := g3 a b
  exact ⟨t, h1, by omega⟩

/-- What the device does. -/
theorem good_ignores {d : Touch} {w : Arb} {T : Nat} {slow : Bool} (G : Good d w T slow) (h : d.pad = true → slow = true)
    (hw : w ≠ .notActive) : d.ignores = true := by
  obtain ⟨p, st, ia, tm⟩ := d
  obtain ⟨g1, g2, g3, g4, g5⟩ := G
  cases p with
  | true =>
    have := (g5 (h rfl) rfl hw).1
    dsimp only at this
    simp [Touch.ignores, this, hw]
  | false =>
    have e : st = w := g1 rfl
    subst e
    cases st with
    | notActive => exact absurd rfl hw
    | ignoreAll => have h1 : ia = true := (g2 rfl rfl).1; simp [Touch.ignores, h1]
    | ignoreRect => simp [Touch.ignores]

theorem good_listens {d : Touch} {T : Nat} {slow : Bool} (G : Good d .notActive T slow) (n : Nat) (hn : T + 90000 ≤ n) :
    (d.tick n).ignores = false := by
  obtain ⟨p, st, ia, tm⟩ := d
  obtain ⟨g1, g2, g3, g4, g5⟩ := G
  cases hi : (Touch.ignores ⟨p, st, ia, tm⟩)
  · cases tm with
    | none => exact hi
    | some t =>
      unfold Touch.tick
      dsimp only
      split
      · cases p with
        | true => rfl
        | false => have := g1 rfl; dsimp only at this; subst this; rfl
      · exact hi
  · obtain ⟨t, h1, h2⟩ := g3 rfl hi
    dsimp only at h1
    subst h1
    unfold Touch.tick
    dsimp only
    rw [if_pos (by omega)]
    cases p with
    | true => rfl
    | false => have := g1 rfl; dsimp only at this; subst this; rfl

/-! ### A tablet and its touch device -/

/-- What holds between two operations; `b`: a tool is near. -/
structure Paired (cfg : Cfg) (s : Pen) (d : Option Touch) (b : Bool) (T : Nat) (slow : Bool) : Prop where
  rest : ∃ f t, Rest cfg s f t
  near : Near s b
  even : s.st.outOfProx = false → s.t.now = s.t.prev
  quiet : b = false → s.arb = .notActive
  touch : d.isSome = s.h.touch
  good : ∀ x, d = some x → Good x s.arb T slow
  fresh : d = none → s.arb = .notActive
  mid : b = true → s.arb = .notActive → ∀ x, d = some x → x.timer = none

/-- What is heard of a list of messages. -/
def listen (now : Nat) (d : Option Touch) (o : List Out) : Option Touch :=
  o.foldl (fun d x => match x with | .arb b => d.map (·.tell b now) | _ => d) d

theorem listen_mute (now : Nat) (o : List Out) (h : Mute o) : ∀ d, listen now d o = d := by
  induction o with
  | nil => intro d; rfl
  | cons x o ih =>
    intro d
    have h' : Mute o := fun a ha => h a (by simp [ha])
    cases x with
    | ev e => exact ih h' d
    | left b => exact ih h' d
    | arb a => exact absurd (by simp) (h a)

theorem listen_append (now : Nat) (x y : List Out) (d : Option Touch) : listen now d (x ++ y) = listen now (listen now d x) y := by
  unfold listen; rw [List.foldl_append]

theorem near_of {z : Pen} {b : Bool} (r : Pen) (h : z.st.outOfProx = r.st.outOfProx) (h1 : r.st.outOfProx = true → b = false)
    (h2 : r.st.outOfProx = false → b = true) : Near z b := ⟨fun h' => h1 (h ▸ h'), fun h' => .inl (h2 (h ▸ h'))⟩

/-- The end of a frame. -/
theorem syn_paired (cfg : Cfg) (s : Pen) (j : Bool) (now : Nat) (f : Nat → Bool) (t : Bool) (d : Option Touch) (b : Bool) (T : Nat) (slow : Bool)
    (P : Pens cfg s f t) (A : Ahead s f) (N : Near s b) (quiet : b = false → s.arb = .notActive) (touch : d.isSome = s.h.touch)
    (good : ∀ x, d = some x → Good x s.arb T slow) (fresh : d = none → s.arb = .notActive)
    (mid : b = true → s.arb = .notActive → ∀ x, d = some x → x.timer = none) (hn : now ≤ T)
    (hs : slow = true → b = false → (events (s.syn cfg j now).2).foldl nearStep b = true → ∀ x, d = some x → x.timer = none) :
    let b' := (events (s.syn cfg j now).2).foldl nearStep b
    Paired cfg (s.syn cfg j now).1 (listen now d (s.syn cfg j now).2) b' T slow ∧
      (∀ x, listen now d (s.syn cfg j now).2 = some x → ((s.syn cfg j now).1.arb = .notActive ↔ b' = false)) := by
  dsimp only
  obtain ⟨_, _, R⟩ := syn_clean cfg s j now f t P A
  have N1 := flush_near cfg s j now 2 f b t N P A
  have E1 := flush_even cfg s j now 2 f t P A
  obtain ⟨m1, m2, m3⟩ := flush_mute cfg j now 4 s
  revert R hs
  unfold Pen.syn
  dsimp only at N1 ⊢
  generalize Pen.flush cfg j now 4 s = r at N1 E1 m1 m2 m3 ⊢
  obtain ⟨r1, r2⟩ := r
  dsimp only at N1 E1 m1 m2 m3 ⊢
  obtain ⟨_, ev⟩ := toggle_state r1
  rw [events_append, ev, List.append_nil, listen_append, listen_mute now r2 m1]
  generalize hb : (events r2).foldl nearStep b = b' at N1 ⊢
  obtain ⟨bd, er⟩ := reset_state r1.toggle.1
  rw [er]
  intro hs R
  obtain ⟨⟨a, ea⟩, _⟩ := toggle_state r1
  have hrange : r1.st.outOfRange = false := by
    have := R.pens.range
    rw [ea] at this
    exact this
  have near' := near_of (z := { r1.toggle.1 with prevButtons := r1.toggle.1.buttons, st := { r1.toggle.1.st with toolUpdated := false, buttonsDown := bd }, q.lastTime := now })
    (b := b') r1 (by rw [ea]) (fun h => N1.1 h) (fun h => (N1.2 h).1)
  have hh : ({ r1.toggle.1 with prevButtons := r1.toggle.1.buttons, st := { r1.toggle.1.st with toolUpdated := false, buttonsDown := bd }, q.lastTime := now } : Pen).h.touch = s.h.touch := by
    dsimp only; rw [ea]; exact m2
  have even' : ({ r1.toggle.1 with prevButtons := r1.toggle.1.buttons, st := { r1.toggle.1.st with toolUpdated := false, buttonsDown := bd }, q.lastTime := now } : Pen).st.outOfProx = false → ({ r1.toggle.1 with prevButtons := r1.toggle.1.buttons, st := { r1.toggle.1.st with toolUpdated := false, buttonsDown := bd }, q.lastTime := now } : Pen).t.now = ({ r1.toggle.1 with prevButtons := r1.toggle.1.buttons, st := { r1.toggle.1.st with toolUpdated := false, buttonsDown := bd }, q.lastTime := now } : Pen).t.prev := by
    rw [ea]; exact E1
  have harb : ({ r1.toggle.1 with prevButtons := r1.toggle.1.buttons, st := { r1.toggle.1.st with toolUpdated := false, buttonsDown := bd }, q.lastTime := now } : Pen).arb = r1.toggle.1.arb := rfl
  generalize ({ r1.toggle.1 with prevButtons := r1.toggle.1.buttons, st := { r1.toggle.1.st with toolUpdated := false, buttonsDown := bd }, q.lastTime := now } : Pen) = z at *
  -- what was said
  have say : d = none ∧ r1.toggle = (r1, []) ∨ ∃ x, d = some x ∧ (b' = false ∧ r1.toggle = ({ r1 with arb := .notActive }, [.arb .notActive]) ∨
      b' = true ∧ ((∃ w, w ≠ .notActive ∧ r1.toggle = ({ r1 with arb := w }, [.arb w])) ∨ r1.toggle = (r1, []) ∧ r1.arb = .ignoreRect)) := by
    cases d with
    | none =>
      have ht : r1.h.touch = false := by rw [m2, ← touch]; rfl
      left
      refine ⟨rfl, ?_⟩
      unfold Pen.toggle Pen.setArb
      rw [ht]
      simp only [Bool.false_eq_true, if_false]
      repeat' split
      all_goals rfl
    | some x =>
      have ht : r1.h.touch = true := by rw [m2, ← touch]; rfl
      right
      refine ⟨x, rfl, ?_⟩
      unfold Pen.toggle Pen.setArb
      rw [ht, hrange]
      simp only [if_true, Bool.false_or]
      cases ho : r1.st.outOfProx with
      | true =>
        left
        exact ⟨N1.1 ho, by simp⟩
      | false =>
        right
        obtain ⟨n1, n2⟩ := N1.2 ho
        refine ⟨n1, ?_⟩
        rw [n2]
        simp only [Bool.or_self, Bool.false_eq_true, if_false]
        split
        · exact .inl ⟨.ignoreAll, by decide, rfl⟩
        · split
          · exact .inl ⟨.ignoreRect, by decide, rfl⟩
          · rename_i h; exact .inr ⟨rfl, by simpa using h⟩
  rcases say with ⟨rfl, e⟩ | ⟨x, rfl, ⟨hb', e⟩ | ⟨hb', ⟨w, hw, e⟩ | ⟨e, hr⟩⟩⟩
  · rw [e] at harb ⊢
    have ha : z.arb = .notActive := by rw [harb]; exact m3.trans (fresh rfl)
    exact ⟨⟨⟨_, _, R⟩, near', even', fun _ => ha, touch.trans hh.symm, fun x h => (by cases h), fun _ => ha, fun _ _ x h => (by cases h)⟩,
      fun x h => (by cases h)⟩
  · rw [e] at harb ⊢
    have ha : z.arb = .notActive := harb
    refine ⟨⟨⟨_, _, R⟩, near', even', fun _ => ha, touch.trans hh.symm, ?_, fun _ => ha, fun h => (by rw [hb'] at h; cases h)⟩,
      fun _ _ => ⟨fun _ => hb', fun _ => rfl⟩⟩
    intro y hy
    cases hy
    rw [ha]
    exact good_tell x s.arb .notActive T now slow (good x rfl) hn (fun _ _ _ h => absurd rfl h)
  · rw [e] at harb ⊢
    have ha : z.arb = w := harb
    refine ⟨⟨⟨_, _, R⟩, near', even', fun h => (by rw [hb'] at h; cases h), touch.trans hh.symm, ?_, fun h => (by cases h), ?_⟩, ?_⟩
    · intro y hy
      cases hy
      rw [ha]
      refine good_tell x s.arb w T now slow (good x rfl) hn (fun h1 h2 h3 _ => ?_)
      cases hbb : b with
      | false => exact hs h1 hbb hb' x rfl
      | true => exact mid hbb h3 x rfl
    · intro _ h; rw [ha] at h; exact absurd h hw
    · intro _ _
      show w = .notActive ↔ _
      exact ⟨fun h => absurd h hw, fun h => (by rw [hb'] at h; cases h)⟩
  · rw [e] at harb ⊢
    have ha : z.arb = .ignoreRect := harb.trans hr
    have hsa : s.arb = .ignoreRect := m3.symm.trans hr
    refine ⟨⟨⟨_, _, R⟩, near', even', fun h => (by rw [hb'] at h; cases h), touch.trans hh.symm, ?_, fun h => (by cases h), ?_⟩, ?_⟩
    · intro y hy
      cases hy
      rw [ha, ← hsa]; exact good x rfl
    · intro _ h; rw [ha] at h; cases h
    · intro _ _
      show r1.arb = .notActive ↔ _
      rw [hr]
      exact ⟨fun h => (by cases h), fun h => (by rw [hb'] at h; cases h)⟩

theorem hear_plain (d : Option Touch) (op : Op) (o : List Out) (h1 : ∀ t l, op ≠ .touchAdded t l) (h2 : op ≠ .touchRemoved) :
    hear d op o = listen op.time d o := by
  cases op <;> first | rfl | exact absurd rfl (h1 _ _) | exact absurd rfl h2

theorem Paired.congr {cfg : Cfg} {s s' : Pen} {d : Option Touch} {b : Bool} {T : Nat} {slow : Bool} (I : Paired cfg s d b T slow)
    (hr : ∃ f t, Rest cfg s' f t) (h1 : s'.st = s.st) (h2 : s'.t.now = s.t.now ∧ s'.t.prev = s.t.prev) (h3 : s'.h.touch = s.h.touch)
    (h4 : s'.arb = s.arb) : Paired cfg s' d b T slow := by
  refine ⟨hr, ⟨fun h => I.near.far (h1 ▸ h), fun h => by rw [h1]; exact I.near.here (h1 ▸ h)⟩, fun h => ?_, fun h => h4.trans (I.quiet h),
    I.touch.trans h3.symm, fun x h => h4 ▸ I.good x h, fun h => h4.trans (I.fresh h), fun h h' => I.mid h (h4 ▸ h')⟩
  rw [h2.1, h2.2]; exact I.even (h1 ▸ h)

/-- The touch device has been told of the tool that is near. -/
def Known (a : Arb) (d : Option Touch) (b : Bool) : Prop := b = true → ∀ x, d = some x → a ≠ .notActive

theorem not_frame {P Q R A o F : Prop} (hn : ¬ F) (h : P ∧ (Q → R)) : P ∧ (A → Q ∨ o ∧ F → R) :=
  ⟨h.1, fun _ x => h.2 (x.elim id (fun y => absurd y.2 hn))⟩

/-- What one operation does to a pair. -/
theorem step_paired (cfg : Cfg) (s : Pen) (d : Option Touch) (op : Op) (b : Bool) (T : Nat) (slow : Bool) (I : Paired cfg s d b T slow)
    (hc : ∀ evs n, op = .frame evs n → ∀ e ∈ evs, isCursorKey e = false)
    (ha : (∃ t l, op = .touchAdded t l) → d = none) (hr : op = .touchRemoved → b = false) (hn : op.time ≤ T)
    (hs : slow = true → b = false → (events (step cfg s op).2).foldl nearStep b = true → ∀ x, d = some x → x.timer = none) :
    let b' := (events (step cfg s op).2).foldl nearStep b
    Paired cfg (step cfg s op).1 (hear d op (step cfg s op).2) b' T slow ∧
      ((∀ t l, op ≠ .touchAdded t l) → Known s.arb d b ∨ s.opened = true ∧ (∃ evs n, op = .frame evs n) →
        Known (step cfg s op).1.arb (hear d op (step cfg s op).2) b') := by
  dsimp only
  obtain ⟨f, t, R⟩ := I.rest
  have hung : s.hung = false := R.pens.hung
  have RR := step_clean cfg s op f t R hc
  obtain ⟨_, _, R'⟩ := RR
  revert hs R'
  unfold step
  rw [if_neg (by rw [hung]; simp)]
  cases op with
  | frame evs now =>
    dsimp only [Op.time] at hn ⊢
    rw [hear_plain _ _ _ (by simp) (by simp)]
    dsimp only [Op.time]
    intro hs _
    by_cases ho : s.opened = true
    · rw [if_pos ho] at hs ⊢
      unfold Pen.frame at hs ⊢
      obtain ⟨P, A⟩ := fold_clean cfg evs s f t (hc evs now rfl) R
      have SM := fold_same cfg evs s
      obtain ⟨e1, e2⟩ := fold_hand cfg evs s
      obtain ⟨h1, h2⟩ := syn_paired cfg (evs.foldl (kev cfg) s) false now f t d b T slow P A
        ⟨fun h => I.near.far (SM.prox ▸ h), fun h => by rw [SM.entering]; exact I.near.here (SM.prox ▸ h)⟩
        (fun h => e2.trans (I.quiet h)) (I.touch.trans (by rw [e1])) (fun x h => e2 ▸ I.good x h) (fun h => e2.trans (I.fresh h))
        (fun h h' => I.mid h (e2 ▸ h')) hn hs
      exact ⟨h1, fun _ _ h x hx ha => by rw [(h2 x hx).1 ha] at h; cases h⟩
    · rw [if_neg ho] at hs ⊢
      exact ⟨I, fun _ h => h.elim id (fun h => absurd h.1 ho)⟩
  | timeout now =>
    dsimp only [Op.time] at hn ⊢
    rw [hear_plain _ _ _ (by simp) (by simp)]
    dsimp only [Op.time]
    intro hs R'
    refine not_frame (fun h => (by obtain ⟨_, _, h⟩ := h; cases h)) ?_
    cases hq : s.q.timer with
    | none => exact ⟨I, id⟩
    | some tm =>
      rw [hq] at hs R'
      dsimp only at hs R' ⊢
      by_cases ht : tm ≤ now
      · rw [if_pos ht] at hs R' ⊢
        unfold Pen.timeout at hs R' ⊢
        dsimp only at hs R' ⊢
        by_cases h1 : (s.st.inContact || s.st.buttonsDown) = true
        · rw [if_pos h1] at R' ⊢
          obtain ⟨q, e⟩ := setTimer_state { s with q.timer := none } now
          rw [e] at R' ⊢
          exact ⟨⟨⟨_, _, R'⟩, ⟨I.near.1, I.near.2⟩, I.even, I.quiet, I.touch, I.good, I.fresh, I.mid⟩, id⟩
        · rw [if_neg h1] at R' hs ⊢
          by_cases h2 : s.q.lastTime > now - 50000
          · rw [if_pos h2] at R' ⊢
            obtain ⟨q, e⟩ := setTimer_state { s with q.timer := none } s.q.lastTime
            rw [e] at R' ⊢
            exact ⟨⟨⟨_, _, R'⟩, ⟨I.near.1, I.near.2⟩, I.even, I.quiet, I.touch, I.good, I.fresh, I.mid⟩, id⟩
          · rw [if_neg h2] at R' hs ⊢
            dsimp only at hs ⊢
            have R0 : Rest cfg { s with q.timer := none } f t := R.congr rfl rfl rfl rfl rfl rfl rfl
            obtain ⟨P, A⟩ := fold_clean cfg [KEv.key 320 0] _ f t (by simp [isCursorKey]) R0
            have SM := fold_same cfg [KEv.key 320 0] { s with q.timer := none }
            obtain ⟨e1, e2⟩ := fold_hand cfg [KEv.key 320 0] { s with q.timer := none }
            simp only [List.foldl_cons, List.foldl_nil, kev] at P A SM e1 e2
            obtain ⟨h1, h2⟩ := syn_paired cfg (keyEvent cfg { s with q.timer := none } 320 0) true now f t d b T slow P A
              ⟨fun h => I.near.far (SM.prox ▸ h), fun h => by rw [SM.entering]; exact I.near.here (SM.prox ▸ h)⟩
              (fun h => e2.trans (I.quiet h)) (I.touch.trans (by rw [e1])) (fun x h => e2 ▸ I.good x h) (fun h => e2.trans (I.fresh h))
              (fun h h' => I.mid h (e2 ▸ h')) hn hs
            generalize Pen.syn cfg (keyEvent cfg { s with q.timer := none } 320 0) true now = r at h1 h2 R' ⊢
            exact ⟨⟨⟨_, _, R'⟩, ⟨h1.near.1, h1.near.2⟩, h1.even, h1.quiet, h1.touch, h1.good, h1.fresh, h1.mid⟩,
              fun _ h x hx ha => (by rw [(h2 x hx).1 ha] at h; cases h)⟩
      · rw [if_neg ht] at hs R' ⊢
        exact ⟨I, id⟩
  | suspend now =>
    dsimp only [Op.time] at hn ⊢
    rw [hear_plain _ _ _ (by simp) (by simp)]
    dsimp only [Op.time]
    intro _ R'
    refine not_frame (fun h => (by obtain ⟨_, _, h⟩ := h; cases h)) ?_
    by_cases ho : s.opened = true
    · rw [if_pos ho] at R' ⊢
      unfold Pen.suspend at R' ⊢
      dsimp only at R' ⊢
      have G0 : ∀ x, listen now d (s.setArb .notActive).2 = some x → Good x (s.setArb .notActive).1.arb T slow := by
        unfold Pen.setArb
        cases d with
        | none => rw [← I.touch]; intro x h; cases h
        | some y =>
          rw [← I.touch]
          intro x h
          cases h
          exact good_tell y s.arb .notActive T now slow (I.good y rfl) hn (fun _ _ _ h => absurd rfl h)
      have A0 : (s.setArb .notActive).1.arb = .notActive := by
        unfold Pen.setArb
        split
        · rfl
        · rename_i h
          exact I.fresh (by
            have := I.touch
            cases d with
            | none => rfl
            | some y => rw [← this] at h; simp at h)
      have T0 : (listen now d (s.setArb .notActive).2).isSome = s.h.touch := by
        unfold Pen.setArb
        cases d with
        | none => rw [← I.touch]; rfl
        | some y => rw [← I.touch]; rfl
      obtain ⟨⟨a, ea⟩, ev⟩ := setArb_state s .notActive
      rw [ea] at R' A0 G0 ⊢
      dsimp only at A0 G0
      subst A0
      by_cases hx : s.st.outOfProx = true
      · rw [if_pos hx] at R' ⊢
        dsimp only at R' ⊢
        rw [ev]
        exact ⟨⟨⟨_, _, R'⟩, ⟨I.near.1, I.near.2⟩, I.even, fun _ => rfl, T0, G0, fun _ => rfl, fun h => (by have := I.near.far hx; rw [this] at h; cases h)⟩,
          fun _ h => (by have h : b = true := h; have := I.near.far hx; rw [this] at h; cases h)⟩
      · rw [if_neg hx] at R' ⊢
        have hx' : s.st.outOfProx = false := by simpa using hx
        dsimp only at R' ⊢
        have P : Pens cfg { s with arb := .notActive, st.leaving := true } f t := by
          obtain ⟨⟨a1, a2, a3, a4, a5, a6, a7, a8, a9, a10⟩, a11⟩ := R
          exact ⟨a1, a2, a3, a4, a5, a6, a7, fun _ => hx', a9, a10⟩
        have A : Ahead { s with arb := .notActive, st.leaving := true } f := R.ahead
        have N1 := flush_near cfg { s with arb := .notActive, st.leaving := true } false now 2 f b t ⟨I.near.1, I.near.2⟩ P A
        have L1 := flush_leave cfg { s with arb := .notActive, st.leaving := true } false now 2 f t P A (I.even hx') rfl
        obtain ⟨m1, m2, m3⟩ := flush_mute cfg false now 4 { s with arb := .notActive, st.leaving := true }
        rw [events_append, ev, List.nil_append, listen_append, listen_mute _ _ m1]
        dsimp only at N1 L1 m2 m3 ⊢
        have b0 := N1.1 L1
        refine ⟨?_, fun _ h => (by rw [b0] at h; cases h)⟩
        refine ⟨⟨_, _, R'⟩, ⟨fun _ => b0, fun h => ?_⟩, fun h => ?_, fun _ => m3, T0.trans m2.symm, fun x h => ?_, fun _ => m3, fun h => ?_⟩
        · dsimp only at h; rw [L1] at h; cases h
        · dsimp only at h; rw [L1] at h; cases h
        · dsimp only; rw [m3]; exact G0 x h
        · rw [b0] at h; cases h
    · rw [if_neg ho] at R' ⊢
      exact ⟨I, id⟩
  | resume raw =>
    dsimp only
    rw [hear_plain _ _ _ (by simp) (by simp)]
    intro hs R'
    refine not_frame (fun h => (by obtain ⟨_, _, h⟩ := h; cases h)) ?_
    split at R'
    · rename_i h; rw [if_pos h]; exact ⟨I, id⟩
    · rename_i h; rw [if_neg h]; exact ⟨⟨⟨_, _, R'⟩, ⟨I.near.1, I.near.2⟩, I.even, I.quiet, I.touch, I.good, I.fresh, I.mid⟩, id⟩
  | setLeft l =>
    rw [hear_plain _ _ _ (by simp) (by simp)]
    dsimp only
    intro _ R'
    obtain ⟨c1, c2, c3⟩ := changeLeft_mute { s with h.wantLeft := l }
    obtain ⟨hh, e⟩ := changeLeft_state { s with h.wantLeft := l }
    rw [changeLeft_events, listen_mute _ _ c1]
    refine not_frame (fun h => (by obtain ⟨_, _, h⟩ := h; cases h)) ?_
    rw [changeLeft_events] at R'
    exact ⟨I.congr ⟨_, _, R'⟩ (by rw [e]) (by rw [e]; exact ⟨rfl, rfl⟩) c2 c3, fun h => by rw [c3]; exact h⟩
  | touchLeft l =>
    rw [hear_plain _ _ _ (by simp) (by simp)]
    dsimp only
    intro _ R'
    refine not_frame (fun h => (by obtain ⟨_, _, h⟩ := h; cases h)) ?_
    by_cases hr : s.h.rotTouch = true
    · rw [if_pos hr] at R' ⊢
      obtain ⟨c1, c2, c3⟩ := changeRotation_mute { s with h.touchLeft := l } false
      obtain ⟨⟨hh, e⟩, ev⟩ := changeRotation_state { s with h.touchLeft := l } false
      rw [ev] at R'
      rw [ev, listen_mute _ _ c1]
      exact ⟨I.congr ⟨_, _, R'⟩ (by rw [e]) (by rw [e]; exact ⟨rfl, rfl⟩) c2 c3, fun h => by rw [c3]; exact h⟩
    · rw [if_neg hr] at R' ⊢
      exact ⟨I, id⟩
  | touchAdded pad l =>
    dsimp only
    intro _ R'
    refine ⟨?_, fun h => absurd rfl (h pad l)⟩
    have d0 : d = none := ha ⟨pad, l, rfl⟩
    have a0 := I.fresh d0
    have key : ∀ s' : Pen, s'.st = s.st → s'.t = s.t → s'.h.touch = true → s'.arb = s.arb → (∃ f t, Rest cfg s' f t) →
        Paired cfg s' (some { pad }) b T slow := by
      intro s' k1 k2 k3 k4 k5
      refine ⟨k5, ⟨fun h => I.near.far (k1 ▸ h), fun h => by rw [k1]; exact I.near.here (k1 ▸ h)⟩, fun h => ?_, fun _ => k4.trans a0, k3.symm, ?_, fun h => (by cases h), ?_⟩
      · rw [k2]; exact I.even (k1 ▸ h)
      · intro x hx
        cases hx
        rw [k4, a0]
        exact good_new pad T slow
      · intro _ _ x hx
        cases hx
        rfl
    by_cases hp : pad = true
    · rw [if_pos hp] at R' ⊢
      by_cases hl : l = true
      · rw [if_pos hl] at R' ⊢
        obtain ⟨c1, c2, c3⟩ := changeRotation_mute { s with h.touch := true, h.rotTouch := true, h.touchLeft := true } true
        obtain ⟨⟨hh, e⟩, ev⟩ := changeRotation_state { s with h.touch := true, h.rotTouch := true, h.touchLeft := true } true
        dsimp only at ev
        rw [ev] at R'
        rw [ev]
        have := listen_mute 0 _ c1 (some { pad })
        dsimp only [listen] at this
        unfold hear
        dsimp only [Op.time]
        rw [this]
        exact key _ (by rw [e]) (by rw [e]) c2 c3 ⟨_, _, R'⟩
      · rw [if_neg hl] at R' ⊢
        exact key _ rfl rfl rfl rfl ⟨_, _, R'⟩
    · rw [if_neg hp] at R' ⊢
      exact key _ rfl rfl rfl rfl ⟨_, _, R'⟩
  | touchRemoved =>
    dsimp only
    intro _ R'
    refine not_frame (fun h => (by obtain ⟨_, _, h⟩ := h; cases h)) ?_
    have a0 := I.quiet (hr rfl)
    have key : ∀ s' : Pen, s'.st = s.st → s'.t = s.t → s'.h.touch = false → s'.arb = s.arb → (∃ f t, Rest cfg s' f t) →
        Paired cfg s' none b T slow := by
      intro s' k1 k2 k3 k4 k5
      refine ⟨k5, ⟨fun h => I.near.far (k1 ▸ h), fun h => by rw [k1]; exact I.near.here (k1 ▸ h)⟩, fun h => ?_, fun _ => k4.trans a0, k3.symm,
        fun x h => (by cases h), fun _ => k4.trans a0, fun _ _ x h => (by cases h)⟩
      rw [k2]; exact I.even (k1 ▸ h)
    by_cases hp : s.h.rotTouch = true
    · rw [if_pos hp] at R' ⊢
      obtain ⟨c1, c2, c3⟩ := changeRotation_mute { s with h.touch := false, h.rotTouch := false, h.touchLeft := false } true
      obtain ⟨⟨hh, e⟩, ev⟩ := changeRotation_state { s with h.touch := false, h.rotTouch := false, h.touchLeft := false } true
      dsimp only at ev
      rw [ev] at R'
      rw [ev]
      have := listen_mute 0 _ c1 none
      dsimp only [listen] at this
      unfold hear
      dsimp only [Op.time]
      rw [this]
      exact ⟨key _ (by rw [e]) (by rw [e]) c2 c3 ⟨_, _, R'⟩, fun _ _ x hx => (by cases hx)⟩
    · rw [if_neg hp] at R' ⊢
      exact ⟨key _ rfl rfl rfl rfl ⟨_, _, R'⟩, fun _ _ x hx => (by cases hx)⟩
  | foreign t =>
    rw [hear_plain _ _ _ (by simp) (by simp)]
    dsimp only
    intro _ R'
    refine not_frame (fun h => (by obtain ⟨_, _, h⟩ := h; cases h)) ?_
    by_cases h1 : t.serial = 0
    · rw [if_pos h1] at R' ⊢; exact ⟨I, id⟩
    · rw [if_neg h1] at R' ⊢
      split at R'
      · rename_i h2; rw [if_pos h2]; exact ⟨I.congr ⟨_, _, R'⟩ rfl ⟨rfl, rfl⟩ rfl rfl, id⟩
      · rename_i h2; rw [if_neg h2]; exact ⟨I.congr ⟨_, _, R'⟩ rfl ⟨rfl, rfl⟩ rfl rfl, id⟩

end Libinput.Tablet
