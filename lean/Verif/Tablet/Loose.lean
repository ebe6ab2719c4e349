import Verif.Tablet.Stream
/-
What holds whatever the kernel sends.
-/
namespace Libinput.Tablet

/-! ### The shape of one round, for every tool -/

theorem toolChange_any (s : Pen) (j : Bool) (now : Nat) :
    ∃ n p kd q st', (s.toolChange j now).1 = { s with t := { s.t with now := n, prev := p, kind := kd }, q := q, st := st' } ∧
      (st' = s.st ∧ (s.toolChange j now).2 = false ∧ kd = s.t.kind ∨
       st' = { s.st with leaving := s.st.leaving || !s.st.outOfProx } ∧ kd = s.t.kind ∨
       st' = { s.st with entering := true, outOfProx := false } ∧ (s.toolChange j now).2 = false ∧
        (∃ k, kd = some k ∧ lowest (n ^^^ s.t.prev) = some k ∧ n.testBit k.num = true ∧ p = n)) ∧
      ((s.toolChange j now).2 = false → p = n) := by
  unfold Pen.toolChange
  obtain ⟨n, q, e, _⟩ := emulate_state s
  rw [e]
  dsimp only
  by_cases h : n = s.t.prev
  · rw [if_pos h]
    exact ⟨n, s.t.prev, s.t.kind, q, s.st, rfl, .inl ⟨rfl, rfl, rfl⟩, fun _ => h.symm⟩
  · rw [if_neg h]
    by_cases h2 : n &&& (n - 1) = 0
    · simp only [h2, ne_eq, not_true_eq_false, decide_false, Bool.false_eq_true, if_false]
      cases hk : lowest (n ^^^ s.t.prev) with
      | none =>
        dsimp only
        generalize hy : Pen.updateTool _ none false = y
        obtain ⟨q', e'⟩ := penTimer_state y j now none false
        rw [e', ← hy, updateTool_off]
        exact ⟨_, _, _, _, _, rfl, .inr (.inl ⟨rfl, rfl⟩), fun _ => rfl⟩
      | some k =>
        dsimp only
        cases ho : n.testBit k.num with
        | false =>
          generalize hy : Pen.updateTool _ (some k) false = y
          obtain ⟨q', e'⟩ := penTimer_state y j now (some k) false
          rw [e', ← hy, updateTool_off]
          exact ⟨_, _, _, _, _, rfl, .inr (.inl ⟨rfl, rfl⟩), fun _ => rfl⟩
        | true =>
          generalize hy : Pen.updateTool _ (some k) true = y
          obtain ⟨q', e'⟩ := penTimer_state y j now (some k) true
          rw [e', ← hy]
          exact ⟨_, _, _, _, _, rfl, .inr (.inr ⟨rfl, trivial, k, rfl, hk, ho, rfl⟩), fun _ => rfl⟩
    · simp only [h2, ne_eq, not_false_eq_true, decide_true, if_true]
      cases lowest (0 ^^^ s.t.prev) with
      | none =>
        dsimp only
        generalize hy : Pen.updateTool _ none false = y
        obtain ⟨q', e'⟩ := penTimer_state y j now none false
        rw [e', ← hy, updateTool_off]
        exact ⟨_, _, _, _, _, rfl, .inr (.inl ⟨rfl, rfl⟩), fun h => by cases h⟩
      | some k =>
        dsimp only
        rw [Nat.zero_testBit]
        generalize hy : Pen.updateTool _ (some k) false = y
        obtain ⟨q', e'⟩ := penTimer_state y j now (some k) false
        rw [e', ← hy, updateTool_off]
        exact ⟨_, _, _, _, _, rfl, .inr (.inl ⟨rfl, rfl⟩), fun h => by cases h⟩

theorem cursorRange_any (cfg : Cfg) (s : Pen) (t : Tool) :
    ∃ v b pb st', s.cursorRange cfg t = { s with v := v, buttons := b, prevButtons := pb, st := st' } ∧
      (st' = s.st ∨ st' = { s.st with outOfRange := false, outOfProx := false, entering := true, pressed := true } ∨
       st' = { s.st with outOfRange := true, entering := false } ∨ st' = { s.st with leaving := true }) := by
  unfold Pen.cursorRange Pen.forcePresses
  dsimp only
  repeat' split
  · exact ⟨_, _, _, _, rfl, .inl rfl⟩
  · exact ⟨_, _, _, _, rfl, .inl rfl⟩
  · exact ⟨_, _, _, _, rfl, .inr (.inl rfl)⟩
  · exact ⟨_, _, _, _, rfl, .inl rfl⟩
  · exact ⟨_, _, _, _, rfl, .inl rfl⟩
  · exact ⟨_, _, _, _, rfl, .inr (.inr (.inl rfl))⟩
  · exact ⟨_, _, _, _, rfl, .inr (.inr (.inr rfl))⟩

theorem prepare_any (cfg : Cfg) (s : Pen) (t : Tool) :
    (s.prepare cfg t).2.key = t.key ∧ ∃ v l b e lv r, (s.prepare cfg t).1 =
        { s with v := v, t := { s.t with tools := l }, buttons := b,
                 st := { s.st with enterContact := e, leaveContact := lv, released := r } } := by
  unfold Pen.prepare
  split
  · exact ⟨rfl, _, _, _, _, _, _, rfl⟩
  · split
    · dsimp only
      have hd : ∀ x : Pen, x = (if s.st.entering = true then { s with v.changed := t.caps } else s) →
          ∃ v, x = { s with v := v } := by
        intro x hx; subst hx; split <;> exact ⟨_, rfl⟩
      generalize hx : (if s.st.entering = true then { s with v.changed := t.caps } else s) = x
      obtain ⟨v, rfl⟩ := hd x hx.symm
      dsimp only
      generalize ht : v.detectOffset cfg s.st.entering t = t'
      obtain ⟨e, l, e1, e2, e3⟩ := detectContact_state cfg { s with v := v, t := s.t.putTool t' } t'
      rw [e1]
      exact ⟨by rw [← ht]; exact detectOffset_key .., _, _, _, _, _, _, rfl⟩
    · exact ⟨rfl, s.v, s.t.tools, s.buttons, s.st.enterContact, s.st.leaveContact, s.st.released, rfl⟩

/-- A round does nothing, or it sends the events of one tool. -/
theorem pass_cases (cfg : Cfg) (s : Pen) (j : Bool) (now : Nat) :
    (s.pass cfg j now).2 = ([], false) ∧ (∃ v b pb t q st, (s.pass cfg j now).1 =
        { s with v := v, buttons := b, prevButtons := pb, t := t, q := q, st := st }) ∨
    ∃ s₁ t, s₁.st.outOfProx = false ∧ s₁.st.outOfRange = false ∧
      s.pass cfg j now = (((s₁.prepare cfg t).1.send cfg (s₁.prepare cfg t).2).1,
        ((s₁.prepare cfg t).1.send cfg (s₁.prepare cfg t).2).2, (s.toolChange j now).2) ∧
      (∃ v b pb t q st, s₁ = { s with v := v, buttons := b, prevButtons := pb, t := t, q := q, st := st }) := by
  unfold Pen.pass
  dsimp only
  obtain ⟨n, p, kd, q, st', ec, _⟩ := toolChange_any s j now
  rw [ec]
  dsimp only
  cases kd with
  | none => exact .inl ⟨rfl, _, _, _, _, _, _, rfl⟩
  | some k =>
    dsimp only
    generalize ToolSt.getTool _ _ _ = g
    have hx : ∃ x : Pen, x = (if k.isCursor = true then
        ({ s with t := g.1, q := q, st := st' } : Pen).cursorRange cfg g.2 else { s with t := g.1, q := q, st := st' }) ∧
        ∃ v b pb st, x = { s with v := v, buttons := b, prevButtons := pb, t := g.1, q := q, st := st } := by
      refine ⟨_, rfl, ?_⟩
      split
      · obtain ⟨v, b, pb, st, e, _⟩ := cursorRange_any cfg { s with t := g.1, q := q, st := st' } g.2
        exact ⟨v, b, pb, st, e⟩
      · exact ⟨_, _, _, _, rfl⟩
    obtain ⟨x, ex, v, b, pb, st, ex'⟩ := hx
    rw [← ex]
    split
    · left; exact ⟨rfl, v, b, pb, g.1, q, st, ex'⟩
    · rename_i h
      simp only [Bool.or_eq_true, not_or, Bool.not_eq_true] at h
      right
      exact ⟨x, g.2, h.1, h.2, rfl, v, b, pb, g.1, q, st, ex'⟩

/-! ### Every event belongs to a tool in proximity -/

def nearStep (b : Bool) : Ev → Bool
  | .prox isIn _ => isIn
  | _ => b

theorem near_foldl (es : List Ev) : near es = es.foldl nearStep false := by
  unfold near
  congr 1

/-- Apart from a tool coming into proximity, everything happens while one is there. -/
def Inside (b : Bool) : List Ev → Prop
  | [] => True
  | e :: es => (b = true ∨ ∃ d, e = .prox true d) ∧ Inside (nearStep b e) es

theorem inside_append (x y : List Ev) : ∀ b, Inside b (x ++ y) ↔ Inside b x ∧ Inside (x.foldl nearStep b) y := by
  induction x with
  | nil => intro b; simp [Inside]
  | cons e x ih => intro b; simp only [List.cons_append, Inside, List.foldl_cons, ih]; exact and_assoc.symm

theorem inside_keep (es : List Ev) (h : ∀ e ∈ es, ∀ b, nearStep b e = b) : Inside true es ∧ es.foldl nearStep true = true := by
  induction es with
  | nil => exact ⟨trivial, rfl⟩
  | cons e es ih =>
    have h1 := h e (by simp) true
    have h2 := ih (fun x hx => h x (by simp [hx]))
    simp only [Inside, List.foldl_cons, h1]
    exact ⟨⟨.inl trivial, h2.1⟩, h2.2⟩

/-- A tool the client does not know about is out of proximity, out of range, or about to be announced. -/
def Aware (s : Pen) (b : Bool) : Prop :=
  b = false → s.st.outOfProx = true ∨ s.st.outOfRange = true ∨ s.st.entering = true

theorem send_inside (cfg : Cfg) (s : Pen) (t : Tool) (b : Bool) (h : b = true ∨ s.st.entering = true) :
    Inside b (events (s.send cfg t).2) ∧ (events (s.send cfg t).2).foldl nearStep b = !s.st.leaving := by
  obtain ⟨c₁, a₁, c₂, a₂, c₃, a₃, a₄, e⟩ := send_events cfg s t
  rw [e]
  clear e
  have h1 : Inside b (if s.st.entering then [.prox true ⟨t.key, false, c₁, a₁⟩] else []) ∧
      List.foldl nearStep b (if s.st.entering then [.prox true ⟨t.key, false, c₁, a₁⟩] else []) = true := by
    split
    · exact ⟨⟨.inr ⟨_, rfl⟩, trivial⟩, rfl⟩
    · rename_i he
      rcases h with rfl | h
      · exact ⟨trivial, rfl⟩
      · exact absurd h he
  obtain ⟨x, ex⟩ : ∃ x, x = (if s.st.entering then [Ev.prox true ⟨t.key, false, c₁, a₁⟩] else []) := ⟨_, rfl⟩
  obtain ⟨y, ey⟩ : ∃ y, y = (if s.st.enterContact then [Ev.tip true ⟨t.key, true, c₂, a₁⟩]
       else if s.st.leaveContact then [.tip false ⟨t.key, false, c₂, a₁⟩]
       else if s.st.axesUpdated && !s.st.leaving && !s.st.entering then [.axis ⟨t.key, s.st.inContact, c₃, a₁⟩] else []) := ⟨_, rfl⟩
  obtain ⟨z, ez⟩ : ∃ z, z = (if s.st.released then (codes.filter (fun c => s.prevButtons c && !s.buttons c)).map
        (fun c => Ev.button c false ⟨t.key, s.st.sent.inContact, [], a₂⟩) else []) := ⟨_, rfl⟩
  obtain ⟨u, eu⟩ : ∃ u, u = (if s.st.pressed then (codes.filter (fun c => s.buttons c && !s.prevButtons c)).map
        (fun c => Ev.button c true ⟨t.key, s.st.sent.inContact, [], a₃⟩) else []) := ⟨_, rfl⟩
  rw [← ex] at h1
  rw [← ex, ← ey, ← ez, ← eu]
  have hm : ∀ e ∈ y ++ z ++ u, ∀ b, nearStep b e = b := by
    intro e he b
    simp only [List.mem_append] at he
    rcases he with (he | he) | he
    · subst ey
      repeat' split at he
      all_goals simp at he
      all_goals subst he; rfl
    · subst ez
      split at he
      · simp only [List.mem_map] at he; obtain ⟨c, _, rfl⟩ := he; rfl
      · simp at he
    · subst eu
      split at he
      · simp only [List.mem_map] at he; obtain ⟨c, _, rfl⟩ := he; rfl
      · simp at he
  have h2 := inside_keep _ hm
  have h3 : Inside true (if s.st.leaving then [.prox false ⟨t.key, false, [], a₄⟩] else []) ∧
      List.foldl nearStep true (if s.st.leaving then [.prox false ⟨t.key, false, [], a₄⟩] else []) = !s.st.leaving := by
    cases s.st.leaving
    · exact ⟨trivial, rfl⟩
    · exact ⟨⟨.inl rfl, trivial⟩, rfl⟩
  rw [show ∀ l : List Ev, x ++ y ++ z ++ u ++ l = x ++ ((y ++ z ++ u) ++ l) from fun l => by simp only [List.append_assoc]]
  have a1 := inside_append x ((y ++ z ++ u) ++ (if s.st.leaving then [.prox false ⟨t.key, false, [], a₄⟩] else [])) b
  have a2 := inside_append (y ++ z ++ u) (if s.st.leaving then [.prox false ⟨t.key, false, [], a₄⟩] else []) true
  have a3 := List.foldl_append (f := nearStep) (b := true) (l := y ++ z ++ u)
    (l' := if s.st.leaving then [.prox false ⟨t.key, false, [], a₄⟩] else [])
  rw [h1.2] at a1
  rw [h2.2] at a2 a3
  rw [a1, a2, List.foldl_append, h1.2, a3]
  exact ⟨⟨h1.1, h2.1, h3.1⟩, h3.2⟩

theorem pass_inside (cfg : Cfg) (s : Pen) (j : Bool) (now : Nat) (b : Bool) (h : Aware s b) :
    Inside b (events (s.pass cfg j now).2.1) ∧ Aware (s.pass cfg j now).1 ((events (s.pass cfg j now).2.1).foldl nearStep b) := by
  unfold Pen.pass
  dsimp only
  obtain ⟨n, p, kd, q, st', ec, hst, _⟩ := toolChange_any s j now
  rw [ec]
  dsimp only
  have h1 : Aware { s with t := { s.t with now := n, prev := p, kind := kd }, q := q, st := st' } b := by
    intro hb
    have := h hb
    rcases hst with ⟨rfl, _⟩ | ⟨rfl, _⟩ | ⟨rfl, _⟩
    · exact this
    · exact this
    · exact .inr (.inr rfl)
  cases kd with
  | none => exact ⟨trivial, h1⟩
  | some k =>
    dsimp only
    generalize ToolSt.getTool _ _ _ = g
    have hx : ∃ x : Pen, x = (if k.isCursor = true then
        ({ s with t := g.1, q := q, st := st' } : Pen).cursorRange cfg g.2 else { s with t := g.1, q := q, st := st' }) ∧
        Aware x b := by
      refine ⟨_, rfl, fun hb => ?_⟩
      have := h1 hb
      dsimp only at this
      split
      · obtain ⟨v, b, pb, st, e, hs⟩ := cursorRange_any cfg { s with t := g.1, q := q, st := st' } g.2
        rw [e]
        rcases hs with rfl | rfl | rfl | rfl
        · exact this
        · exact .inr (.inr rfl)
        · exact .inr (.inl rfl)
        · exact this
      · exact this
    obtain ⟨x, ex, hx⟩ := hx
    rw [← ex]
    split
    · exact ⟨trivial, hx⟩
    · rename_i ho
      simp only [Bool.or_eq_true, not_or, Bool.not_eq_true] at ho
      obtain ⟨_, v, l, bb, e, lv, r, ep⟩ := prepare_any cfg x g.2
      have hp : (x.prepare cfg g.2).1.st.entering = x.st.entering ∧ (x.prepare cfg g.2).1.st.leaving = x.st.leaving := by
        rw [ep]; exact ⟨rfl, rfl⟩
      obtain ⟨i1, i2⟩ := send_inside cfg (x.prepare cfg g.2).1 (x.prepare cfg g.2).2 b (by
        cases b
        · rcases hx rfl with h | h | h
          · rw [ho.1] at h; cases h
          · rw [ho.2] at h; cases h
          · right; rw [hp.1]; exact h
        · exact .inl rfl)
      refine ⟨i1, ?_⟩
      rw [i2]
      intro hl
      obtain ⟨v', h', e'⟩ := send_state cfg (x.prepare cfg g.2).1 (x.prepare cfg g.2).2
      rw [e']
      left
      simp only [Bits.sent]
      have : (x.prepare cfg g.2).1.st.leaving = true := by simpa using hl
      simp [this]

theorem flush_inside (cfg : Cfg) (j : Bool) (now : Nat) : ∀ n s b, Aware s b →
    Inside b (events (s.flush cfg j now n).2) ∧ Aware (s.flush cfg j now n).1 ((events (s.flush cfg j now n).2).foldl nearStep b) := by
  intro n
  induction n with
  | zero => intro s b h; exact ⟨trivial, h⟩
  | succ n ih =>
    intro s b h
    obtain ⟨h1, h2⟩ := pass_inside cfg s j now b h
    simp only [Pen.flush]
    split
    · dsimp only
      rw [events_append, inside_append, List.foldl_append]
      have := ih _ _ h2
      exact ⟨⟨h1, this.1⟩, this.2⟩
    · exact ⟨h1, h2⟩

theorem syn_inside (cfg : Cfg) (s : Pen) (j : Bool) (now : Nat) (b : Bool) (h : Aware s b) :
    Inside b (events (s.syn cfg j now).2) ∧ Aware (s.syn cfg j now).1 ((events (s.syn cfg j now).2).foldl nearStep b) := by
  unfold Pen.syn
  dsimp only
  obtain ⟨h1, h2⟩ := flush_inside cfg j now 4 s b h
  obtain ⟨⟨a, ea⟩, ev⟩ := toggle_state (Pen.flush cfg j now 4 s).1
  rw [events_append, ev, List.append_nil, ea]
  refine ⟨h1, ?_⟩
  obtain ⟨bd, er⟩ := reset_state { (Pen.flush cfg j now 4 s).1 with arb := a }
  rw [er]
  exact h2

theorem Aware.congr {s s' : Pen} {b : Bool} (h : Aware s b) (h1 : s'.st.outOfProx = s.st.outOfProx)
    (h2 : s'.st.outOfRange = s.st.outOfRange) (h3 : s'.st.entering = s.st.entering) : Aware s' b := by
  intro hb; rw [h1, h2, h3]; exact h hb

theorem fold_aware (cfg : Cfg) (evs : List KEv) (s : Pen) (b : Bool) (h : Aware s b) : Aware (evs.foldl (kev cfg) s) b := by
  have SM := fold_same cfg evs s
  exact h.congr SM.prox SM.range SM.entering

/-- What an operation other than a frame, a timeout and a suspension does. -/
theorem step_quiet (cfg : Cfg) (s : Pen) (op : Op) (h1 : ∀ e n, op ≠ .frame e n) (h2 : ∀ n, op ≠ .timeout n)
    (h3 : ∀ n, op ≠ .suspend n) :
    events (step cfg s op).2 = [] ∧ ∃ v l hh o, (step cfg s op).1 =
      { s with v := v, t := { s.t with tools := l }, h := hh, opened := o } ∧ (s.opened = true → o = true) := by
  unfold step
  by_cases hu : s.hung = true
  · rw [if_pos hu]; exact ⟨rfl, s.v, s.t.tools, s.h, s.opened, rfl, id⟩
  · rw [if_neg hu]
    cases op with
    | frame evs now => exact absurd rfl (h1 evs now)
    | timeout now => exact absurd rfl (h2 now)
    | suspend now => exact absurd rfl (h3 now)
    | resume raw =>
      dsimp only
      split
      · exact ⟨rfl, _, _, _, _, rfl, id⟩
      · exact ⟨rfl, _, _, _, _, rfl, fun _ => rfl⟩
    | setLeft b =>
      dsimp only
      obtain ⟨h, e⟩ := changeLeft_state { s with h.wantLeft := b }
      rw [e, changeLeft_events]
      exact ⟨rfl, _, _, _, _, rfl, id⟩
    | touchLeft b =>
      dsimp only
      split
      · obtain ⟨⟨h, e⟩, e'⟩ := changeRotation_state { s with h.touchLeft := b } false
        rw [e, e']
        exact ⟨rfl, _, _, _, _, rfl, id⟩
      · exact ⟨rfl, _, _, _, _, rfl, id⟩
    | touchAdded tp left =>
      dsimp only
      split
      · split
        · obtain ⟨⟨h, e⟩, e'⟩ := changeRotation_state { s with h.touch := true, h.rotTouch := true, h.touchLeft := true } true
          rw [e, e']
          exact ⟨rfl, _, _, _, _, rfl, id⟩
        · exact ⟨rfl, _, _, _, _, rfl, id⟩
      · exact ⟨rfl, _, _, _, _, rfl, id⟩
    | touchRemoved =>
      dsimp only
      split
      · obtain ⟨⟨h, e⟩, e'⟩ := changeRotation_state { s with h.touch := false, h.rotTouch := false, h.touchLeft := false } true
        rw [e, e']
        exact ⟨rfl, _, _, _, _, rfl, id⟩
      · exact ⟨rfl, _, _, _, _, rfl, id⟩
    | foreign t =>
      dsimp only
      split
      · exact ⟨rfl, _, _, _, _, rfl, id⟩
      · split
        · exact ⟨rfl, _, _, _, _, rfl, id⟩
        · exact ⟨rfl, _, _, _, _, rfl, id⟩

theorem step_inside (cfg : Cfg) (s : Pen) (op : Op) (b : Bool) (h : Aware s b) :
    Inside b (events (step cfg s op).2) ∧ Aware (step cfg s op).1 ((events (step cfg s op).2).foldl nearStep b) := by
  by_cases h1 : ∀ e n, op ≠ .frame e n
  · by_cases h2 : ∀ n, op ≠ .timeout n
    · by_cases h3 : ∀ n, op ≠ .suspend n
      · obtain ⟨e, v, l, hh, o, es, _⟩ := step_quiet cfg s op h1 h2 h3
        rw [e, es]
        exact ⟨trivial, h⟩
      · simp only [ne_eq, Classical.not_forall, Classical.not_not] at h3
        obtain ⟨n, rfl⟩ := h3
        unfold step
        split
        · exact ⟨trivial, h⟩
        · dsimp only
          split
          · unfold Pen.suspend
            dsimp only
            obtain ⟨⟨a, ea⟩, ev⟩ := setArb_state s .notActive
            rw [ea]
            split
            · rw [ev]; exact ⟨trivial, h⟩
            · rw [events_append, ev, List.nil_append]
              have h' : Aware { s with arb := a, st.leaving := true } b := h
              obtain ⟨q1, q2⟩ := flush_inside cfg false n 4 _ b h'
              exact ⟨q1, q2⟩
          · exact ⟨trivial, h⟩
    · simp only [ne_eq, Classical.not_forall, Classical.not_not] at h2
      obtain ⟨n, rfl⟩ := h2
      unfold step
      split
      · exact ⟨trivial, h⟩
      · dsimp only
        split
        · split
          · unfold Pen.timeout
            dsimp only
            split
            · obtain ⟨q, e⟩ := setTimer_state { s with q.timer := none } n
              rw [e]
              exact ⟨trivial, h⟩
            · split
              · obtain ⟨q, e⟩ := setTimer_state { s with q.timer := none } s.q.lastTime
                rw [e]
                exact ⟨trivial, h⟩
              · have h' : Aware ([KEv.key 320 0].foldl (kev cfg) { s with q.timer := none }) b := fold_aware cfg _ _ b h
                simp only [List.foldl_cons, List.foldl_nil, kev] at h'
                obtain ⟨q1, q2⟩ := syn_inside cfg _ true n b h'
                generalize Pen.syn cfg (keyEvent cfg { s with q.timer := none } 320 0) true n = r at q1 q2 ⊢
                exact ⟨q1, q2⟩
          · exact ⟨trivial, h⟩
        · exact ⟨trivial, h⟩
  · simp only [ne_eq, Classical.not_forall, Classical.not_not] at h1
    obtain ⟨evs, n, rfl⟩ := h1
    unfold step
    split
    · exact ⟨trivial, h⟩
    · dsimp only
      split
      · exact syn_inside cfg _ false n b (fold_aware cfg evs s b h)
      · exact ⟨trivial, h⟩

theorem run_inside (cfg : Cfg) (ops : List Op) : ∀ s b, Aware s b → Inside b (events (run cfg s ops).2) := by
  induction ops with
  | nil => intro s b _; exact trivial
  | cons op ops ih =>
    intro s b h
    obtain ⟨h1, h2⟩ := step_inside cfg s op b h
    simp only [run]
    rw [events_append, inside_append]
    exact ⟨h1, ih _ _ h2⟩

theorem start_aware (cfg : Cfg) (raw : Axis → Int) (tool : Option Kind) (id now : Nat) :
    Aware (start cfg raw tool id now) false := by
  unfold start
  cases tool with
  | none => exact fun _ => .inl rfl
  | some k =>
    dsimp only
    generalize hx : Pen.updateTool _ _ _ = x
    obtain ⟨q, e⟩ := setTimer_state x now
    rw [e, ← hx]
    exact fun _ => .inr (.inr rfl)

theorem inside_spec (es : List Ev) : ∀ b, Inside b es → ∀ pre e post, es = pre ++ e :: post →
    (∀ d, e ≠ .prox true d) → pre.foldl nearStep b = true := by
  intro b h pre e post he hn
  rw [he, inside_append] at h
  rcases h.2.1 with h | ⟨d, h⟩
  · exact h
  · exact absurd h (hn d)

end Libinput.Tablet
