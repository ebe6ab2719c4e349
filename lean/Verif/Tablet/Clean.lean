import Verif.Tablet.Loose
/-
Pens, whatever the kernel sends: nothing is left down when the pen leaves, and a frame is done after two rounds.
-/
namespace Libinput.Tablet

def heldStep (f : Nat → Bool) : Ev → Nat → Bool
  | .button c p _ => fun c' => if c = c' then p else f c'
  | _ => f

def tipStep (b : Bool) : Ev → Bool
  | .tip d _ => d
  | _ => b

theorem down_foldl (es : List Ev) (c : Nat) : ∀ f : Nat → Bool,
    es.foldl (fun b e => match e with | .button c' p _ => if c' = c then p else b | _ => b) (f c) = (es.foldl heldStep f) c := by
  induction es with
  | nil => intro f; rfl
  | cons e es ih =>
    intro f
    simp only [List.foldl_cons]
    rw [← ih]
    cases e <;> rfl

theorem tip_foldl (es : List Ev) : tipDown es = es.foldl tipStep false := by
  unfold tipDown
  congr 1

/-- No button is down at a proximity-out. -/
def CleanB (f : Nat → Bool) : List Ev → Prop
  | [] => True
  | e :: es => (∀ d, e = .prox false d → ∀ c, f c = false) ∧ CleanB (heldStep f e) es

/-- The tip is up at a proximity-out. -/
def CleanT (b : Bool) : List Ev → Prop
  | [] => True
  | e :: es => (∀ d, e = .prox false d → b = false) ∧ CleanT (tipStep b e) es

theorem cleanB_append (x y : List Ev) : ∀ f, CleanB f (x ++ y) ↔ CleanB f x ∧ CleanB (x.foldl heldStep f) y := by
  induction x with
  | nil => intro b; simp [CleanB]
  | cons e x ih => intro b; simp only [List.cons_append, CleanB, List.foldl_cons, ih]; exact and_assoc.symm

theorem cleanT_append (x y : List Ev) : ∀ f, CleanT f (x ++ y) ↔ CleanT f x ∧ CleanT (x.foldl tipStep f) y := by
  induction x with
  | nil => intro b; simp [CleanT]
  | cons e x ih => intro b; simp only [List.cons_append, CleanT, List.foldl_cons, ih]; exact and_assoc.symm

theorem cleanB_noOut (es : List Ev) (h : ∀ e ∈ es, ∀ d, e ≠ .prox false d) : ∀ f, CleanB f es := by
  induction es with
  | nil => intro f; trivial
  | cons e es ih => intro f; exact ⟨fun d hd => absurd hd (h e (by simp) d), ih (fun x hx => h x (by simp [hx])) _⟩

theorem cleanT_noOut (es : List Ev) (h : ∀ e ∈ es, ∀ d, e ≠ .prox false d) : ∀ f, CleanT f es := by
  induction es with
  | nil => intro f; trivial
  | cons e es ih => intro f; exact ⟨fun d hd => absurd hd (h e (by simp) d), ih (fun x hx => h x (by simp [hx])) _⟩

theorem held_map (p : Bool) (d : Data) (l : List Nat) : ∀ f c,
    (l.map (fun c => Ev.button c p d)).foldl heldStep f c = if c ∈ l then p else f c := by
  induction l with
  | nil => intro f c; simp
  | cons x l ih =>
    intro f c
    simp only [List.map_cons, List.foldl_cons, ih, heldStep, List.mem_cons]
    by_cases h : c ∈ l <;> by_cases h' : x = c
    · simp [h]
    · simp [h]
    · simp [h']
    · simp [h, h', Ne.symm h']

theorem tip_map (p : Bool) (d : Data) (l : List Nat) : ∀ b, (l.map (fun c => Ev.button c p d)).foldl tipStep b = b := by
  induction l with
  | nil => intro b; rfl
  | cons x l ih => intro b; simp only [List.map_cons, List.foldl_cons, ih]; rfl

/-- The buttons after the events of a round. -/
theorem send_held (cfg : Cfg) (s : Pen) (t : Tool) (f : Nat → Bool)
    (small : ∀ c, s.buttons c = true ∨ s.prevButtons c = true → c < 768)
    (hb : ∀ c, f c = true → s.prevButtons c = true ∧ (s.buttons c = true ∨ s.st.released = true))
    (gone : s.st.leaving = true → ∀ c, s.buttons c = false) :
    CleanB f (events (s.send cfg t).2) ∧ ∀ c, (events (s.send cfg t).2).foldl heldStep f c = true → s.buttons c = true := by
  obtain ⟨c₁, a₁, c₂, a₂, c₃, a₃, a₄, e⟩ := send_events cfg s t
  rw [e]
  clear e
  obtain ⟨x, ex⟩ : ∃ x, x = (if s.st.entering then [Ev.prox true ⟨t.key, false, c₁, a₁⟩] else []) := ⟨_, rfl⟩
  obtain ⟨y, ey⟩ : ∃ y, y = (if s.st.enterContact then [Ev.tip true ⟨t.key, true, c₂, a₁⟩]
       else if s.st.leaveContact then [.tip false ⟨t.key, false, c₂, a₁⟩]
       else if s.st.axesUpdated && !s.st.leaving && !s.st.entering then [.axis ⟨t.key, s.st.inContact, c₃, a₁⟩] else []) := ⟨_, rfl⟩
  obtain ⟨z, ez⟩ : ∃ z, z = (if s.st.released then (codes.filter (fun c => s.prevButtons c && !s.buttons c)).map
        (fun c => Ev.button c false ⟨t.key, s.st.sent.inContact, [], a₂⟩) else []) := ⟨_, rfl⟩
  obtain ⟨u, eu⟩ : ∃ u, u = (if s.st.pressed then (codes.filter (fun c => s.buttons c && !s.prevButtons c)).map
        (fun c => Ev.button c true ⟨t.key, s.st.sent.inContact, [], a₃⟩) else []) := ⟨_, rfl⟩
  rw [← ex, ← ey, ← ez, ← eu]
  have hx : x.foldl heldStep f = f ∧ ∀ e ∈ x, ∀ d, e ≠ .prox false d := by
    subst ex; split
    · exact ⟨rfl, by simp⟩
    · exact ⟨rfl, by simp⟩
  have hy : y.foldl heldStep f = f ∧ ∀ e ∈ y, ∀ d, e ≠ .prox false d := by
    subst ey
    repeat' split
    all_goals exact ⟨rfl, by simp⟩
  have hz : (∀ c, z.foldl heldStep f c = true → s.buttons c = true) ∧ ∀ e ∈ z, ∀ d, e ≠ .prox false d := by
    constructor
    · intro c h
      subst ez
      split at h
      · rw [held_map] at h
        split at h
        · cases h
        · rename_i hm
          obtain ⟨h1, h2⟩ := hb c h
          cases hbc : s.buttons c
          · exact absurd (List.mem_filter.2 ⟨List.mem_range.2 (small c (.inr h1)), by simp [h1, hbc]⟩) hm
          · rfl
      · rename_i hr
        obtain ⟨h1, h2⟩ := hb c h
        exact h2.resolve_right hr
    · subst ez
      split
      · intro e he d
        simp only [List.mem_map] at he
        obtain ⟨c, _, rfl⟩ := he
        simp
      · simp
  have hu : (∀ c, u.foldl heldStep (z.foldl heldStep f) c = true → s.buttons c = true) ∧ ∀ e ∈ u, ∀ d, e ≠ .prox false d := by
    constructor
    · intro c h
      subst eu
      split at h
      · rw [held_map] at h
        split at h
        · rename_i hm
          have := (List.mem_filter.1 hm).2
          simp only [Bool.and_eq_true] at this
          exact this.1
        · exact hz.1 c h
      · exact hz.1 c h
    · subst eu
      split
      · intro e he d
        simp only [List.mem_map] at he
        obtain ⟨c, _, rfl⟩ := he
        simp
      · simp
  have hall : ∀ e ∈ x ++ y ++ z ++ u, ∀ d, e ≠ .prox false d := by
    intro e he
    simp only [List.mem_append] at he
    rcases he with ((he | he) | he) | he
    · exact hx.2 e he
    · exact hy.2 e he
    · exact hz.2 e he
    · exact hu.2 e he
  have hf : ∀ c, (x ++ y ++ z ++ u).foldl heldStep f c = true → s.buttons c = true := by
    intro c
    simp only [List.foldl_append, hx.1, hy.1]
    exact hu.1 c
  constructor
  · rw [cleanB_append]
    refine ⟨cleanB_noOut _ hall f, ?_⟩
    split
    · rename_i hl
      refine ⟨fun d _ c => ?_, trivial⟩
      cases h : (x ++ y ++ z ++ u).foldl heldStep f c
      · rfl
      · have := hf c h
        rw [gone hl c] at this; cases this
    · trivial
  · intro c h
    rw [List.foldl_append] at h
    split at h
    · exact hf c h
    · exact hf c h

/-- The tip after the events of a round. -/
theorem send_tip (cfg : Cfg) (s : Pen) (t : Tool)
    (gone : s.st.leaving = true → s.st.sent.inContact = false) :
    CleanT s.st.inContact (events (s.send cfg t).2) ∧
      (events (s.send cfg t).2).foldl tipStep s.st.inContact = s.st.sent.inContact := by
  obtain ⟨c₁, a₁, c₂, a₂, c₃, a₃, a₄, e⟩ := send_events cfg s t
  rw [e]
  clear e
  obtain ⟨x, ex⟩ : ∃ x, x = (if s.st.entering then [Ev.prox true ⟨t.key, false, c₁, a₁⟩] else []) := ⟨_, rfl⟩
  obtain ⟨y, ey⟩ : ∃ y, y = (if s.st.enterContact then [Ev.tip true ⟨t.key, true, c₂, a₁⟩]
       else if s.st.leaveContact then [.tip false ⟨t.key, false, c₂, a₁⟩]
       else if s.st.axesUpdated && !s.st.leaving && !s.st.entering then [.axis ⟨t.key, s.st.inContact, c₃, a₁⟩] else []) := ⟨_, rfl⟩
  obtain ⟨z, ez⟩ : ∃ z, z = (if s.st.released then (codes.filter (fun c => s.prevButtons c && !s.buttons c)).map
        (fun c => Ev.button c false ⟨t.key, s.st.sent.inContact, [], a₂⟩) else []) := ⟨_, rfl⟩
  obtain ⟨u, eu⟩ : ∃ u, u = (if s.st.pressed then (codes.filter (fun c => s.buttons c && !s.prevButtons c)).map
        (fun c => Ev.button c true ⟨t.key, s.st.sent.inContact, [], a₃⟩) else []) := ⟨_, rfl⟩
  rw [← ex, ← ey, ← ez, ← eu]
  have hx : (∀ b, x.foldl tipStep b = b) ∧ ∀ e ∈ x, ∀ d, e ≠ .prox false d := by
    subst ex; split
    · exact ⟨fun _ => rfl, by simp⟩
    · exact ⟨fun _ => rfl, by simp⟩
  have hy : y.foldl tipStep s.st.inContact = s.st.sent.inContact ∧ ∀ e ∈ y, ∀ d, e ≠ .prox false d := by
    subst ey
    simp only [Bits.sent]
    cases s.st.enterContact with
    | true => exact ⟨rfl, by simp⟩
    | false =>
      cases s.st.leaveContact with
      | true => exact ⟨by simp [tipStep], by simp⟩
      | false =>
        simp only [Bool.false_eq_true, if_false, Bool.false_or, Bool.not_false, Bool.and_true]
        split
        · exact ⟨rfl, by simp⟩
        · exact ⟨rfl, by simp⟩
  have hz : (∀ b, z.foldl tipStep b = b) ∧ ∀ e ∈ z, ∀ d, e ≠ .prox false d := by
    subst ez
    split
    · refine ⟨tip_map _ _ _, ?_⟩
      intro e he d
      simp only [List.mem_map] at he
      obtain ⟨c, _, rfl⟩ := he
      simp
    · exact ⟨fun _ => rfl, by simp⟩
  have hu : (∀ b, u.foldl tipStep b = b) ∧ ∀ e ∈ u, ∀ d, e ≠ .prox false d := by
    subst eu
    split
    · refine ⟨tip_map _ _ _, ?_⟩
      intro e he d
      simp only [List.mem_map] at he
      obtain ⟨c, _, rfl⟩ := he
      simp
    · exact ⟨fun _ => rfl, by simp⟩
  have hall : ∀ e ∈ x ++ y ++ z ++ u, ∀ d, e ≠ .prox false d := by
    intro e he
    simp only [List.mem_append] at he
    rcases he with ((he | he) | he) | he
    · exact hx.2 e he
    · exact hy.2 e he
    · exact hz.2 e he
    · exact hu.2 e he
  have hf : (x ++ y ++ z ++ u).foldl tipStep s.st.inContact = s.st.sent.inContact := by
    simp only [List.foldl_append, hx.1, hy.1, hz.1, hu.1]
  constructor
  · rw [cleanT_append, hf]
    refine ⟨cleanT_noOut _ hall _, ?_⟩
    split
    · rename_i hl
      exact ⟨fun _ _ => gone hl, trivial⟩
    · trivial
  · rw [List.foldl_append, hf]
    split <;> rfl

/-! ### One round of a pen -/

theorem penBits_xor {a b : Nat} (ha : penBits a) (hb : penBits b) : penBits (a ^^^ b) := by
  unfold penBits at *
  rw [Nat.and_xor_distrib_right, ha, hb]

theorem penBits_test {n : Nat} (k : Kind) (h : penBits n) (ht : n.testBit k.num = true) : k.isCursor = false := by
  have key : ∀ m < 64, m.testBit 6 = false ∧ m.testBit 7 = false := by decide
  have := key n (penBits_lt h)
  cases k <;> first | rfl | (simp only [Kind.num] at ht; rw [ht] at this; simp at this)

theorem toolChange_pens (s : Pen) (j : Bool) (now : Nat) (hn : penBits s.t.now) (hp : penBits s.t.prev)
    (hk : ∀ k, s.t.kind = some k → k.isCursor = false) :
    penBits (s.toolChange j now).1.t.now ∧ penBits (s.toolChange j now).1.t.prev ∧
      ∀ k, (s.toolChange j now).1.t.kind = some k → k.isCursor = false := by
  obtain ⟨n, q, e, h1⟩ := emulate_state s
  have hb : penBits n := by
    rcases h1 with rfl | ⟨_, rfl, _⟩
    · exact hn
    · exact bit_penBits _ rfl
  have h0 : penBits 0 := rfl
  unfold Pen.toolChange
  rw [e]
  dsimp only
  by_cases h : n = s.t.prev
  · rw [if_pos h]; exact ⟨hb, hp, hk⟩
  · rw [if_neg h]
    by_cases h2 : n &&& (n - 1) = 0
    · simp only [h2, ne_eq, not_true_eq_false, decide_false, Bool.false_eq_true, if_false]
      cases hl : lowest (n ^^^ s.t.prev) with
      | none =>
        dsimp only
        generalize hy : Pen.updateTool _ none false = y
        obtain ⟨q', e'⟩ := penTimer_state y j now none false
        rw [e', ← hy, updateTool_off]
        exact ⟨hb, hb, hk⟩
      | some k =>
        dsimp only
        cases ho : n.testBit k.num with
        | false =>
          generalize hy : Pen.updateTool _ (some k) false = y
          obtain ⟨q', e'⟩ := penTimer_state y j now (some k) false
          rw [e', ← hy, updateTool_off]
          exact ⟨hb, hb, hk⟩
        | true =>
          generalize hy : Pen.updateTool _ (some k) true = y
          obtain ⟨q', e'⟩ := penTimer_state y j now (some k) true
          rw [e', ← hy]
          refine ⟨hb, hb, fun k' hk' => ?_⟩
          cases hk'
          exact penBits_test k hb ho
    · simp only [h2, ne_eq, not_false_eq_true, decide_true, if_true]
      cases lowest (0 ^^^ s.t.prev) with
      | none =>
        dsimp only
        generalize hy : Pen.updateTool _ none false = y
        obtain ⟨q', e'⟩ := penTimer_state y j now none false
        rw [e', ← hy, updateTool_off]
        exact ⟨penBits_xor hb hp, h0, hk⟩
      | some k =>
        dsimp only
        rw [Nat.zero_testBit]
        generalize hy : Pen.updateTool _ (some k) false = y
        obtain ⟨q', e'⟩ := penTimer_state y j now (some k) false
        rw [e', ← hy, updateTool_off]
        exact ⟨penBits_xor hb hp, h0, hk⟩

/-- What is always true of a pen tablet; `f` are the buttons the client believes to be down, `b` is the tip. -/
structure Pens (cfg : Cfg) (s : Pen) (f : Nat → Bool) (b : Bool) : Prop where
  hung : s.hung = false
  range : s.st.outOfRange = false
  now : penBits s.t.now
  prev : penBits s.t.prev
  pens : ∀ k, s.t.kind = some k → k.isCursor = false
  someTool : s.t.kind = none → s.st.outOfProx = true
  small : ∀ c, s.buttons c = true ∨ s.prevButtons c = true → c < 768
  leaving : s.st.leaving = true → s.st.outOfProx = false
  dead : s.st.outOfProx = true → ∀ c, f c = false
  tip : cfg.has .pressure = true → b = s.st.inContact ∧ s.st.enterContact = false ∧ s.st.leaveContact = false

/-- … before the rounds of a frame. -/
def Ahead (s : Pen) (f : Nat → Bool) : Prop :=
  ∀ c, f c = true → s.prevButtons c = true ∧ (s.buttons c = true ∨ s.st.released = true)

theorem prepare_leave (cfg : Cfg) (s : Pen) (t : Tool) (hl : s.st.leaving = true) :
    (s.prepare cfg t).1 = { s with buttons := fun _ => false, st.released := true, st.leaveContact := s.st.leaveContact || s.st.inContact } := by
  unfold Pen.prepare; rw [if_pos hl]

theorem prepare_stay (cfg : Cfg) (s : Pen) (t : Tool) (hl : s.st.leaving = false) :
    ∃ v l e lv, (s.prepare cfg t).1 =
        { s with v := v, t := { s.t with tools := l }, st := { s.st with enterContact := e, leaveContact := lv } } ∧
      ((e = s.st.enterContact ∧ lv = s.st.leaveContact) ∨ (e = s.st.enterContact ∧ s.st.inContact = true) ∨
        (lv = s.st.leaveContact ∧ s.st.inContact = false)) := by
  unfold Pen.prepare
  rw [if_neg (by simp [hl])]
  split
  · dsimp only
    have hd : ∀ x : Pen, x = (if s.st.entering = true then { s with v.changed := t.caps } else s) →
        ∃ v, x = { s with v := v } := by
      intro x hx; subst hx; split <;> exact ⟨_, rfl⟩
    generalize hx : (if s.st.entering = true then { s with v.changed := t.caps } else s) = x
    obtain ⟨v, rfl⟩ := hd x hx.symm
    dsimp only
    generalize ht : v.detectOffset cfg s.st.entering t = t'
    obtain ⟨e, l, e1, e2, e3⟩ := detectContact_state cfg { s with v := v, t := s.t.putTool t' } t'
    rw [e1]
    exact ⟨_, _, _, _, rfl, e3⟩
  · exact ⟨s.v, s.t.tools, s.st.enterContact, s.st.leaveContact, rfl, .inl ⟨rfl, rfl⟩⟩

/-- What a round makes of it. -/
structure Round (cfg : Cfg) (s : Pen) (f : Nat → Bool) (b : Bool) (r : Pen × List Out × Bool) : Prop where
  cleanB : CleanB f (events r.2.1)
  cleanT : cfg.has .pressure = true → CleanT b (events r.2.1)
  pens : Pens cfg r.1 ((events r.2.1).foldl heldStep f) ((events r.2.1).foldl tipStep b)
  held : ∀ c, (events r.2.1).foldl heldStep f c = true → r.1.buttons c = true
  stays : r.1.st.leaving = false
  gone : s.st.leaving = true → r.1.st.outOfProx = true
  again : r.2.2 = true → s.st.outOfProx = false ∧ r.1.st.outOfProx = true
  none : s.st.leaving = true ∨ (∀ c, s.buttons c = false) → ∀ c, r.1.buttons c = false

theorem send_clean (cfg : Cfg) (s p : Pen) (t : Tool) (again : Bool) (f : Nat → Bool) (b : Bool)
    (h1 : p.hung = false) (h2 : p.st.outOfRange = false) (h3 : penBits p.t.now) (h4 : penBits p.t.prev)
    (h5 : ∀ k, p.t.kind = some k → k.isCursor = false) (h6 : p.t.kind ≠ none)
    (h7 : ∀ c, p.buttons c = true ∨ p.prevButtons c = true → c < 768) (h8 : Ahead p f)
    (h9 : p.st.leaving = true → ∀ c, p.buttons c = false) (hb : cfg.has .pressure = true → b = p.st.inContact)
    (hc : cfg.has .pressure = true → (p.st.enterContact = true → p.st.leaveContact = false ∧ p.st.leaving = false) ∧
      (p.st.leaving = true → p.st.inContact = true → p.st.leaveContact = true))
    (ho : p.st.outOfProx = false) (hl : s.st.leaving = true → p.st.leaving = true)
    (ha : again = true → s.st.outOfProx = false ∧ p.st.leaving = true)
    (hn : (∀ c, s.buttons c = false) → ∀ c, p.buttons c = false) :
    Round cfg s f b ((p.send cfg t).1, (p.send cfg t).2, again) := by
  obtain ⟨v, h, e⟩ := send_state cfg p t
  obtain ⟨c1, c2⟩ := send_held cfg p t f h7 h8 h9
  have hg : cfg.has .pressure = true → p.st.leaving = true → p.st.sent.inContact = false := by
    intro hp hl
    have := hc hp
    simp only [Bits.sent]
    grind
  have ct : cfg.has .pressure = true → CleanT b (events (p.send cfg t).2) ∧
      (events (p.send cfg t).2).foldl tipStep b = p.st.sent.inContact := by
    intro hp
    rw [hb hp]
    exact send_tip cfg p t (hg hp)
  constructor
  · exact c1
  · exact fun hp => (ct hp).1
  · dsimp only
    constructor
    · rw [e]; exact h1
    · rw [e]; exact h2
    · rw [e]; exact h3
    · rw [e]; exact h4
    · rw [e]; exact h5
    · rw [e]; exact fun h => absurd h h6
    · rw [e]; exact h7
    · rw [e]; exact fun h => absurd h (by simp [Bits.sent])
    · rw [e]
      intro hd c
      have hl' : p.st.leaving = true := by simpa [Bits.sent, ho] using hd
      cases hh : (events (p.send cfg t).2).foldl heldStep f c
      · rfl
      · have := c2 c hh
        rw [h9 hl' c] at this; cases this
    · intro hp
      refine ⟨?_, ?_, ?_⟩
      · rw [(ct hp).2, e]
      · rw [e]; rfl
      · rw [e]
        have := (hc hp).1
        simp only [Bits.sent]
        cases hx : p.st.enterContact
        · rfl
        · rw [(this hx).1]; rfl
  · dsimp only; rw [e]; exact c2
  · dsimp only; rw [e]; rfl
  · intro h
    dsimp only; rw [e]
    simp [Bits.sent, hl h]
  · intro h
    dsimp only at h ⊢
    rw [e]
    obtain ⟨a1, a2⟩ := ha h
    exact ⟨a1, by simp [Bits.sent, a2]⟩
  · intro h
    dsimp only; rw [e]
    rcases h with h | h
    · exact h9 (hl h)
    · exact hn h

theorem pass_clean (cfg : Cfg) (s : Pen) (j : Bool) (now : Nat) (f : Nat → Bool) (b : Bool) (P : Pens cfg s f b) (A : Ahead s f) :
    Round cfg s f b (s.pass cfg j now) := by
  obtain ⟨pb1, pb2, pb3⟩ := toolChange_pens s j now P.now P.prev P.pens
  obtain ⟨n, p, kd, q, st', ec, hst, ha⟩ := toolChange_any s j now
  unfold Pen.pass
  dsimp only
  generalize hag : (s.toolChange j now).2 = ag at hst
  rw [ec] at pb1 pb2 pb3 ⊢
  dsimp only at pb1 pb2 pb3 ⊢
  have early : ∀ t : ToolSt, t.now = n → t.prev = p → t.kind = kd → st'.outOfProx = true →
      Round cfg s f b ({ s with t := t, q := q, st := st' }, [], false) := by
    intro t e1 e2 e3 ho
    have hs : st' = s.st ∧ kd = s.t.kind := by
      rcases hst with ⟨rfl, _, h⟩ | ⟨rfl, h⟩ | ⟨rfl, _⟩
      · exact ⟨rfl, h⟩
      · dsimp only at ho
        refine ⟨?_, h⟩
        rw [ho]
        simp
      · cases ho
    obtain ⟨rfl, rfl⟩ := hs
    have hf := P.dead ho
    have hle : s.st.leaving = false := by
      cases h : s.st.leaving
      · rfl
      · have := P.leaving h; rw [ho] at this; cases this
    constructor
    · exact trivial
    · exact fun _ => trivial
    · exact ⟨P.hung, P.range, by rw [e1]; exact pb1, by rw [e2]; exact pb2, by rw [e3]; exact P.pens, fun _ => ho, P.small, P.leaving, P.dead, P.tip⟩
    · intro c hc
      have := hf c
      dsimp only [events, List.filterMap_nil, List.foldl_nil] at hc
      rw [this] at hc; cases hc
    · exact hle
    · intro h; rw [hle] at h; cases h
    · intro h; cases h
    · rintro (h | h)
      · rw [hle] at h; cases h
      · exact h
  cases kd with
  | none =>
    dsimp only
    refine early _ rfl rfl rfl ?_
    rcases hst with ⟨rfl, _, h⟩ | ⟨rfl, h⟩ | ⟨rfl, _, k, h, _⟩
    · exact P.someTool h.symm
    · exact P.someTool h.symm
    · cases h
  | some k =>
    dsimp only
    obtain ⟨_, ⟨l, eg⟩, _⟩ := getTool_key cfg { s.t with now := n, prev := p, kind := some k } k
    rw [eg]
    generalize ToolSt.getTool cfg _ k = g
    rw [pb3 k rfl]
    simp only [Bool.false_eq_true, if_false]
    have hr : st'.outOfRange = false := by
      rcases hst with ⟨rfl, _⟩ | ⟨rfl, _⟩ | ⟨rfl, _⟩ <;> exact P.range
    rw [hr, Bool.or_false]
    by_cases ho : st'.outOfProx = true
    · rw [if_pos ho]
      exact early _ rfl rfl rfl ho
    · rw [if_neg ho]
      have ho' : st'.outOfProx = false := by simpa using ho
      have hl : s.st.leaving = true → st'.leaving = true := by
        intro h
        rcases hst with ⟨rfl, _⟩ | ⟨rfl, _⟩ | ⟨rfl, _⟩
        · exact h
        · simp [h]
        · exact h
      have hag' : ag = true → s.st.outOfProx = false ∧ st'.leaving = true := by
        intro h
        rcases hst with ⟨rfl, h', _⟩ | ⟨rfl, _⟩ | ⟨rfl, h', _⟩
        · rw [h] at h'; cases h'
        · exact ⟨ho', by rw [show s.st.outOfProx = false from ho']; simp⟩
        · rw [h] at h'; cases h'
      have hrel : st'.released = s.st.released := by
        rcases hst with ⟨rfl, _⟩ | ⟨rfl, _⟩ | ⟨rfl, _⟩ <;> rfl
      have htip : st'.inContact = s.st.inContact ∧ st'.enterContact = s.st.enterContact ∧ st'.leaveContact = s.st.leaveContact := by
        rcases hst with ⟨rfl, _⟩ | ⟨rfl, _⟩ | ⟨rfl, _⟩ <;> exact ⟨rfl, rfl, rfl⟩
      by_cases hlv : st'.leaving = true
      · have ep := prepare_leave cfg { s with t := { s.t with now := n, prev := p, kind := some k, tools := l }, q := q, st := st' } g.2 hlv
        generalize ({ s with t := { s.t with now := n, prev := p, kind := some k, tools := l }, q := q, st := st' } : Pen).prepare cfg g.2 = r at ep ⊢
        obtain ⟨r1, r2⟩ := r
        dsimp only at ep
        subst ep
        refine send_clean cfg s _ r2 ag f b P.hung hr pb1 pb2 pb3 (by simp) ?_ ?_ (fun _ _ => rfl) ?_ ?_ ho' ?_ hag' (fun _ _ => rfl)
        · intro c h
          exact P.small c (by rcases h with h | h; cases h; exact .inr h)
        · intro c h
          exact ⟨(A c h).1, .inr rfl⟩
        · intro hp; dsimp only; rw [(P.tip hp).1, htip.1]
        · intro hp
          dsimp only
          rw [htip.1, htip.2.1, htip.2.2, (P.tip hp).2.1, (P.tip hp).2.2]
          simp
        · exact fun _ => hlv
      · have hlv' : st'.leaving = false := by simpa using hlv
        obtain ⟨v, l', ec', lc', ep, hcase⟩ := prepare_stay cfg { s with t := { s.t with now := n, prev := p, kind := some k, tools := l }, q := q, st := st' } g.2 hlv'
        generalize ({ s with t := { s.t with now := n, prev := p, kind := some k, tools := l }, q := q, st := st' } : Pen).prepare cfg g.2 = r at ep ⊢
        obtain ⟨r1, r2⟩ := r
        dsimp only at ep hcase
        subst ep
        refine send_clean cfg s _ r2 ag f b P.hung hr pb1 pb2 pb3 (by simp) P.small ?_ ?_ ?_ ?_ ho' hl hag' (fun h => h)
        · intro c h
          have := A c h
          dsimp only
          rw [hrel]; exact this
        · intro h; exact absurd h hlv
        · intro hp; dsimp only; rw [(P.tip hp).1, htip.1]
        · intro hp
          dsimp only
          rw [htip.1, htip.2.1, htip.2.2, (P.tip hp).2.1, (P.tip hp).2.2] at hcase
          refine ⟨fun h => ?_, fun h => absurd h hlv⟩
          rcases hcase with ⟨h1, h2⟩ | ⟨h1, h2⟩ | ⟨h1, h2⟩
          · exact ⟨h2, hlv'⟩
          · rw [h1] at h; cases h
          · exact ⟨h1, hlv'⟩

/-! ### Frames and histories -/

/-- What holds between two frames. -/
structure Rest (cfg : Cfg) (s : Pen) (f : Nat → Bool) (b : Bool) : Prop where
  pens : Pens cfg s f b
  held : ∀ c, f c = true → s.prevButtons c = true ∧ s.buttons c = true

theorem Rest.ahead {cfg : Cfg} {s : Pen} {f : Nat → Bool} {b : Bool} (h : Rest cfg s f b) : Ahead s f :=
  fun c hc => ⟨(h.held c hc).1, .inl (h.held c hc).2⟩

theorem flush_clean (cfg : Cfg) (s : Pen) (j : Bool) (now n : Nat) (f : Nat → Bool) (b : Bool) (P : Pens cfg s f b) (A : Ahead s f) :
    Round cfg s f b ((s.flush cfg j now (n + 2)).1, (s.flush cfg j now (n + 2)).2, false) ∨
    s.st.leaving = true ∧ CleanB f (events (s.flush cfg j now (n + 2)).2) ∧
      (cfg.has .pressure = true → CleanT b (events (s.flush cfg j now (n + 2)).2)) ∧
      Pens cfg (s.flush cfg j now (n + 2)).1 ((events (s.flush cfg j now (n + 2)).2).foldl heldStep f)
        ((events (s.flush cfg j now (n + 2)).2).foldl tipStep b) ∧
      (∀ c, (events (s.flush cfg j now (n + 2)).2).foldl heldStep f c = false) := by
  have R := pass_clean cfg s j now f b P A
  unfold Pen.flush
  dsimp only
  generalize s.pass cfg j now = r at R ⊢
  obtain ⟨r1, r2, ag⟩ := r
  cases ag with
  | false => left; exact R
  | true =>
    dsimp only
    rw [if_pos rfl]
    obtain ⟨a1, a2⟩ := R.again rfl
    have hf := R.pens.dead a2
    have A1 : Ahead r1 ((events r2).foldl heldStep f) := by
      intro c hc
      have := hf c
      dsimp only at this
      rw [this] at hc; cases hc
    have R2 := pass_clean cfg r1 j now _ _ R.pens A1
    unfold Pen.flush
    dsimp only
    generalize r1.pass cfg j now = q at R2 ⊢
    obtain ⟨q1, q2, ag2⟩ := q
    have : ag2 = false := by
      cases ag2
      · rfl
      · have := (R2.again rfl).1
        dsimp only at a2
        rw [a2] at this; cases this
    subst this
    dsimp only
    simp only [Bool.false_eq_true, if_false]
    have hB : CleanB f (events (r2 ++ q2)) := by rw [events_append, cleanB_append]; exact ⟨R.cleanB, R2.cleanB⟩
    have hT : cfg.has .pressure = true → CleanT b (events (r2 ++ q2)) := by
      intro hp; rw [events_append, cleanT_append]; exact ⟨R.cleanT hp, R2.cleanT hp⟩
    have hP : Pens cfg q1 ((events (r2 ++ q2)).foldl heldStep f) ((events (r2 ++ q2)).foldl tipStep b) := by
      rw [events_append, List.foldl_append, List.foldl_append]; exact R2.pens
    have hH : ∀ c, (events (r2 ++ q2)).foldl heldStep f c = true → q1.buttons c = true := by
      rw [events_append, List.foldl_append]; exact R2.held
    by_cases hl : s.st.leaving = true
    · right
      refine ⟨hl, hB, hT, hP, fun c => ?_⟩
      cases h : (events (r2 ++ q2)).foldl heldStep f c
      · rfl
      · have h1 := hH c h
        have h2 := R2.none (.inr (R.none (.inl hl))) c
        dsimp only at h2
        rw [h2] at h1; cases h1
    · left
      exact ⟨hB, hT, hP, hH, R2.stays, fun h => absurd h hl, fun h => (by cases h), fun h => by
        rcases h with h | h
        · exact absurd h hl
        · exact R2.none (.inr (R.none (.inr h)))⟩

theorem syn_clean (cfg : Cfg) (s : Pen) (j : Bool) (now : Nat) (f : Nat → Bool) (b : Bool) (P : Pens cfg s f b) (A : Ahead s f) :
    CleanB f (events (s.syn cfg j now).2) ∧ (cfg.has .pressure = true → CleanT b (events (s.syn cfg j now).2)) ∧
      Rest cfg (s.syn cfg j now).1 ((events (s.syn cfg j now).2).foldl heldStep f) ((events (s.syn cfg j now).2).foldl tipStep b) := by
  have key : CleanB f (events (s.flush cfg j now 4).2) ∧ (cfg.has .pressure = true → CleanT b (events (s.flush cfg j now 4).2)) ∧
      Pens cfg (s.flush cfg j now 4).1 ((events (s.flush cfg j now 4).2).foldl heldStep f) ((events (s.flush cfg j now 4).2).foldl tipStep b) ∧
      ∀ c, (events (s.flush cfg j now 4).2).foldl heldStep f c = true → (s.flush cfg j now 4).1.buttons c = true := by
    rcases flush_clean cfg s j now 2 f b P A with R | ⟨_, h1, h2, h3, h4⟩
    · exact ⟨R.cleanB, R.cleanT, R.pens, R.held⟩
    · exact ⟨h1, h2, h3, fun c h => by rw [h4 c] at h; cases h⟩
  unfold Pen.syn
  dsimp only
  generalize s.flush cfg j now 4 = r at key ⊢
  obtain ⟨r1, r2⟩ := r
  dsimp only at key ⊢
  obtain ⟨k1, k2, k3, k4⟩ := key
  obtain ⟨⟨a, ea⟩, ev⟩ := toggle_state r1
  rw [events_append, ev, List.append_nil, ea]
  obtain ⟨bd, er⟩ := reset_state { r1 with arb := a }
  rw [er]
  refine ⟨k1, k2, ⟨⟨k3.hung, k3.range, k3.now, k3.prev, k3.pens, k3.someTool, ?_, k3.leaving, k3.dead, k3.tip⟩, fun c h => ⟨k4 c h, k4 c h⟩⟩⟩
  intro c h
  exact k3.small c (.inl (by rcases h with h | h <;> exact h))

theorem fold_pens (cfg : Cfg) (evs : List KEv) (hc : ∀ e ∈ evs, isCursorKey e = false) :
    ∀ s, penBits s.t.now → penBits (evs.foldl (kev cfg) s).t.now := by
  induction evs with
  | nil => intro s h; exact h
  | cons e evs ih =>
    intro s h
    refine ih (fun x hx => hc x (by simp [hx])) _ ?_
    have := fold_tool cfg [e] (by
      have := List.length_filter_le isToolKey [e]
      simpa using this) (fun x hx => hc x (by simp at hx; simp [hx])) s
    simp only [List.foldl_cons, List.foldl_nil] at this
    rcases this with h' | ⟨_, _, k, b, hk, h'⟩
    · rw [h']; exact h
    · rw [h']; exact penBits_toggle _ _ _ h hk

theorem fold_clean (cfg : Cfg) (evs : List KEv) (s : Pen) (f : Nat → Bool) (b : Bool) (hc : ∀ e ∈ evs, isCursorKey e = false)
    (R : Rest cfg s f b) : Pens cfg (evs.foldl (kev cfg) s) f b ∧ Ahead (evs.foldl (kev cfg) s) f := by
  have SM := fold_same cfg evs s
  have BT := fold_btn cfg evs s
  have FT := fold_touch cfg evs s
  have FP := fold_pens cfg evs hc s R.pens.now
  generalize evs.foldl (kev cfg) s = s' at *
  have P := R.pens
  constructor
  · refine ⟨SM.hung.trans P.hung, SM.range.trans P.range, FP, SM.prev.symm ▸ P.prev, SM.kind.symm ▸ P.pens, ?_, ?_, ?_, ?_, ?_⟩
    · rw [SM.kind, SM.prox]; exact P.someTool
    · intro c h
      rw [SM.prevButtons] at h
      rcases h with h | h
      · rcases BT.small c h with h | h
        · exact P.small c (.inl h)
        · exact h
      · exact P.small c (.inr h)
    · rw [SM.leaving, SM.prox]; exact P.leaving
    · rw [SM.prox]; exact P.dead
    · intro hp
      obtain ⟨h1, h2, h3⟩ := P.tip hp
      refine ⟨h1.trans SM.tip.symm, ?_, ?_⟩
      · cases h : s'.st.enterContact
        · rfl
        · rcases FT.1 h with h | ⟨h, _⟩
          · rw [h2] at h; cases h
          · rw [hp] at h; cases h
      · cases h : s'.st.leaveContact
        · rfl
        · rcases FT.2 h with h | ⟨h, _⟩
          · rw [h3] at h; cases h
          · rw [hp] at h; cases h
  · intro c h
    obtain ⟨h1, h2⟩ := R.held c h
    rw [SM.prevButtons]
    refine ⟨h1, ?_⟩
    rcases BT.each c with h | ⟨h, _⟩ | ⟨_, h⟩
    · left; rw [h]; exact h2
    · exact .inl h
    · exact .inr h

theorem Rest.congr {cfg : Cfg} {s s' : Pen} {f : Nat → Bool} {b : Bool} (h : Rest cfg s f b) (h1 : s'.hung = s.hung) (h2 : s'.st = s.st)
    (h3 : s'.buttons = s.buttons) (h4 : s'.prevButtons = s.prevButtons) (h5 : s'.t.now = s.t.now) (h6 : s'.t.prev = s.t.prev)
    (h7 : s'.t.kind = s.t.kind) : Rest cfg s' f b := by
  obtain ⟨⟨a1, a2, a3, a4, a5, a6, a7, a8, a9, a10⟩, a11⟩ := h
  exact ⟨⟨by rwa [h1], by rwa [h2], by rwa [h5], by rwa [h6], by rwa [h7], by rwa [h7, h2], by rwa [h3, h4], by rwa [h2], by rwa [h2], by rwa [h2]⟩, by rwa [h3, h4]⟩

/-- What one operation makes of a pen tablet. -/
theorem step_clean (cfg : Cfg) (s : Pen) (op : Op) (f : Nat → Bool) (b : Bool) (R : Rest cfg s f b)
    (hc : ∀ evs n, op = .frame evs n → ∀ e ∈ evs, isCursorKey e = false) :
    CleanB f (events (step cfg s op).2) ∧ (cfg.has .pressure = true → CleanT b (events (step cfg s op).2)) ∧
      Rest cfg (step cfg s op).1 ((events (step cfg s op).2).foldl heldStep f) ((events (step cfg s op).2).foldl tipStep b) := by
  have stay : CleanB f (events []) ∧ (cfg.has .pressure = true → CleanT b (events [])) ∧ Rest cfg s f b := ⟨trivial, fun _ => trivial, R⟩
  by_cases h1 : ∀ e n, op ≠ .frame e n
  · by_cases h2 : ∀ n, op ≠ .timeout n
    · by_cases h3 : ∀ n, op ≠ .suspend n
      · obtain ⟨e, v, l, hh, o, es, _⟩ := step_quiet cfg s op h1 h2 h3
        rw [e, es]
        exact ⟨trivial, fun _ => trivial, R.congr rfl rfl rfl rfl rfl rfl rfl⟩
      · simp only [ne_eq, Classical.not_forall, Classical.not_not] at h3
        obtain ⟨n, rfl⟩ := h3
        unfold step
        split
        · exact stay
        · dsimp only
          split
          · unfold Pen.suspend
            dsimp only
            obtain ⟨⟨a, ea⟩, ev⟩ := setArb_state s .notActive
            rw [ea]
            split
            · rw [ev]; exact ⟨trivial, fun _ => trivial, R.congr rfl rfl rfl rfl rfl rfl rfl⟩
            · rename_i ho
              rw [events_append, ev, List.nil_append]
              have ho' : s.st.outOfProx = false := by simpa using ho
              have P : Pens cfg { s with arb := a, st.leaving := true } f b := by
                obtain ⟨⟨a1, a2, a3, a4, a5, a6, a7, a8, a9, a10⟩, a11⟩ := R
                exact ⟨a1, a2, a3, a4, a5, a6, a7, fun _ => ho', a9, a10⟩
              have A : Ahead { s with arb := a, st.leaving := true } f := R.ahead
              have key := flush_clean cfg { s with arb := a, st.leaving := true } false n 2 f b P A
              dsimp only at key ⊢
              rcases key with Q | ⟨_, q1, q2, q3, q4⟩
              · refine ⟨Q.cleanB, Q.cleanT, ?_⟩
                obtain ⟨a1, a2, a3, a4, a5, a6, a7, a8, a9, a10⟩ := Q.pens
                refine ⟨⟨a1, a2, a3, a4, a5, a6, a7, a8, a9, a10⟩, fun c h => ?_⟩
                rw [a9 (Q.gone rfl) c] at h; cases h
              · refine ⟨q1, q2, ?_⟩
                obtain ⟨a1, a2, a3, a4, a5, a6, a7, a8, a9, a10⟩ := q3
                refine ⟨⟨a1, a2, a3, a4, a5, a6, a7, a8, a9, a10⟩, fun c h => ?_⟩
                rw [q4 c] at h; cases h
          · exact stay
    · simp only [ne_eq, Classical.not_forall, Classical.not_not] at h2
      obtain ⟨n, rfl⟩ := h2
      unfold step
      split
      · exact stay
      · dsimp only
        split
        · split
          · unfold Pen.timeout
            dsimp only
            split
            · obtain ⟨q, e⟩ := setTimer_state { s with q.timer := none } n
              rw [e]
              exact ⟨trivial, fun _ => trivial, R.congr rfl rfl rfl rfl rfl rfl rfl⟩
            · split
              · obtain ⟨q, e⟩ := setTimer_state { s with q.timer := none } s.q.lastTime
                rw [e]
                exact ⟨trivial, fun _ => trivial, R.congr rfl rfl rfl rfl rfl rfl rfl⟩
              · have R' : Rest cfg { s with q.timer := none } f b := R.congr rfl rfl rfl rfl rfl rfl rfl
                obtain ⟨P, A⟩ := fold_clean cfg [KEv.key 320 0] _ f b (by simp [isCursorKey]) R'
                simp only [List.foldl_cons, List.foldl_nil, kev] at P A
                obtain ⟨q1, q2, q3⟩ := syn_clean cfg _ true n f b P A
                generalize Pen.syn cfg (keyEvent cfg { s with q.timer := none } 320 0) true n = r at q1 q2 q3 ⊢
                exact ⟨q1, q2, q3.congr rfl rfl rfl rfl rfl rfl rfl⟩
          · exact stay
        · exact stay
  · simp only [ne_eq, Classical.not_forall, Classical.not_not] at h1
    obtain ⟨evs, n, rfl⟩ := h1
    unfold step
    split
    · exact stay
    · dsimp only
      split
      · obtain ⟨P, A⟩ := fold_clean cfg evs s f b (hc evs n rfl) R
        exact syn_clean cfg _ false n f b P A
      · exact stay

theorem run_clean (cfg : Cfg) (ops : List Op) (hc : ∀ op ∈ ops, ∀ evs n, op = .frame evs n → ∀ e ∈ evs, isCursorKey e = false) :
    ∀ s f b, Rest cfg s f b → CleanB f (events (run cfg s ops).2) ∧
      (cfg.has .pressure = true → CleanT b (events (run cfg s ops).2)) ∧
      Rest cfg (run cfg s ops).1 ((events (run cfg s ops).2).foldl heldStep f) ((events (run cfg s ops).2).foldl tipStep b) := by
  induction ops with
  | nil => intro s f b R; exact ⟨trivial, fun _ => trivial, R⟩
  | cons op ops ih =>
    intro s f b R
    obtain ⟨h1, h2, h3⟩ := step_clean cfg s op f b R (hc op (by simp))
    obtain ⟨i1, i2, i3⟩ := ih (fun x hx => hc x (by simp [hx])) _ _ _ h3
    simp only [run]
    rw [events_append, cleanB_append, cleanT_append, List.foldl_append, List.foldl_append]
    exact ⟨⟨h1, i1⟩, fun hp => ⟨h2 hp, i2 hp⟩, i3⟩

theorem start_rest (cfg : Cfg) (raw : Axis → Int) (tool : Option Kind) (id now : Nat)
    (h : ∀ k, tool = some k → k.isCursor = false) : Rest cfg (start cfg raw tool id now) (fun _ => false) false := by
  unfold start
  cases tool with
  | none =>
    have h0 : penBits 0 := rfl
    exact ⟨⟨rfl, rfl, h0, h0, fun k h => (by cases h), fun _ => rfl, fun c h => (by rcases h with h | h <;> cases h), fun h => (by cases h),
      fun _ _ => rfl, fun _ => ⟨rfl, rfl, rfl⟩⟩, fun c h => (by cases h)⟩
  | some k =>
    dsimp only
    have hk := h k rfl
    generalize hx : Pen.updateTool _ _ _ = x
    obtain ⟨q, e⟩ := setTimer_state x now
    rw [e, ← hx]
    exact ⟨⟨rfl, rfl, bit_penBits k hk, bit_penBits k hk, fun k' h' => (by cases h'; exact hk), fun h' => (by cases h'),
      fun c h => (by rcases h with h | h <;> cases h), fun h => (by cases h),
      fun h => (by cases h), fun _ => ⟨rfl, rfl, rfl⟩⟩, fun c h => (by cases h)⟩

theorem cleanB_spec (es : List Ev) : ∀ f, CleanB f es → ∀ pre d post, es = pre ++ .prox false d :: post →
    ∀ c, pre.foldl heldStep f c = false := by
  intro f h pre d post he
  rw [he, cleanB_append] at h
  exact h.2.1 d rfl

theorem cleanT_spec (es : List Ev) : ∀ b, CleanT b es → ∀ pre d post, es = pre ++ .prox false d :: post →
    pre.foldl tipStep b = false := by
  intro b h pre d post he
  rw [he, cleanT_append] at h
  exact h.2.1 d rfl

end Libinput.Tablet
