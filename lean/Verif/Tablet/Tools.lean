import Verif.Tablet.Round
/-
Which tool a frame belongs to, and when tools come and go.
-/
namespace Libinput.Tablet

/-- Whether the list has this tool. -/
def ToolSt.has (s : ToolSt) (i : ToolId) : Bool := s.tools.any (fun t => decide (t.key = i))

/-- Which tool a kind stands for at the moment. -/
def ToolSt.which (s : ToolSt) (k : Kind) : ToolId :=
  if s.serial ≠ 0 ∧ s.has ⟨k, s.serial⟩ = true then ⟨k, s.serial⟩
  else if s.has ⟨k, 0⟩ = true then ⟨k, 0⟩
  else ⟨k, s.serial⟩

theorem findTool_some (s : ToolSt) (i : ToolId) (t : Tool) (h : s.findTool i = some t) : t.key = i ∧ s.has i = true := by
  unfold ToolSt.findTool at h
  have h1 := List.find?_some h
  have h2 := List.mem_of_find?_eq_some h
  simp only [decide_eq_true_eq] at h1
  refine ⟨h1, ?_⟩
  unfold ToolSt.has
  rw [List.any_eq_true]
  exact ⟨t, h2, by simp [h1]⟩

theorem findTool_none (s : ToolSt) (i : ToolId) (h : s.findTool i = none) : s.has i = false := by
  unfold ToolSt.findTool at h
  rw [List.find?_eq_none] at h
  unfold ToolSt.has
  rw [List.any_eq_false]
  intro x hx
  exact h x hx

theorem newTool_key (cfg : Cfg) (k : Kind) (id n : Nat) : (newTool cfg k id n).key = ⟨k, n⟩ := by
  unfold newTool Tool.key
  dsimp only
  split
  · split
    · split <;> rfl
    · rfl
  · rfl

/-- `getTool` finds or makes the tool the kind stands for, and it stands for the same tool afterwards. -/
theorem getTool_key (cfg : Cfg) (s : ToolSt) (k : Kind) :
    (s.getTool cfg k).2.key = s.which k ∧ (∃ l, (s.getTool cfg k).1 = { s with tools := l }) ∧
      (s.getTool cfg k).1.which k = s.which k := by
  unfold ToolSt.getTool
  dsimp only
  generalize ho : (if s.serial ≠ 0 then s.findTool ⟨k, s.serial⟩ else none) = own
  cases own with
  | some t =>
    have hs : s.serial ≠ 0 := by intro h; simp [h] at ho
    rw [if_pos hs] at ho
    obtain ⟨e1, e2⟩ := findTool_some s _ t ho
    refine ⟨?_, ⟨_, rfl⟩, rfl⟩
    dsimp only
    rw [e1, ToolSt.which, if_pos ⟨hs, e2⟩]
  | none =>
    have hs : ¬ (s.serial ≠ 0 ∧ s.has ⟨k, s.serial⟩ = true) := by
      rintro ⟨h1, h2⟩
      rw [if_pos h1] at ho
      rw [findTool_none s _ ho] at h2
      exact absurd h2 (by simp)
    dsimp only
    cases hf : s.findTool ⟨k, 0⟩ with
    | some t =>
      obtain ⟨e1, e2⟩ := findTool_some s _ t hf
      refine ⟨?_, ⟨_, rfl⟩, rfl⟩
      dsimp only
      rw [e1, ToolSt.which, if_neg hs, if_pos e2]
    | none =>
      have e2 := findTool_none s _ hf
      have ew : s.which k = ⟨k, s.serial⟩ := by rw [ToolSt.which, if_neg hs, if_neg (by simp [e2])]
      refine ⟨?_, ⟨_, rfl⟩, ?_⟩
      · dsimp only; rw [newTool_key, ew]
      · dsimp only
        rw [ew]
        have hh : ToolSt.has { s with tools := newTool cfg k s.id s.serial :: s.tools } ⟨k, s.serial⟩ = true := by
          simp [ToolSt.has, newTool_key]
        unfold ToolSt.which
        dsimp only
        by_cases h0 : s.serial = 0
        · rw [if_neg (by simp [h0])]
          rw [h0] at hh ⊢
          rw [if_pos hh]
        · rw [if_pos ⟨h0, hh⟩]

theorem putTool_has (s : ToolSt) (t : Tool) (i : ToolId) : (s.putTool t).has i = s.has i := by
  unfold ToolSt.putTool ToolSt.has
  dsimp only
  rw [List.any_map]
  congr 1
  funext u
  simp only [Function.comp]
  split
  · rename_i h; simp [h]
  · rfl

theorem putTool_which (s : ToolSt) (t : Tool) (k : Kind) : (s.putTool t).which k = s.which k := by
  unfold ToolSt.which
  simp only [putTool_has]
  rfl

/-- A tool of another tablet changes nothing as long as its serial number is a different one. -/
theorem cons_which (s : ToolSt) (t : Tool) (k : Kind) (h0 : t.serial ≠ 0) (hs : t.serial ≠ s.serial) :
    { s with tools := t :: s.tools }.which k = s.which k := by
  unfold ToolSt.which ToolSt.has
  simp [Tool.key, h0, hs]

/-! ### Bits -/

/-- Only pens, no cursor tools. -/
def penBits (n : Nat) : Prop := n &&& 62 = n

theorem penBits_lt {n : Nat} (h : penBits n) : n < 64 := by
  unfold penBits at h
  have : n &&& 62 ≤ 62 := Nat.and_le_right
  omega

theorem bit_or {n : Nat} (k : Kind) (hk : k.isCursor = false) (h : penBits n) : penBits (n ||| k.bit) := by
  have key : ∀ m < 64, m &&& 62 = m → ((m ||| Kind.pen.bit) &&& 62 = m ||| Kind.pen.bit) ∧
      ((m ||| Kind.eraser.bit) &&& 62 = m ||| Kind.eraser.bit) ∧ ((m ||| Kind.brush.bit) &&& 62 = m ||| Kind.brush.bit) ∧
      ((m ||| Kind.pencil.bit) &&& 62 = m ||| Kind.pencil.bit) ∧
      ((m ||| Kind.airbrush.bit) &&& 62 = m ||| Kind.airbrush.bit) := by decide
  have := key n (penBits_lt h) h
  cases k <;> first | (simp only [Kind.isCursor, Bool.true_eq_false] at hk; done) | exact this.1 | exact this.2.1 |
    exact this.2.2.1 | exact this.2.2.2.1 | exact this.2.2.2.2

theorem bit_clear {n : Nat} (k : Kind) (h : penBits n) : penBits (n &&& (255 ^^^ k.bit)) := by
  unfold penBits at *
  rw [Nat.and_assoc, Nat.and_comm _ 62, ← Nat.and_assoc, h]

theorem single {n : Nat} (h : penBits n) (h0 : n ≠ 0) (h1 : n &&& (n - 1) = 0) :
    ∃ k : Kind, k.isCursor = false ∧ n = k.bit := by
  have hl := penBits_lt h
  have : n = Kind.pen.bit ∨ n = Kind.eraser.bit ∨ n = Kind.brush.bit ∨ n = Kind.pencil.bit ∨ n = Kind.airbrush.bit := by
    have key : ∀ m < 64, (m &&& 62 = m ∧ m ≠ 0 ∧ m &&& (m - 1) = 0) → m ∈ [2, 4, 8, 16, 32] := by decide
    have := key n hl ⟨h, h0, h1⟩
    simpa [Kind.bit, Kind.num] using this
  rcases this with h | h | h | h | h
  · exact ⟨_, rfl, h⟩
  · exact ⟨_, rfl, h⟩
  · exact ⟨_, rfl, h⟩
  · exact ⟨_, rfl, h⟩
  · exact ⟨_, rfl, h⟩

theorem bit_ne (k : Kind) : k.bit ≠ 0 := by cases k <;> decide
theorem bit_single (k : Kind) : k.bit &&& (k.bit - 1) = 0 := by cases k <;> decide
theorem bit_lowest (k : Kind) : lowest k.bit = some k := by cases k <;> decide
theorem bit_test (k : Kind) : k.bit.testBit k.num = true := by cases k <;> decide
theorem bit_penBits (k : Kind) (h : k.isCursor = false) : penBits k.bit := by
  unfold penBits; cases k <;> first | decide | simp [Kind.isCursor] at h

/-- What a set of tools becomes when one of them comes or goes. -/
theorem bit_toggle (k k' : Kind) (hk : k.isCursor = false) (hk' : k'.isCursor = false) (v : Bool) :
    (if v then k.bit ||| k'.bit else k.bit &&& (255 ^^^ k'.bit)) = k.bit ∨
    (if v then k.bit ||| k'.bit else k.bit &&& (255 ^^^ k'.bit)) = 0 ∨
    ((if v then k.bit ||| k'.bit else k.bit &&& (255 ^^^ k'.bit)) = k.bit ||| k'.bit ∧ k' ≠ k) := by
  cases k <;> cases k' <;> cases v <;> decide

theorem two_bits (k k' : Kind) (h : k' ≠ k) :
    (k.bit ||| k'.bit) &&& ((k.bit ||| k'.bit) - 1) ≠ 0 ∧ (k.bit ||| k'.bit) ^^^ k.bit = k'.bit ∧ k.bit ||| k'.bit ≠ k.bit := by
  revert h
  cases k <;> cases k' <;> decide

/-! ### Tools that come and go -/

theorem emulate_state (s : Pen) : ∃ n q, s.emulate = { s with t := { s.t with now := n }, q := q } ∧
    (n = s.t.now ∨ (s.t.now = 0 ∧ n = Kind.pen.bit ∧ (s.st.toolUpdated = false ∨ s.t.kind = none))) := by
  unfold Pen.emulate
  have h1 : ∃ q, (if s.q.forced = true ∧ s.st.toolUpdated = true ∧ s.t.now = 0 then
      { s with q.needForce := false, q.forced := false } else s) = { s with q := q } := by
    split <;> exact ⟨_, rfl⟩
  obtain ⟨q, e⟩ := h1
  rw [e]
  dsimp only
  split
  · split
    · split
      · rename_i h; exact ⟨_, _, rfl, .inr ⟨h.2, rfl, .inl h.1⟩⟩
      · exact ⟨_, _, rfl, .inl rfl⟩
    · split
      · rename_i h; exact ⟨_, _, rfl, .inr ⟨h.1, rfl, .inr h.2⟩⟩
      · exact ⟨_, _, rfl, .inl rfl⟩
  · exact ⟨_, _, rfl, .inl rfl⟩

theorem penTimer_state (s : Pen) (j : Bool) (now : Nat) (k : Option Kind) (on : Bool) :
    ∃ q, s.penTimer j now k on = { s with q := q } := by
  unfold Pen.penTimer Pen.setTimer
  split
  · split
    · split <;> exact ⟨_, rfl⟩
    · exact ⟨_, rfl⟩
  · exact ⟨_, rfl⟩

theorem updateTool_off (s : Pen) (k : Option Kind) :
    s.updateTool k false = { s with st := { s.st with leaving := s.st.leaving || !s.st.outOfProx } } := by
  unfold Pen.updateTool
  obtain ⟨st, v, b, b', t, h, q, a, o, hu⟩ := s
  obtain ⟨x1, x2, x3, x4, x5, x6, x7, x8, x9, x10, x11, x12⟩ := st
  cases x8 <;> simp

/-- Nothing new. -/
theorem toolChange_same (s : Pen) (j : Bool) (now : Nat) (h : s.t.now = s.t.prev) (h0 : s.t.now ≠ 0) :
    ∃ q, s.toolChange j now = ({ s with q := q }, false) := by
  obtain ⟨n, q, e, h1⟩ := emulate_state s
  have hn : n = s.t.now := h1.resolve_right (fun h => h0 h.1)
  subst hn
  unfold Pen.toolChange
  rw [e]
  dsimp only
  rw [if_pos h]
  exact ⟨_, rfl⟩

/-- The tool goes away. -/
theorem toolChange_out (s : Pen) (j : Bool) (now : Nat) (k : Kind) (hp : s.t.prev = k.bit) (hn : s.t.now = 0)
    (hu : s.st.toolUpdated = true) (hk : s.t.kind ≠ none) :
    ∃ q, s.toolChange j now =
      ({ s with t := { s.t with prev := 0 }, st := { s.st with leaving := s.st.leaving || !s.st.outOfProx }, q := q }, false) := by
  obtain ⟨n, q, e, h1⟩ := emulate_state s
  have hn' : n = s.t.now := h1.resolve_right (fun h => by rcases h.2.2 with h | h <;> simp_all)
  subst hn'
  unfold Pen.toolChange
  rw [e]
  dsimp only
  rw [if_neg (by rw [hp, hn]; exact (bit_ne k).symm), hn, hp]
  simp only [Nat.zero_and, ne_eq, not_true_eq_false, decide_false, Bool.false_eq_true, if_false, Nat.zero_xor, bit_lowest,
    Nat.zero_testBit]
  generalize hy : Pen.updateTool _ (some k) false = y
  obtain ⟨q', e'⟩ := penTimer_state y j now (some k) false
  rw [e', ← hy, updateTool_off]
  exact ⟨q', by simp⟩

/-- Another tool comes while the first one is still there. -/
theorem toolChange_swap (s : Pen) (j : Bool) (now : Nat) (k k' : Kind) (hp : s.t.prev = k.bit)
    (hn : s.t.now = k.bit ||| k'.bit) (hk : k' ≠ k) :
    ∃ q, s.toolChange j now =
      ({ s with t := { s.t with prev := 0, now := k'.bit }, st := { s.st with leaving := s.st.leaving || !s.st.outOfProx } , q := q }, true) := by
  obtain ⟨b1, b2, b3⟩ := two_bits k k' hk
  obtain ⟨n, q, e, h1⟩ := emulate_state s
  have hn' : n = s.t.now := h1.resolve_right (fun h => by
    have := h.1
    rw [hn] at this
    have h2 := bit_ne k
    simp [this] at b1)
  subst hn'
  unfold Pen.toolChange
  rw [e]
  dsimp only
  rw [if_neg (by rw [hp, hn]; exact b3), hn, hp]
  simp only [b1, b2, ne_eq, not_false_eq_true, decide_true, if_true, Nat.zero_xor, bit_lowest, Nat.zero_testBit]
  generalize hy : Pen.updateTool _ (some k) false = y
  obtain ⟨q', e'⟩ := penTimer_state y j now (some k) false
  rw [e', ← hy, updateTool_off]
  exact ⟨q', by simp⟩

/-- From no tool at all. -/
theorem toolChange_in (s : Pen) (j : Bool) (now : Nat) (hp : s.t.prev = 0) (hn : penBits s.t.now) :
    ∃ q, (s.toolChange j now = ({ s with q := q }, false) ∧ s.t.now = 0) ∨
      (∃ k : Kind, k.isCursor = false ∧ (s.t.now = k.bit ∨ s.t.now = 0) ∧ s.toolChange j now =
        ({ s with t := { s.t with prev := k.bit, now := k.bit, kind := some k }, st := { s.st with entering := true, outOfProx := false }, q := q }, false)) ∨
      (s.toolChange j now = ({ s with st := { s.st with leaving := s.st.leaving || !s.st.outOfProx }, q := q }, true) ∧
        s.t.now &&& (s.t.now - 1) ≠ 0) := by
  obtain ⟨n, q, e, h1⟩ := emulate_state s
  have hb : penBits n := by
    rcases h1 with rfl | ⟨_, rfl, _⟩
    · exact hn
    · exact bit_penBits _ rfl
  unfold Pen.toolChange
  rw [e]
  dsimp only
  by_cases h0 : n = 0
  · rw [if_pos (by rw [hp, h0])]
    have : n = s.t.now := h1.resolve_right (fun h => by rw [h0] at h; exact absurd h.2.1.symm (bit_ne _))
    exact ⟨q, .inl ⟨by rw [this], by rw [← this, h0]⟩⟩
  · rw [if_neg (by rw [hp]; exact h0)]
    by_cases h2 : n &&& (n - 1) = 0
    · obtain ⟨k, hk, rfl⟩ := single hb h0 h2
      simp only [h2, ne_eq, not_true_eq_false, decide_false, Bool.false_eq_true, if_false, hp, Nat.xor_zero, bit_lowest,
        bit_test]
      generalize hy : Pen.updateTool _ (some k) true = y
      obtain ⟨q', e'⟩ := penTimer_state y j now (some k) true
      rw [e', ← hy]
      refine ⟨q', .inr (.inl ⟨k, hk, ?_, rfl⟩)⟩
      rcases h1 with h | h
      · exact .inl h.symm
      · exact .inr h.1
    · simp only [h2, ne_eq, not_false_eq_true, decide_true, if_true, hp, Nat.xor_zero]
      have : n = s.t.now := h1.resolve_right (fun h => by rw [h.2.1] at h2; exact h2 (bit_single _))
      subst this
      have hl : lowest 0 = none := by decide
      rw [hl]
      dsimp only
      generalize hy : Pen.updateTool _ none false = y
      obtain ⟨q', e'⟩ := penTimer_state y j now none false
      rw [e', ← hy, updateTool_off]
      have h0 : s.t = { s.t with prev := 0 } := by rw [← hp]
      exact ⟨q', .inr (.inr ⟨by simp; exact h0.symm, h2⟩)⟩

end Libinput.Tablet
