import Verif.Tablet.Pass
/-
All rounds of a frame.
-/
namespace Libinput.Tablet

/-- What became of the tools when one of them, `k`, was there before. -/
def Turned (s : Pen) (k : Kind) : Prop :=
  s.t.now = k.bit ∨ (s.st.toolUpdated = true ∧ (s.t.now = 0 ∨ ∃ k', k'.isCursor = false ∧ k' ≠ k ∧ s.t.now = k.bit ||| k'.bit))

/-- How the buttons can differ from those of the frame before. -/
def Moved (s : Pen) : Prop :=
  ∀ c, s.buttons c = s.prevButtons c ∨ (s.buttons c = true ∧ s.st.pressed = true) ∨ (s.buttons c = false ∧ s.st.released = true)

/-- A tool is in proximity, whether the client knows already or not. -/
structure Live (s : Pen) (k : Kind) (v : Option View) : Prop where
  kind : s.t.kind = some k
  prox : s.st.outOfProx = false
  prev : s.t.prev = k.bit
  turned : Turned s k
  leaving : s.st.leaving = true → s.t.now = k.bit
  touch : s.t.now = k.bit ∨ s.st.enterContact = false
  touch' : s.st.leaving = true → s.st.enterContact = false
  moved : Moved s
  known : ∀ w, v = some w → s.st.entering = false ∧ w.tip = s.st.inContact ∧ (∀ c, c ∈ w.held ↔ s.prevButtons c = true) ∧
    w.tool = s.t.which k
  unknown : v = none → s.st.entering = true ∧ s.st.inContact = false ∧ ∀ c, s.prevButtons c = false

/-- No tool is in proximity. -/
structure Far (s : Pen) : Prop where
  prox : s.st.outOfProx = true
  entering : s.st.entering = false
  leaving : s.st.leaving = false
  tip : s.st.inContact = false
  cases : (s.t.prev = 0 ∧ penBits s.t.now ∧ (∀ c, s.prevButtons c = false) ∧ Moved s) ∨
    ∃ u, s.t.kind = some u ∧ s.t.prev = u.bit ∧ Turned s u

/-- The state before the rounds of a frame. -/
structure Pre (cfg : Cfg) (s : Pen) (v : Option View) : Prop where
  hung : s.hung = false
  range : s.st.outOfRange = false
  pens : ∀ k, s.t.kind = some k → k.isCursor = false
  small : ∀ c, s.buttons c = true ∨ s.prevButtons c = true → c < 768
  enter : s.st.enterContact = true → s.st.inContact = false ∧ s.st.leaveContact = false
  leave : s.st.leaveContact = true → s.st.inContact = true
  pressure : cfg.has .pressure = true → s.st.enterContact = false ∧ s.st.leaveContact = false
  cases : (∃ k, Live s k v) ∨ (v = none ∧ Far s)

/-- The state after them, or between frames, when the client's view is `v`. -/
def Tied (s : Pen) : Option View → Prop
  | some w => s.st.entering = false ∧ s.st.outOfProx = false ∧ s.t.kind = some w.tool.kind ∧ s.t.prev = w.tool.kind.bit ∧
      s.t.now = w.tool.kind.bit ∧ w.tip = s.st.inContact ∧ (∀ c, c ∈ w.held ↔ s.buttons c = true) ∧
      w.tool = s.t.which w.tool.kind ∧ s.st.enterContact = false ∧ s.st.leaveContact = false
  | none => s.st.inContact = false ∧ s.st.outOfProx = true ∧ s.st.entering = false ∧
      ((s.t.prev = 0 ∧ penBits s.t.now) ∨ ∃ u, s.t.kind = some u ∧ s.t.prev = u.bit ∧ s.t.now = u.bit)

structure Settled (s : Pen) (v : Option View) : Prop where
  hung : s.hung = false
  range : s.st.outOfRange = false
  leaving : s.st.leaving = false
  pens : ∀ k, s.t.kind = some k → k.isCursor = false
  small : ∀ c, s.buttons c = true ∨ s.prevButtons c = true → c < 768
  tied : Tied s v

theorem which_kind (s : ToolSt) (k : Kind) : (s.which k).kind = k := by
  unfold ToolSt.which; split
  · rfl
  · split <;> rfl

theorem which_tools (s : ToolSt) (n p : Nat) (kk : Option Kind) (k : Kind) :
    { s with now := n, prev := p, kind := kk }.which k = s.which k := rfl

theorem match_moved (s : Pen) (w : View) (ht : w.tip = s.st.inContact)
    (small : ∀ c, s.buttons c = true ∨ s.prevButtons c = true → c < 768) (m : Moved s)
    (hh : ∀ c, c ∈ w.held ↔ s.prevButtons c = true) : Match s w := by
  refine ⟨ht, small, ?_, ?_, ?_, fun _ => hh⟩
  · intro c h; rw [hh]; unfold Pen.ups at h; grind
  · intro c h; rw [hh]; unfold Pen.downs at h; grind
  · intro c
    have := m c
    rw [hh]
    unfold Pen.ups Pen.downs
    grind

/-- The last round of a tool that is in proximity afterwards. -/
theorem settle_stays {s₁ s₂ : Pen} {i : ToolId} {v' : Option View} (D : Done s₁ s₂ i v') (k : Kind)
    (hk : s₁.t.kind = some k) (hl : s₁.st.leaving = false) (hi : i = s₁.t.which k) (hh : s₁.hung = false)
    (pens : k.isCursor = false) (small : ∀ c, s₁.buttons c = true ∨ s₁.prevButtons c = true → c < 768)
    (hp : s₁.t.prev = k.bit) (hn : s₁.t.now = k.bit) : Settled s₂ v' ∧ ∃ w, v' = some w ∧ w.tool.kind = k := by
  obtain ⟨b, w', e, t1, t2, t3⟩ := D.stays hl
  obtain ⟨l, et⟩ := D.tools
  have hwk : w'.tool.kind = k := by rw [t1, hi, which_kind]
  refine ⟨⟨D.hung.trans hh, D.range, D.flags.1, ?_, ?_, ?_⟩, w', e, hwk⟩
  · intro k' h'
    rw [et] at h'
    have : some k' = some k := h'.symm.trans hk
    cases this
    exact pens
  · intro c h; rw [b, D.prev] at h; exact small c h
  · subst e
    refine ⟨D.flags.2.1, by rw [D.prox, hl], by rw [et, hwk]; exact hk, by rw [et, hwk]; exact hp, by rw [et, hwk]; exact hn,
      t2, t3, ?_, D.flags.2.2.1, D.flags.2.2.2.1⟩
    rw [hwk, D.which k hk, t1, hi]

/-- The last round of a tool that is gone afterwards. -/
theorem settle_goes {s₁ s₂ : Pen} {i : ToolId} {v' : Option View} (D : Done s₁ s₂ i v') (k : Kind)
    (hk : s₁.t.kind = some k) (hl : s₁.st.leaving = true) (hh : s₁.hung = false)
    (pens : k.isCursor = false) (small : ∀ c, s₁.buttons c = true ∨ s₁.prevButtons c = true → c < 768)
    (hp : (s₁.t.prev = 0 ∧ penBits s₁.t.now) ∨ (s₁.t.prev = k.bit ∧ s₁.t.now = k.bit)) :
    Settled s₂ v' ∧ v' = none ∧ (∀ c, s₂.buttons c = false) ∧ s₂.st.enterContact = false ∧ s₂.st.leaveContact = false := by
  obtain ⟨e, t1, t2⟩ := D.goes hl
  obtain ⟨l, et⟩ := D.tools
  subst e
  refine ⟨⟨D.hung.trans hh, D.range, D.flags.1, ?_, ?_, ?_⟩, rfl, t2, D.flags.2.2.1, D.flags.2.2.2.1⟩
  · intro k' h'
    rw [et] at h'
    have : some k' = some k := h'.symm.trans hk
    cases this
    exact pens
  · intro c h
    rw [t2, D.prev] at h
    exact small c (.inr (by simpa using h))
  · refine ⟨t1, by rw [D.prox, hl], D.flags.2.1, ?_⟩
    rcases hp with ⟨h1, h2⟩ | ⟨h1, h2⟩
    · exact .inl ⟨by rw [et]; exact h1, by rw [et]; exact h2⟩
    · exact .inr ⟨k, by rw [et]; exact hk, by rw [et]; exact h1, by rw [et]; exact h2⟩

theorem flush_one (cfg : Cfg) (j : Bool) (now n : Nat) (s s₂ : Pen) (o : List Out) (h : s.pass cfg j now = (s₂, o, false)) :
    s.flush cfg j now (n + 1) = (s₂, o) := by
  simp only [Pen.flush, h, Bool.false_eq_true, if_false]

theorem flush_two (cfg : Cfg) (j : Bool) (now n : Nat) (s s₂ : Pen) (o : List Out) (h : s.pass cfg j now = (s₂, o, true)) :
    s.flush cfg j now (n + 1) = ((s₂.flush cfg j now n).1, o ++ (s₂.flush cfg j now n).2) := by
  simp only [Pen.flush, h, if_true]

/-- A tool comes into proximity. -/
theorem enter_ok (cfg : Cfg) (s s₁ : Pen) (j : Bool) (now n : Nat) (k : Kind) (q : Quirk) (hcur : k.isCursor = false)
    (hc : s.toolChange j now = (s₁, false))
    (es : s₁ = { s with t := { s.t with prev := k.bit, now := k.bit, kind := some k },
                        st := { s.st with entering := true, outOfProx := false }, q := q })
    (hh : s.hung = false) (hl : s.st.leaving = false) (hr : s.st.outOfRange = false) (hi : s.st.inContact = false)
    (small : ∀ c, s.buttons c = true ∨ s.prevButtons c = true → c < 768)
    (enter : s.st.enterContact = true → s.st.inContact = false ∧ s.st.leaveContact = false)
    (leave : s.st.leaveContact = true → s.st.inContact = true)
    (pressure : cfg.has .pressure = true → s.st.enterContact = false ∧ s.st.leaveContact = false)
    (M : ∀ w, w.tip = false → w.held = [] → Match s₁ w) :
    ∃ v', follow none (events (s.flush cfg j now (n + 1)).2) = some v' ∧ Settled (s.flush cfg j now (n + 1)).1 v' ∧
      (s.flush cfg j now (n + 1)).1.st.toolUpdated = s.st.toolUpdated ∧ ∃ w, v' = some w ∧ w.tool.kind = k := by
  obtain ⟨s₂, o, v', e, f, D⟩ := pass_live cfg s s₁ j false now k none ⟨s₁.t.which k, false, []⟩ hc (by rw [es]) hcur
    (by rw [es]) (by rw [es]; exact hr)
    (by rw [es]; exact ⟨enter, leave, pressure, fun h => by rw [show s.st.leaving = true from h] at hl; cases hl⟩)
    (M _ rfl rfl) rfl (.inr ⟨rfl, by rw [es], rfl, rfl⟩)
  rw [flush_one cfg j now n s s₂ o e]
  obtain ⟨S, w, ew, wk⟩ := settle_stays D k (by rw [es]) (by rw [es]; exact hl) rfl (by rw [es]; exact hh) hcur
    (by rw [es]; exact small) (by rw [es]) (by rw [es])
  exact ⟨v', f, S, by rw [D.updated, es], w, ew, wk⟩

theorem bit_inj {k k' : Kind} (h : k.bit = k'.bit) : k = k' := by
  have h1 := bit_lowest k
  rw [h, bit_lowest] at h1
  cases h1; rfl

/-- Which tool the client is told about, given which ones the kernel has announced. -/
structure Told (s s' : Pen) (v' : Option View) : Prop where
  single : ∀ k : Kind, s.t.now = k.bit → (s.t.prev = 0 ∨ s.st.outOfProx = false) → s.st.leaving = false →
    ∃ w, v' = some w ∧ w.tool.kind = k
  swap : ∀ k k' : Kind, k' ≠ k → s.t.prev = k.bit → s.t.now = k.bit ||| k'.bit → s.st.outOfProx = false →
    ∃ w, v' = some w ∧ w.tool.kind = k'
  out : s.t.now = 0 → s.st.outOfProx = false → v' = none
  rest : v' = none → s.t.now = 0 → (s.t.prev = 0 ∨ s.st.outOfProx = false) → s'.t.now = 0 ∧ s'.t.prev = 0

/-- The rounds of a frame continue a sensible stream. -/
theorem flush_ok (cfg : Cfg) (j : Bool) (now n : Nat) (s : Pen) (v : Option View) (P : Pre cfg s v) :
    ∃ v', follow v (events (s.flush cfg j now (n + 2)).2) = some v' ∧ Settled (s.flush cfg j now (n + 2)).1 v' ∧
      (s.flush cfg j now (n + 2)).1.st.toolUpdated = s.st.toolUpdated ∧
      (v' = none →
        (v = none ∧ events (s.flush cfg j now (n + 2)).2 = [] ∧ (s.flush cfg j now (n + 2)).1.buttons = s.buttons ∧
          (s.flush cfg j now (n + 2)).1.st.enterContact = s.st.enterContact ∧
          (s.flush cfg j now (n + 2)).1.st.leaveContact = s.st.leaveContact) ∨
        ((∀ c, (s.flush cfg j now (n + 2)).1.buttons c = false) ∧ (s.flush cfg j now (n + 2)).1.st.enterContact = false ∧
          (s.flush cfg j now (n + 2)).1.st.leaveContact = false)) ∧
      (s.st.leaving = true → v' = none ∧ (s.flush cfg j now (n + 2)).1.t.prev = s.t.prev) ∧
      Told s (s.flush cfg j now (n + 2)).1 v' := by
  rcases P.cases with ⟨k, L⟩ | ⟨rfl, F⟩
  · have hcur := P.pens k L.kind
    -- the client's view, or the one it is about to have
    obtain ⟨w, hwt, hwp, hwh, hv⟩ : ∃ w : View, w.tool = s.t.which k ∧ w.tip = s.st.inContact ∧
        (∀ c, c ∈ w.held ↔ s.prevButtons c = true) ∧
        ((v = some w ∧ s.st.entering = false) ∨ (v = none ∧ s.st.entering = true ∧ w.tip = false ∧ w.held = [])) := by
      cases v with
      | some w => have := L.known w rfl; exact ⟨w, this.2.2.2, this.2.1, this.2.2.1, .inl ⟨rfl, this.1⟩⟩
      | none =>
        have := L.unknown rfl
        exact ⟨⟨s.t.which k, false, []⟩, rfl, this.2.1.symm, by simp [this.2.2], .inr ⟨rfl, this.1, rfl, rfl⟩⟩
    rcases L.turned with hn | ⟨hu, hn | ⟨k', hk', hne, hn⟩⟩
    · -- nothing new
      obtain ⟨q, hc⟩ := toolChange_same s j now (by rw [hn, L.prev]) (by rw [hn]; exact bit_ne k)
      obtain ⟨s₂, o, v', e, f, D⟩ := pass_live cfg s _ j false now k v w hc L.kind hcur L.prox P.range
        ⟨P.enter, P.leave, P.pressure, L.touch'⟩ (match_moved _ w hwp P.small L.moved hwh) hwt hv
      rw [flush_one cfg j now _ s s₂ o e]
      cases hl : s.st.leaving with
      | false =>
        obtain ⟨S, w', ew, wk⟩ := settle_stays D k L.kind hl hwt P.hung hcur P.small L.prev hn
        refine ⟨v', f, S, D.updated, (fun h => by rw [ew] at h; cases h), (fun h => by cases h), ?_, ?_, ?_, ?_⟩
        · intro K hK _ _
          exact ⟨w', ew, wk.trans (bit_inj (hn.symm.trans hK))⟩
        · intro K K' hne hp hnow _
          rw [L.prev] at hp
          cases bit_inj hp
          exact absurd (hnow.symm.trans hn) (two_bits _ K' hne).2.2
        · intro h; rw [hn] at h; exact absurd h (bit_ne k)
        · intro _ h; rw [hn] at h; exact absurd h (bit_ne k)
      | true =>
        obtain ⟨S, ev, g⟩ := settle_goes D k L.kind hl P.hung hcur P.small (.inr ⟨L.prev, hn⟩)
        obtain ⟨l, et⟩ := D.tools
        refine ⟨v', f, S, D.updated, fun _ => .inr g, fun _ => ⟨ev, by rw [et]⟩, ?_, ?_, fun _ _ => ev, ?_⟩
        · intro K _ _ h; rw [hl] at h; cases h
        · intro K K' hne hp hnow _
          rw [L.prev] at hp
          cases bit_inj hp
          exact absurd (hnow.symm.trans hn) (two_bits _ K' hne).2.2
        · intro _ h; rw [hn] at h; exact absurd h (bit_ne k)
    · -- the tool goes
      have hl : s.st.leaving = false := by
        cases h : s.st.leaving
        · rfl
        · have := L.leaving h; rw [hn] at this; exact absurd this.symm (bit_ne k)
      have ht : s.st.enterContact = false := by
        rcases L.touch with h | h
        · rw [hn] at h; exact absurd h.symm (bit_ne k)
        · exact h
      obtain ⟨q, hc⟩ := toolChange_out s j now k L.prev hn hu (by rw [L.kind]; simp)
      rw [L.prox, hl] at hc
      obtain ⟨s₂, o, v', e, f, D⟩ := pass_live cfg s _ j false now k v w hc L.kind hcur L.prox P.range
        ⟨P.enter, P.leave, P.pressure, fun _ => ht⟩ (match_moved _ w hwp P.small L.moved hwh) hwt hv
      rw [flush_one cfg j now _ s s₂ o e]
      obtain ⟨S, ev, g⟩ := settle_goes D k L.kind rfl P.hung hcur P.small (.inl ⟨rfl, by
        show penBits s.t.now
        rw [hn]; rfl⟩)
      refine ⟨v', f, S, D.updated, fun _ => .inr g, (fun h => by rw [hl] at h; cases h), ?_, ?_, fun _ _ => ev, ?_⟩
      · intro K h; rw [hn] at h; exact absurd h.symm (bit_ne K)
      · intro K K' hne _ h
        have := (two_bits K K' hne).1
        rw [← h, hn] at this
        simp at this
      · intro _ _ _
        obtain ⟨l, et⟩ := D.tools
        rw [et]
        exact ⟨hn, rfl⟩
    · -- another tool comes
      have hnk : s.t.now ≠ k.bit := by rw [hn]; exact (two_bits k k' hne).2.2
      have hl : s.st.leaving = false := by
        cases h : s.st.leaving
        · rfl
        · exact absurd (L.leaving h) hnk
      have ht : s.st.enterContact = false := L.touch.resolve_left hnk
      obtain ⟨q, hc⟩ := toolChange_swap s j now k k' L.prev hn hne
      rw [L.prox, hl] at hc
      obtain ⟨s₂, o, v', e, f, D⟩ := pass_live cfg s _ j true now k v w hc L.kind hcur L.prox P.range
        ⟨P.enter, P.leave, P.pressure, fun _ => ht⟩ (match_moved _ w hwp P.small L.moved hwh) hwt hv
      rw [flush_two cfg j now (n + 1) s s₂ o e]
      obtain ⟨S, ev, gb, ge, gl⟩ := settle_goes D k L.kind rfl P.hung hcur P.small (.inl ⟨rfl, by
        show penBits k'.bit
        exact bit_penBits k' hk'⟩)
      subst ev
      obtain ⟨l, et⟩ := D.tools
      have hp2 : s₂.t.prev = 0 := by rw [et]
      have hn2 : s₂.t.now = k'.bit := by rw [et]
      obtain ⟨q2, ⟨_, h0⟩ | ⟨k₂, hk₂, hb, hc2⟩ | ⟨_, h0⟩⟩ := toolChange_in s₂ j now hp2 (by rw [hn2]; exact bit_penBits k' hk')
      · rw [hn2] at h0; exact absurd h0 (bit_ne k')
      · obtain ⟨v2, f2, S2, u2, w2, e2, wk2⟩ := enter_ok cfg s₂ _ j now n k₂ q2 hk₂ hc2 rfl S.hung S.leaving S.range S.tied.1 S.small
          (fun h => by rw [ge] at h; cases h) (fun h => by rw [gl] at h; cases h) (fun _ => ⟨ge, gl⟩)
          (fun w' t1 t2 => by
            refine ⟨t1.trans S.tied.1.symm, S.small, ?_, ?_, ?_, ?_⟩
            · intro c h; unfold Pen.ups at h; simp [D.flags.2.2.2.2.2] at h
            · intro c h; unfold Pen.downs at h; simp [gb c] at h
            · intro c; unfold Pen.downs; simp [t2, gb c]
            · intro h; have := S.leaving; rw [show s₂.st.leaving = true from h] at this; cases this)
        have hk2 : k₂ = k' := by
          rcases hb with hb | hb
          · exact (bit_inj (hn2.symm.trans hb)).symm
          · rw [hn2] at hb; exact absurd hb (bit_ne k')
        refine ⟨v2, ?_, S2, u2.trans D.updated, (fun h => by rw [e2] at h; cases h), (fun h => by rw [hl] at h; cases h),
          ?_, ?_, ?_, ?_⟩
        · rw [events_append, follow_append, f, Option.bind_some, f2]
        · intro K h
          have := (two_bits k k' hne).1
          rw [← hn, h] at this
          exact absurd (bit_single K) this
        · intro K K' hneK hp hnow _
          rw [L.prev] at hp
          cases bit_inj hp
          have h1 := (two_bits _ K' hneK).2.1
          rw [← hnow, hn, (two_bits _ k' hne).2.1] at h1
          exact ⟨w2, e2, wk2.trans (hk2.trans (bit_inj h1))⟩
        · intro h
          have := (two_bits k k' hne).1
          rw [← hn, h] at this
          simp at this
        · intro h; rw [e2] at h; cases h
      · rw [hn2] at h0; exact absurd (bit_single k') h0
  · -- without a tool in proximity
    have early : ∀ (s₁ : Pen) (a : Bool) (q : Quirk) (n' p' : Nat), s.toolChange j now = (s₁, a) →
        s₁ = { s with t := { s.t with now := n', prev := p' }, q := q } →
        ((p' = 0 ∧ penBits n') ∨ (∃ u, s.t.kind = some u ∧ p' = u.bit ∧ n' = u.bit)) →
        (s.t.prev = 0 → n' = s.t.now ∧ p' = 0 ∧ ∀ k : Kind, s.t.now ≠ k.bit) →
        (∃ v', follow none (events (s.flush cfg j now (n + 2)).2) = some v' ∧ Settled (s.flush cfg j now (n + 2)).1 v' ∧
          (s.flush cfg j now (n + 2)).1.st.toolUpdated = s.st.toolUpdated ∧
          (v' = none →
            ((none : Option View) = none ∧ events (s.flush cfg j now (n + 2)).2 = [] ∧ (s.flush cfg j now (n + 2)).1.buttons = s.buttons ∧
              (s.flush cfg j now (n + 2)).1.st.enterContact = s.st.enterContact ∧
              (s.flush cfg j now (n + 2)).1.st.leaveContact = s.st.leaveContact) ∨
            ((∀ c, (s.flush cfg j now (n + 2)).1.buttons c = false) ∧ (s.flush cfg j now (n + 2)).1.st.enterContact = false ∧
              (s.flush cfg j now (n + 2)).1.st.leaveContact = false)) ∧
          (s.st.leaving = true → v' = none ∧ (s.flush cfg j now (n + 2)).1.t.prev = s.t.prev) ∧
          Told s (s.flush cfg j now (n + 2)).1 v') := by
      intro s₁ a q n' p' hc es hp hz
      have hpass : ∃ l, s.pass cfg j now = ({ s with t := { s.t with now := n', prev := p', tools := l }, q := q }, [], false) := by
        unfold Pen.pass
        rw [hc]
        subst es
        dsimp only
        cases hk : s.t.kind with
        | none => exact ⟨s.t.tools, rfl⟩
        | some u =>
          obtain ⟨g1, ⟨l0, g2⟩, g3⟩ := getTool_key cfg { s.t with now := n', prev := p', kind := some u } u
          simp only [P.pens u hk, Bool.false_eq_true, if_false, F.prox, Bool.true_or, if_true]
          refine ⟨l0, ?_⟩
          rw [g2, ← hk]
      obtain ⟨l, e⟩ := hpass
      rw [flush_one cfg j now (n + 1) s _ _ e]
      refine ⟨none, rfl, ⟨P.hung, P.range, F.leaving, P.pens, P.small, ⟨F.tip, F.prox, F.entering, hp⟩⟩, rfl,
        fun _ => .inl ⟨rfl, rfl, rfl, rfl, rfl⟩, (fun h => by rw [F.leaving] at h; cases h), ?_, ?_, fun _ _ => rfl, ?_⟩
      · intro K hK h _
        rcases h with h | h
        · exact absurd hK ((hz h).2.2 K)
        · rw [F.prox] at h; cases h
      · intro K K' _ _ _ h
        rw [F.prox] at h; cases h
      · intro _ h0 h
        rcases h with h | h
        · exact ⟨(hz h).1.trans h0, (hz h).2.1⟩
        · rw [F.prox] at h; cases h
    have lv : (s.st.leaving || !s.st.outOfProx) = s.st.leaving := by simp [F.prox]
    rcases F.cases with ⟨hp, hn, pb, mv⟩ | ⟨u, hk, hp, hn | ⟨hu, hn | ⟨k', hk', hne, hn⟩⟩⟩
    · obtain ⟨q, ⟨hc, h0⟩ | ⟨k, hcur, hb, hc⟩ | ⟨hc, h0⟩⟩ := toolChange_in s j now hp hn
      · exact early _ _ q s.t.now s.t.prev hc rfl (.inl ⟨hp, hn⟩)
          (fun _ => ⟨rfl, hp, fun k h => bit_ne k (h.symm.trans h0)⟩)
      · obtain ⟨v', f, S, u', w, ew, wk⟩ := enter_ok cfg s _ j now (n + 1) k q hcur hc rfl P.hung F.leaving P.range F.tip P.small P.enter P.leave
          P.pressure (fun w t1 t2 => match_moved _ w (t1.trans F.tip.symm) P.small mv (by simp [t2, pb]))
        refine ⟨v', f, S, u', (fun h => by rw [ew] at h; cases h), (fun h => by rw [F.leaving] at h; cases h), ?_, ?_, ?_, ?_⟩
        · intro K hK _ _
          rcases hb with hb | hb
          · exact ⟨w, ew, wk.trans (bit_inj (hb.symm.trans hK))⟩
          · rw [hb] at hK; exact absurd hK.symm (bit_ne K)
        · intro K K' _ h; rw [hp] at h; exact absurd h.symm (bit_ne K)
        · intro _ h; rw [F.prox] at h; cases h
        · intro h; rw [ew] at h; cases h
      · rw [lv] at hc
        exact early _ _ q s.t.now s.t.prev hc rfl (.inl ⟨hp, hn⟩)
          (fun _ => ⟨rfl, hp, fun k h => h0 (by rw [h]; exact bit_single k)⟩)
    · obtain ⟨q, hc⟩ := toolChange_same s j now (by rw [hn, hp]) (by rw [hn]; exact bit_ne u)
      exact early _ _ q s.t.now s.t.prev hc rfl (.inr ⟨u, hk, hp, hn⟩) (fun h => absurd (hp.symm.trans h) (bit_ne u))
    · obtain ⟨q, hc⟩ := toolChange_out s j now u hp hn hu (by rw [hk]; simp)
      rw [lv] at hc
      exact early _ _ q s.t.now 0 hc rfl (.inl ⟨rfl, by rw [hn]; rfl⟩) (fun h => absurd (hp.symm.trans h) (bit_ne u))
    · obtain ⟨q, hc⟩ := toolChange_swap s j now u k' hp hn hne
      rw [lv] at hc
      exact early _ _ q k'.bit 0 hc rfl (.inl ⟨rfl, bit_penBits k' hk'⟩) (fun h => absurd (hp.symm.trans h) (bit_ne u))

end Libinput.Tablet
