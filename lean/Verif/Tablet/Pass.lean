import Verif.Tablet.Tools
/-
One round of the processing of a frame.
-/
namespace Libinput.Tablet

theorem detectOffset_key (cfg : Cfg) (v : Vals) (b : Bool) (t : Tool) : (v.detectOffset cfg b t).key = t.key := by
  unfold Vals.detectOffset
  dsimp only
  repeat' split
  all_goals rfl

/-- The bits of the contact are sensible when a round begins. -/
structure Contact (cfg : Cfg) (s : Pen) : Prop where
  enter : s.st.enterContact = true → s.st.inContact = false ∧ s.st.leaveContact = false
  leave : s.st.leaveContact = true → s.st.inContact = true
  pressure : cfg.has .pressure = true → s.st.enterContact = false ∧ s.st.leaveContact = false
  gone : s.st.leaving = true → s.st.enterContact = false

/-- The buttons and the tip match what the client knows, up to what the round is about to report. -/
structure Match (s : Pen) (w : View) : Prop where
  tip : w.tip = s.st.inContact
  small : ∀ c, s.buttons c = true ∨ s.prevButtons c = true → c < 768
  up : ∀ c, s.ups c = true → c ∈ w.held
  down : ∀ c, s.downs c = true → c ∉ w.held
  held : ∀ c, s.buttons c = true ↔ (c ∈ w.held ∧ s.ups c = false) ∨ s.downs c = true
  gone : s.st.leaving = true → ∀ c, c ∈ w.held ↔ s.prevButtons c = true

theorem detectContact_state (cfg : Cfg) (s : Pen) (t : Tool) :
    ∃ e l, s.detectContact cfg t = { s with st := { s.st with enterContact := e, leaveContact := l } } ∧
      (cfg.has .pressure = false → e = s.st.enterContact ∧ l = s.st.leaveContact) ∧
      ((e = s.st.enterContact ∧ l = s.st.leaveContact) ∨ (e = s.st.enterContact ∧ s.st.inContact = true) ∨
        (l = s.st.leaveContact ∧ s.st.inContact = false)) := by
  unfold Pen.detectContact
  dsimp only
  split
  · exact ⟨_, _, rfl, fun _ => ⟨rfl, rfl⟩, .inl ⟨rfl, rfl⟩⟩
  · split
    · exact ⟨_, _, rfl, fun _ => ⟨rfl, rfl⟩, .inl ⟨rfl, rfl⟩⟩
    · rename_i hp
      split
      · rename_i h; exact ⟨_, _, rfl, fun h => absurd h hp, .inr (.inl ⟨rfl, h.2⟩)⟩
      · split
        · rename_i h; exact ⟨_, _, rfl, fun h => absurd h hp, .inr (.inr ⟨rfl, h.2⟩)⟩
        · exact ⟨_, _, rfl, fun _ => ⟨rfl, rfl⟩, .inl ⟨rfl, rfl⟩⟩

theorem prepare_ready (cfg : Cfg) (s : Pen) (t : Tool) (w : View) (C : Contact cfg s) (M : Match s w) :
    Ready (s.prepare cfg t).1 w ∧ (s.prepare cfg t).2.key = t.key ∧
    ∃ v l b e lv r, (s.prepare cfg t).1 =
        { s with v := v, t := { s.t with tools := l }, buttons := b,
                 st := { s.st with enterContact := e, leaveContact := lv, released := r } } ∧
      (∀ k, { s.t with tools := l }.which k = s.t.which k) ∧
      (s.st.leaving = false → b = s.buttons) ∧ (s.st.leaving = true → b = fun _ => false) := by
  unfold Pen.prepare
  split
  · rename_i hl
    refine ⟨?_, rfl, _, _, _, _, _, _, rfl, fun _ => rfl, fun h => by simp [hl] at h, fun _ => rfl⟩
    refine ⟨M.tip, fun c h => M.small c (.inr (by simpa using h)), ?_, ?_, ?_, ?_, ?_, ?_⟩
    · intro h
      have := C.gone hl
      simp [this] at h
    · intro h
      simp only [Bool.or_eq_true] at h
      exact h.elim C.leave id
    · intro c h
      simp only [Pen.ups, Bool.true_and, Bool.not_false, Bool.and_true] at h
      exact (M.gone hl c).2 h
    · intro c h
      simp [Pen.downs] at h
    · intro c
      simp only [Pen.ups, Pen.downs, M.gone hl c]
      simp
    · intro _
      exact ⟨C.gone hl, fun _ => rfl, fun h => by simp only at h; simp [h]⟩
  · rename_i hl
    have hl' : s.st.leaving = false := by simpa using hl
    split
    · dsimp only
      have hd : ∀ x : Pen, x = (if s.st.entering = true then { s with v.changed := t.caps } else s) →
          ∃ v, x = { s with v := v } := by
        intro x hx; subst hx; split <;> exact ⟨_, rfl⟩
      generalize hx : (if s.st.entering = true then { s with v.changed := t.caps } else s) = x
      obtain ⟨v, rfl⟩ := hd x hx.symm
      dsimp only
      generalize ht : v.detectOffset cfg s.st.entering t = t'
      have hk : t'.key = t.key := by rw [← ht]; exact detectOffset_key ..
      obtain ⟨e, l, e1, e2, e3⟩ := detectContact_state cfg { s with v := v, t := s.t.putTool t' } t'
      rw [e1]
      dsimp only at e2 e3 ⊢
      refine ⟨?_, hk, _, _, _, _, _, _, rfl, fun k => putTool_which s.t t' k, fun _ => rfl, fun h => by simp [hl'] at h⟩
      refine ⟨M.tip, M.small, ?_, ?_, M.up, M.down, M.held, fun h => by simp [hl'] at h⟩
      · intro h
        have h1 := C.enter
        have h2 := C.leave
        have h3 := C.pressure
        dsimp only at h ⊢
        cases hp : cfg.has .pressure <;> grind
      · intro h
        have h1 := C.enter
        have h2 := C.leave
        have h3 := C.pressure
        dsimp only at h ⊢
        cases hp : cfg.has .pressure <;> grind
    · refine ⟨?_, rfl, s.v, s.t.tools, s.buttons, s.st.enterContact, s.st.leaveContact, s.st.released, rfl, fun _ => rfl,
        fun _ => rfl, fun h => by simp [hl'] at h⟩
      exact ⟨M.tip, M.small, C.enter, C.leave, M.up, M.down, M.held, fun h => by simp [hl'] at h⟩

/-- What a round leaves behind when the tool is in proximity. -/
structure Done (s₁ s₂ : Pen) (i : ToolId) (v' : Option View) : Prop where
  tools : ∃ l, s₂.t = { s₁.t with tools := l }
  which : ∀ k, s₁.t.kind = some k → s₂.t.which k = s₁.t.which k
  prev : s₂.prevButtons = s₁.prevButtons
  hung : s₂.hung = s₁.hung
  updated : s₂.st.toolUpdated = s₁.st.toolUpdated
  prox : s₂.st.outOfProx = s₁.st.leaving
  range : s₂.st.outOfRange = false
  flags : s₂.st.leaving = false ∧ s₂.st.entering = false ∧ s₂.st.enterContact = false ∧ s₂.st.leaveContact = false ∧
    s₂.st.pressed = false ∧ s₂.st.released = false
  stays : s₁.st.leaving = false → s₂.buttons = s₁.buttons ∧
    ∃ w', v' = some w' ∧ w'.tool = i ∧ w'.tip = s₂.st.inContact ∧ ∀ c, c ∈ w'.held ↔ s₂.buttons c = true
  goes : s₁.st.leaving = true → v' = none ∧ s₂.st.inContact = false ∧ ∀ c, s₂.buttons c = false

theorem pass_live (cfg : Cfg) (s s₁ : Pen) (j again : Bool) (now : Nat) (k : Kind) (v : Option View) (w : View)
    (hc : s.toolChange j now = (s₁, again)) (hk : s₁.t.kind = some k) (hcur : k.isCursor = false)
    (ho : s₁.st.outOfProx = false) (hr : s₁.st.outOfRange = false) (C : Contact cfg s₁) (M : Match s₁ w)
    (hw : w.tool = s₁.t.which k)
    (hv : (v = some w ∧ s₁.st.entering = false) ∨ (v = none ∧ s₁.st.entering = true ∧ w.tip = false ∧ w.held = [])) :
    ∃ s₂ o v', s.pass cfg j now = (s₂, o, again) ∧ follow v (events o) = some v' ∧ Done s₁ s₂ w.tool v' := by
  unfold Pen.pass
  simp only [hc, hk, hcur, Bool.false_eq_true, if_false, ho, hr, Bool.or_false]
  obtain ⟨g1, ⟨l0, g2⟩, g3⟩ := getTool_key cfg s₁.t k
  generalize s₁.t.getTool cfg k = g at g1 g2 g3 ⊢
  obtain ⟨gt, t⟩ := g
  dsimp only at g1 g2 g3 ⊢
  subst g2
  obtain ⟨R, kk, v2, l, b, e, lv, r, es, wh, b1, b2⟩ :=
    prepare_ready cfg { s₁ with t := { s₁.t with tools := l0 } } t w ⟨C.enter, C.leave, C.pressure, C.gone⟩
      ⟨M.tip, M.small, M.up, M.down, M.held, M.gone⟩
  generalize Pen.prepare cfg { s₁ with t := { s₁.t with tools := l0 } } t = p at R kk es ⊢
  obtain ⟨p1, p2⟩ := p
  dsimp only at R kk es wh b1 b2 ⊢
  have hi : w.tool = p2.key := by rw [kk, g1, hw]
  obtain ⟨v', f, A⟩ := send_follow cfg p1 p2 v w hi R (by subst es; exact hv)
  obtain ⟨v3, h3, e3⟩ := send_state cfg p1 p2
  refine ⟨_, _, v', rfl, f, ?_⟩
  rw [e3]
  have hsent : p1.st.sent.leaveContact = false := by
    simp only [Bits.sent]
    cases h : p1.st.enterContact
    · rfl
    · simp [(R.enter h).2]
  subst es
  refine ⟨⟨_, rfl⟩, fun k' hk' => ?_, rfl, rfl, rfl, by simp [Bits.sent, ho], hr, ⟨rfl, rfl, rfl, hsent, rfl, rfl⟩, ?_, ?_⟩
  · rw [hk] at hk'
    cases hk'
    exact (wh k).trans g3
  · intro hl
    refine ⟨b1 hl, ?_⟩
    cases v' with
    | none => simp only [After, hl, Bool.false_eq_true] at A
    | some w' => exact ⟨w', rfl, A.2.1.trans hi.symm, A.2.2.1, A.2.2.2⟩
  · intro hl
    have hb := b2 hl
    cases v' with
    | some w' => have := A.1; simp only [hl, Bool.true_eq_false] at this
    | none =>
      obtain ⟨q1, q2, q3⟩ := R.gone hl
      refine ⟨rfl, ?_, q2⟩
      dsimp only at q1 q3
      simp only [Bits.sent, q1, Bool.false_or]
      cases hi : s₁.st.inContact
      · rfl
      · simp [q3 hi]

end Libinput.Tablet
