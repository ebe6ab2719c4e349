import Verif.Tablet.Spec
/-
What the parts of a frame change, and what they leave alone.
-/
namespace Libinput.Tablet

/-- The bits of the status after the events of a round have been sent. -/
def Bits.sent (b : Bits) : Bits :=
  { b with
    entering := false, axesUpdated := false, released := false, pressed := false, leaving := false,
    outOfProx := b.outOfProx || b.leaving,
    enterContact := false, leaveContact := b.enterContact && b.leaveContact,
    inContact := b.enterContact || (b.inContact && !b.leaveContact) }

theorem changeLeft_state (s : Pen) : ∃ h, s.changeLeft.1 = { s with h := h } := by
  unfold Pen.changeLeft Pen.changeRotation Pen.applyRotation
  split
  · exact ⟨_, rfl⟩
  · dsimp only; split <;> exact ⟨_, rfl⟩

theorem changeLeft_events (s : Pen) : events s.changeLeft.2 = [] := by
  unfold Pen.changeLeft Pen.changeRotation
  split
  · rfl
  · dsimp only; split <;> rfl

theorem applyRotation_state (s : Pen) : ∃ h, s.applyRotation = { s with h := h } := by
  unfold Pen.applyRotation; split <;> exact ⟨_, rfl⟩

theorem sendProxOut_state (s : Pen) (i : ToolId) (a : Axes) :
    ∃ v h, (s.sendProxOut i a).1 =
      { s with v := v, h := h, st := { s.st with outOfProx := s.st.outOfProx || s.st.leaving, leaving := false } } := by
  unfold Pen.sendProxOut
  split
  · rename_i hl
    dsimp only
    obtain ⟨h1, e1⟩ := changeLeft_state { s with st.outOfProx := true, st.leaving := false, v.changed := [] }
    rw [e1]
    obtain ⟨h2, e2⟩ := applyRotation_state { s with st.outOfProx := true, st.leaving := false, v.changed := [], h := h1 }
    rw [e2]
    exact ⟨_, h2, by simp [hl]; rfl⟩
  · rename_i hl
    obtain ⟨⟨⟩, _⟩ := s
    simp at hl
    subst hl
    exact ⟨_, _, by simp; exact ⟨rfl, rfl⟩⟩

theorem events_append (a b : List Out) : events (a ++ b) = events a ++ events b := by
  unfold events; exact List.filterMap_append

theorem events_map (l : List Ev) : events (l.map .ev) = l := by
  unfold events
  induction l with
  | nil => rfl
  | cons x l ih => simp [ih]

theorem sendProxOut_events (s : Pen) (i : ToolId) (a : Axes) :
    events (s.sendProxOut i a).2 = if s.st.leaving then [.prox false ⟨i, false, s.v.changed, a⟩] else [] := by
  unfold Pen.sendProxOut
  split
  · dsimp only
    rw [show ∀ (e : Ev) (l : List Out), Out.ev e :: l = [e].map .ev ++ l from fun _ _ => rfl]
    rw [events_append, events_map, changeLeft_events]; rfl
  · rfl

theorem bits_same (b : Bits) (h : b.leaving = false) : { b with axesUpdated := b.axesUpdated && !b.leaving } = b := by
  cases b; simp_all

/-- What `send` leaves of the state. -/
theorem send_state (cfg : Cfg) (s : Pen) (t : Tool) :
    ∃ v h, (s.send cfg t).1 = { s with v := v, h := h, st := s.st.sent } := by
  unfold Pen.send
  dsimp only
  have hv : ∃ v, (if s.st.leaving = true then ({ s with st.axesUpdated := false }, s.v.axes) else s.notifyAxes cfg t).1
      = { s with st.axesUpdated := s.st.axesUpdated && !s.st.leaving, v := v } := by
    split
    · rename_i hl; exact ⟨s.v, by simp [hl]⟩
    · rename_i hl
      exact ⟨_, by rw [bits_same s.st (by simpa using hl)]; rfl⟩
  generalize (if s.st.leaving = true then ({ s with st.axesUpdated := false }, s.v.axes) else s.notifyAxes cfg t) = r at hv ⊢
  obtain ⟨r1, r2⟩ := r
  obtain ⟨v, rfl⟩ := hv
  dsimp only
  obtain ⟨v', h', e⟩ := sendProxOut_state _ _ _
  refine ⟨v', h', e.trans ?_⟩
  obtain ⟨⟨axesUpdated, pressed, buttonsDown, released, toolUpdated, inContact, leaving, outOfProx, entering, enterContact,
    leaveContact, outOfRange⟩, w⟩ := s
  simp only [Pen.sendProxIn, Pen.sendTip, Pen.sendAxes, Pen.sendButtons, Bits.sent]
  cases entering <;> cases enterContact <;> cases leaveContact <;> cases leaving <;> cases axesUpdated <;> simp

/-- The events of a round. -/
theorem send_events (cfg : Cfg) (s : Pen) (t : Tool) :
    ∃ c₁ a₁ c₂ a₂ c₃ a₃ a₄, events (s.send cfg t).2 =
      (if s.st.entering then [.prox true ⟨t.key, false, c₁, a₁⟩] else []) ++
      (if s.st.enterContact then [.tip true ⟨t.key, true, c₂, a₁⟩]
       else if s.st.leaveContact then [.tip false ⟨t.key, false, c₂, a₁⟩]
       else if s.st.axesUpdated && !s.st.leaving && !s.st.entering then [.axis ⟨t.key, s.st.inContact, c₃, a₁⟩] else []) ++
      (if s.st.released then (codes.filter (fun c => s.prevButtons c && !s.buttons c)).map
        (fun c => .button c false ⟨t.key, s.st.sent.inContact, [], a₂⟩) else []) ++
      (if s.st.pressed then (codes.filter (fun c => s.buttons c && !s.prevButtons c)).map
        (fun c => .button c true ⟨t.key, s.st.sent.inContact, [], a₃⟩) else []) ++
      (if s.st.leaving then [.prox false ⟨t.key, false, [], a₄⟩] else []) := by
  unfold Pen.send
  dsimp only
  have hv : ∃ v, (if s.st.leaving = true then ({ s with st.axesUpdated := false }, s.v.axes) else s.notifyAxes cfg t).1
      = { s with st.axesUpdated := s.st.axesUpdated && !s.st.leaving, v := v } := by
    split
    · rename_i hl; exact ⟨s.v, by simp [hl]⟩
    · rename_i hl
      exact ⟨_, by rw [bits_same s.st (by simpa using hl)]; rfl⟩
  generalize (if s.st.leaving = true then ({ s with st.axesUpdated := false }, s.v.axes) else s.notifyAxes cfg t) = r at hv ⊢
  obtain ⟨r1, r2⟩ := r
  obtain ⟨v, rfl⟩ := hv
  dsimp only
  rw [events_append, events_map, sendProxOut_events]
  obtain ⟨⟨axesUpdated, pressed, buttonsDown, released, toolUpdated, inContact, leaving, outOfProx, entering, enterContact,
    leaveContact, outOfRange⟩, w⟩ := s
  simp only [Pen.sendProxIn, Pen.sendTip, Pen.sendAxes, Pen.sendButtons, Pen.buttonEvents, Bits.sent]
  refine ⟨v.changed, r2, if entering then [] else v.changed, v.axes, if entering then [] else v.changed, v.axes, r2, ?_⟩
  cases entering <;> cases enterContact <;> cases leaveContact <;> cases leaving <;> cases axesUpdated <;> simp

end Libinput.Tablet
