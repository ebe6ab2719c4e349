import Verif.Tablet.Control
/-
The events of one round continue a sensible stream.
-/
namespace Libinput.Tablet

theorem follow_append (v : Option View) (a b : List Ev) : follow v (a ++ b) = (follow v a).bind (fun v' => follow v' b) := by
  induction a generalizing v with
  | nil => rfl
  | cons e a ih =>
    simp only [List.cons_append, follow]
    cases next v e with
    | none => rfl
    | some v' => exact ih v'

theorem follow_ups (w : View) (a : Axes) (l : List Nat) (nd : l.Nodup) (hl : ∀ c ∈ l, c ∈ w.held) :
    ∃ h, follow (some w) (l.map (fun c => .button c false ⟨w.tool, w.tip, [], a⟩)) = some (some { w with held := h })
      ∧ ∀ c, c ∈ h ↔ c ∈ w.held ∧ c ∉ l := by
  induction l generalizing w with
  | nil => exact ⟨w.held, rfl, by simp⟩
  | cons x l ih =>
    have nx := List.nodup_cons.1 nd
    obtain ⟨h, e, m⟩ := ih { w with held := w.held.filter (· != x) } nx.2 (by
      intro c hc
      have hne : c ≠ x := by rintro rfl; exact nx.1 hc
      simp [hl c (by simp [hc]), hne])
    refine ⟨h, ?_, ?_⟩
    · simp only [List.map_cons, follow, next]
      simp only [hl x (by simp), if_true, and_self, Bool.false_eq_true, if_false]
      exact e
    · intro c
      rw [m c]
      simp only [List.mem_filter, bne_iff_ne, ne_eq, List.mem_cons, not_or]
      grind

theorem follow_downs (w : View) (a : Axes) (l : List Nat) (nd : l.Nodup) (hl : ∀ c ∈ l, c ∉ w.held) :
    ∃ h, follow (some w) (l.map (fun c => .button c true ⟨w.tool, w.tip, [], a⟩)) = some (some { w with held := h })
      ∧ ∀ c, c ∈ h ↔ c ∈ w.held ∨ c ∈ l := by
  induction l generalizing w with
  | nil => exact ⟨w.held, rfl, by simp⟩
  | cons x l ih =>
    have nx := List.nodup_cons.1 nd
    obtain ⟨h, e, m⟩ := ih { w with held := x :: w.held } nx.2 (by
      intro c hc
      have hne : c ≠ x := by rintro rfl; exact nx.1 hc
      simp [hl c (by simp [hc]), hne])
    refine ⟨h, ?_, ?_⟩
    · simp only [List.map_cons, follow, next]
      simp only [hl x (by simp), if_true, and_self, if_false]
      exact e
    · intro c
      rw [m c]
      simp only [List.mem_cons]
      grind

theorem codes_nodup (f : Nat → Bool) : (codes.filter f).Nodup := (List.nodup_range).filter f

/-- The buttons a round reports as released, and those it reports as pressed. -/
def Pen.ups (s : Pen) (c : Nat) : Bool := s.st.released && s.prevButtons c && !s.buttons c
def Pen.downs (s : Pen) (c : Nat) : Bool := s.st.pressed && s.buttons c && !s.prevButtons c

/-- The state right before the events of a round are sent, when the client's view is `w`. -/
structure Ready (s : Pen) (w : View) : Prop where
  tip : w.tip = s.st.inContact
  small : ∀ c, s.buttons c = true ∨ s.prevButtons c = true → c < 768
  enter : s.st.enterContact = true → s.st.inContact = false ∧ s.st.leaveContact = false
  leave : s.st.leaveContact = true → s.st.inContact = true
  up : ∀ c, s.ups c = true → c ∈ w.held
  down : ∀ c, s.downs c = true → c ∉ w.held
  held : ∀ c, s.buttons c = true ↔ (c ∈ w.held ∧ s.ups c = false) ∨ s.downs c = true
  gone : s.st.leaving = true →
    s.st.enterContact = false ∧ (∀ c, s.buttons c = false) ∧ (s.st.inContact = true → s.st.leaveContact = true)

/-- What the client knows after the round. -/
def After (s : Pen) (i : ToolId) : Option View → Prop
  | none => s.st.leaving = true
  | some w => s.st.leaving = false ∧ w.tool = i ∧ w.tip = s.st.sent.inContact ∧ ∀ c, c ∈ w.held ↔ s.buttons c = true

theorem buttons_follow (s : Pen) (w : View) (a₂ a₃ : Axes) (ht : w.tip = s.st.sent.inContact)
    (small : ∀ c, s.buttons c = true ∨ s.prevButtons c = true → c < 768)
    (up : ∀ c, s.ups c = true → c ∈ w.held) (down : ∀ c, s.downs c = true → c ∉ w.held)
    (held : ∀ c, s.buttons c = true ↔ (c ∈ w.held ∧ s.ups c = false) ∨ s.downs c = true) :
    ∃ h, follow (some w)
      ((if s.st.released then (codes.filter (fun c => s.prevButtons c && !s.buttons c)).map
        (fun c => .button c false ⟨w.tool, s.st.sent.inContact, [], a₂⟩) else []) ++
      (if s.st.pressed then (codes.filter (fun c => s.buttons c && !s.prevButtons c)).map
        (fun c => .button c true ⟨w.tool, s.st.sent.inContact, [], a₃⟩) else [])) = some (some { w with held := h }) ∧
      ∀ c, c ∈ h ↔ s.buttons c = true := by
  have eu : (if s.st.released then (codes.filter (fun c => s.prevButtons c && !s.buttons c)).map
        (fun c => Ev.button c false ⟨w.tool, s.st.sent.inContact, [], a₂⟩) else [])
      = (codes.filter s.ups).map (fun c => Ev.button c false ⟨w.tool, w.tip, [], a₂⟩) := by
    rw [ht]
    unfold Pen.ups
    cases s.st.released <;> simp
  have ed : (if s.st.pressed then (codes.filter (fun c => s.buttons c && !s.prevButtons c)).map
        (fun c => Ev.button c true ⟨w.tool, s.st.sent.inContact, [], a₃⟩) else [])
      = (codes.filter s.downs).map (fun c => Ev.button c true ⟨w.tool, w.tip, [], a₃⟩) := by
    rw [ht]
    unfold Pen.downs
    cases s.st.pressed <;> simp
  rw [eu, ed, follow_append]
  obtain ⟨h, e, m⟩ := follow_ups w a₂ (codes.filter s.ups) (codes_nodup _)
    (by intro c hc; exact up c (List.mem_filter.1 hc).2)
  rw [e, Option.bind_some]
  obtain ⟨h', e', m'⟩ := follow_downs { w with held := h } a₃ (codes.filter s.downs) (codes_nodup _)
    (by intro c hc; simp only [m c]; intro h1; exact down c (List.mem_filter.1 hc).2 h1.1)
  refine ⟨h', e', fun c => ?_⟩
  rw [m' c, held c]
  simp only [m c, List.mem_filter, codes, List.mem_range]
  have sm1 : s.ups c = true → c < 768 := by
    intro h1; unfold Pen.ups at h1; exact small c (.inr (by grind))
  have sm2 : s.downs c = true → c < 768 := by
    intro h1; unfold Pen.downs at h1; exact small c (.inl (by grind))
  grind

/-- A round of a tool that the client knows to be there, or that is just coming. -/
theorem send_follow (cfg : Cfg) (s : Pen) (t : Tool) (v : Option View) (w : View) (hw : w.tool = t.key)
    (r : Ready s w)
    (hv : (v = some w ∧ s.st.entering = false) ∨ (v = none ∧ s.st.entering = true ∧ w.tip = false ∧ w.held = [])) :
    ∃ v', follow v (events (s.send cfg t).2) = some v' ∧ After s t.key v' := by
  obtain ⟨c₁, a₁, c₂, a₂, c₃, a₃, a₄, e⟩ := send_events cfg s t
  rw [e]
  clear e
  -- after the proximity-in
  have h1 : ∃ w', w'.tool = t.key ∧ Ready s w' ∧
      follow v (if s.st.entering then [.prox true ⟨t.key, false, c₁, a₁⟩] else []) = some (some w') := by
    rcases hv with ⟨rfl, he⟩ | ⟨rfl, he, hc, hb⟩
    · exact ⟨w, hw, r, by simp [he, follow]⟩
    · refine ⟨w, hw, r, ?_⟩
      obtain ⟨wt, wp, wh⟩ := w
      dsimp only at hw hc hb
      subst hw hc hb
      simp [he, follow, next]
  clear r hw hv
  obtain ⟨⟨wt, wp, wh⟩, hw', r, e1⟩ := h1
  dsimp only at hw'
  subst hw'
  -- after the tip or the axes
  have h2 : follow (some ⟨t.key, wp, wh⟩) (if s.st.enterContact then [.tip true ⟨t.key, true, c₂, a₁⟩]
       else if s.st.leaveContact then [.tip false ⟨t.key, false, c₂, a₁⟩]
       else if s.st.axesUpdated && !s.st.leaving && !s.st.entering then [.axis ⟨t.key, s.st.inContact, c₃, a₁⟩] else [])
      = some (some ⟨t.key, s.st.sent.inContact, wh⟩) := by
    have rt : wp = s.st.inContact := r.tip
    simp only [Bits.sent]
    split
    · rename_i he
      obtain ⟨h1, h2⟩ := r.enter he
      simp [follow, next, rt, h1, he]
    · rename_i he
      split
      · rename_i hl
        have h1 := r.leave hl
        simp [follow, next, rt, h1, he, hl]
      · rename_i hl
        simp only [Bool.not_eq_true] at he hl
        split
        · simp [follow, next, rt, he, hl]
        · simp [follow, rt, he, hl]
  obtain ⟨h, e3, m⟩ := buttons_follow s ⟨t.key, s.st.sent.inContact, wh⟩ a₂ a₃ rfl r.small r.up r.down r.held
  rw [follow_append, List.append_assoc, List.append_assoc, follow_append, e1, Option.bind_some, follow_append, h2, Option.bind_some, e3,
    Option.bind_some]
  split
  · rename_i hl
    obtain ⟨g1, g2, g3⟩ := r.gone hl
    have hh : h = [] := by
      cases h with
      | nil => rfl
      | cons x h => have := (m x).1 (by simp); simp [g2 x] at this
    have ht : s.st.sent.inContact = false := by
      simp only [Bits.sent, g1, Bool.false_or]
      cases hi : s.st.inContact
      · rfl
      · simp [g3 hi]
    exact ⟨none, by simp [follow, next, hh, ht], hl⟩
  · rename_i hl
    exact ⟨_, rfl, by simpa using hl, rfl, rfl, m⟩

end Libinput.Tablet
