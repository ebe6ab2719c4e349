import Verif.Tools.Spec
/-
What a new tool can do.
-/
namespace Libinput.Tools

theorem copyAxis_axes (b : Tablet) (a : Axis) (t : Tool) (x : Axis) :
    (copyAxis b a t).axes x = (t.axes x || (b.caps a && decide (x = a))) := by
  unfold copyAxis; cases h : b.caps a <;> simp [Tool.setAxis]

theorem copyAxis_rest (b : Tablet) (a : Axis) (t : Tool) :
    (copyAxis b a t).obj = t.obj ∧ (copyAxis b a t).kind = t.kind ∧ (copyAxis b a t).serial = t.serial ∧
    (copyAxis b a t).toolId = t.toolId ∧ (copyAxis b a t).buttons = t.buttons ∧
    (copyAxis b a t).lower = t.lower ∧ (copyAxis b a t).upper = t.upper ∧ (copyAxis b a t).offset = t.offset := by
  unfold copyAxis; cases h : b.caps a <;> simp [Tool.setAxis]

theorem setAxis_rest (a : Axis) (t : Tool) :
    (t.setAxis a).obj = t.obj ∧ (t.setAxis a).kind = t.kind ∧ (t.setAxis a).serial = t.serial ∧
    (t.setAxis a).toolId = t.toolId ∧ (t.setAxis a).buttons = t.buttons ∧
    (t.setAxis a).lower = t.lower ∧ (t.setAxis a).upper = t.upper ∧ (t.setAxis a).offset = t.offset := by
  simp [Tool.setAxis]

theorem copyButton_buttons (b : Tablet) (c : Nat) (t : Tool) (x : Nat) :
    (copyButton b c t).buttons x = (t.buttons x || (b.dev.key c && decide (x = c))) := by
  unfold copyButton; cases h : b.dev.key c <;> simp [Tool.setButton]

theorem copyButton_rest (b : Tablet) (c : Nat) (t : Tool) :
    (copyButton b c t).obj = t.obj ∧ (copyButton b c t).kind = t.kind ∧ (copyButton b c t).serial = t.serial ∧
    (copyButton b c t).toolId = t.toolId ∧ (copyButton b c t).axes = t.axes ∧
    (copyButton b c t).lower = t.lower ∧ (copyButton b c t).upper = t.upper ∧ (copyButton b c t).offset = t.offset := by
  unfold copyButton; cases h : b.dev.key c <;> simp [Tool.setButton]

theorem copyPuck_rest (b : Tablet) (n : Nat) (t : Tool) :
    (copyPuckButtons b n t).obj = t.obj ∧ (copyPuckButtons b n t).kind = t.kind ∧
    (copyPuckButtons b n t).serial = t.serial ∧
    (copyPuckButtons b n t).toolId = t.toolId ∧ (copyPuckButtons b n t).axes = t.axes ∧
    (copyPuckButtons b n t).lower = t.lower ∧ (copyPuckButtons b n t).upper = t.upper ∧
    (copyPuckButtons b n t).offset = t.offset := by
  induction n with
  | zero => simp [copyPuckButtons]
  | succ n ih => simp only [copyPuckButtons, copyButton_rest]; exact ih

theorem copyPuck_buttons (b : Tablet) (n : Nat) (t : Tool) (x : Nat) :
    (copyPuckButtons b n t).buttons x = true ↔
      t.buttons x = true ∨ (b.dev.key x = true ∧ btnLeft ≤ x ∧ x < btnLeft + n) := by
  induction n with
  | zero => simp [copyPuckButtons]; omega
  | succ n ih =>
    simp only [copyPuckButtons, copyButton_buttons, Bool.or_eq_true, ih, Bool.and_eq_true, decide_eq_true_eq]
    constructor
    · rintro ((h | h) | ⟨h, rfl⟩)
      · exact .inl h
      · exact .inr ⟨h.1, h.2.1, by omega⟩
      · exact .inr ⟨h, by omega, by omega⟩
    · rintro (h | ⟨h, h1, h2⟩)
      · exact .inl (.inl h)
      · rcases Nat.lt_or_ge x (btnLeft + n) with g | g
        · exact .inl (.inr ⟨h, h1, g⟩)
        · have : x = btnLeft + n := by omega
          subst this; exact .inr ⟨h, rfl⟩

/-- Everything but the axes and buttons. -/
def Same (t u : Tool) : Prop :=
  t.obj = u.obj ∧ t.kind = u.kind ∧ t.serial = u.serial ∧ t.toolId = u.toolId ∧ t.lower = u.lower ∧
  t.upper = u.upper ∧ t.offset = u.offset

theorem Same.refl (t : Tool) : Same t t := ⟨rfl, rfl, rfl, rfl, rfl, rfl, rfl⟩
theorem Same.trans {t u v : Tool} (h : Same t u) (g : Same u v) : Same t v := by
  obtain ⟨a1, a2, a3, a4, a5, a6, a7⟩ := h
  obtain ⟨b1, b2, b3, b4, b5, b6, b7⟩ := g
  exact ⟨a1.trans b1, a2.trans b2, a3.trans b3, a4.trans b4, a5.trans b5, a6.trans b6, a7.trans b7⟩

theorem same_copyAxis (b : Tablet) (a : Axis) (t : Tool) : Same (copyAxis b a t) t := by
  have := copyAxis_rest b a t; simp [Same, this]
theorem same_setAxis (a : Axis) (t : Tool) : Same (t.setAxis a) t := by
  simp [Same, Tool.setAxis]
theorem same_copyButton (b : Tablet) (c : Nat) (t : Tool) : Same (copyButton b c t) t := by
  have := copyButton_rest b c t; simp [Same, this]
theorem same_puck (b : Tablet) (n : Nat) (t : Tool) : Same (copyPuckButtons b n t) t := by
  have := copyPuck_rest b n t; simp [Same, this]
theorem same_ite (c : Prop) [Decidable c] (t u v : Tool) (h : Same t v) (g : Same u v) :
    Same (if c then t else u) v := by
  split <;> assumption

theorem same_setKnown (b : Tablet) (s : Stylus) (t : Tool) : Same (setKnown b s t) t := by
  have A := fun a t => same_copyAxis b a t
  have B := fun a t => same_copyButton b a t
  unfold setKnown
  refine Same.trans (same_ite _ _ _ _ (A _ _) (.refl _)) ?_
  refine Same.trans (same_ite _ _ _ _ (A _ _) (.refl _)) ?_
  refine Same.trans (same_ite _ _ _ _ (A _ _) (.refl _)) ?_
  refine Same.trans (same_ite _ _ _ _ (A _ _) (.refl _)) ?_
  refine Same.trans (same_ite _ _ _ _ (same_ite _ _ _ _ (same_setAxis _ _) ((A _ _).trans (A _ _))) (.refl _)) ?_
  refine Same.trans (same_ite _ _ _ _ (A _ _) (.refl _)) ?_
  refine same_ite _ _ _ _ (same_puck b _ t) ?_
  exact Same.trans (same_ite _ _ _ _ (B _ _) (.refl _)) (same_ite _ _ _ _ (B _ _) (.refl _))

theorem same_penAxes (b : Tablet) (t : Tool) : Same (penAxes b t) t := by
  have A := fun a t => same_copyAxis b a t
  unfold penAxes
  refine Same.trans (same_ite _ _ _ _ (A _ _) (.refl _)) ?_
  exact (A _ _).trans ((A _ _).trans ((A _ _).trans ((A _ _).trans (A _ _))))

theorem same_mouseAxes (b : Tablet) (t : Tool) : Same (mouseAxes b t) t :=
  (same_copyAxis b _ _).trans (same_copyAxis b _ _)

theorem same_penButtons (b : Tablet) (t : Tool) : Same (penButtons b t) t :=
  (same_copyButton b _ _).trans (same_copyButton b _ _)

theorem same_mouseButtons (b : Tablet) (t : Tool) : Same (mouseButtons b t) t := by
  have A := fun a t => same_copyButton b a t
  exact (A _ _).trans ((A _ _).trans ((A _ _).trans ((A _ _).trans (A _ _))))

theorem same_setUnknown (b : Tablet) (t : Tool) : Same (setUnknown b t) t := by
  have hp := same_penAxes b t
  have hm := same_mouseAxes b t
  have hp' := hp.2.1
  have hm' := hm.2.1
  unfold setUnknown
  cases h : t.kind <;> simp only [h] at hp' hm' <;> simp only [h, hp', hm']
  · exact (same_penButtons b _).trans hp
  · exact (same_penButtons b _).trans hp
  · exact (same_penButtons b _).trans hp
  · exact (same_penButtons b _).trans hp
  · exact (same_penButtons b _).trans hp
  · exact (same_mouseButtons b _).trans hm
  · exact (same_mouseButtons b _).trans hm
  · exact .refl _

theorem same_setBits (db : Nat → Option Stylus) (b : Tablet) (t : Tool) : Same (setBits db b t) t := by
  have h : Same (copyAxis b .y (copyAxis b .x t)) t := (same_copyAxis b _ _).trans (same_copyAxis b _ _)
  unfold setBits
  simp only
  split
  · exact (same_setKnown b _ _).trans h
  · exact (same_setUnknown b _).trans h

theorem setThresholds_rest (b : Tablet) (t : Tool) :
    (setThresholds b t).obj = t.obj ∧ (setThresholds b t).kind = t.kind ∧ (setThresholds b t).serial = t.serial ∧
    (setThresholds b t).toolId = t.toolId ∧ (setThresholds b t).axes = t.axes ∧
    (setThresholds b t).buttons = t.buttons := by
  unfold setThresholds
  cases b.dev.abs absPressure with
  | none => simp
  | some r =>
    simp only
    cases b.dev.quirk with
    | none => simp
    | some q => obtain ⟨lo, hi⟩ := q; simp only; split <;> simp

theorem newTool_basic (db : Nat → Option Stylus) (b : Tablet) (o : Nat) (k : Kind) (id n : Nat) :
    (newTool db b o k id n).obj = o ∧ (newTool db b o k id n).kind = k ∧ (newTool db b o k id n).serial = n ∧
    (newTool db b o k id n).toolId = id := by
  obtain ⟨h1, h2, h3, h4, -⟩ := same_setBits db b (setThresholds b (blank o k id n))
  obtain ⟨g1, g2, g3, g4, -⟩ := setThresholds_rest b (blank o k id n)
  exact ⟨h1.trans g1, h2.trans g2, h3.trans g3, h4.trans g4⟩

theorem newTool_pressure (db : Nat → Option Stylus) (b : Tablet) (o : Nat) (k : Kind) (id n : Nat) :
    (newTool db b o k id n).lower = (setThresholds b (blank o k id n)).lower ∧
    (newTool db b o k id n).upper = (setThresholds b (blank o k id n)).upper ∧
    (newTool db b o k id n).offset = (setThresholds b (blank o k id n)).offset :=
  (same_setBits db b (setThresholds b (blank o k id n))).2.2.2.2

theorem caps_can (d : Device) (a : Axis) : d.hasAxis a = true ↔ Spec.CanReport d a := by
  cases a <;> simp [Device.hasAxis, Spec.CanReport, Device.has, Axis.code, absX, absY, absZ, absWheel, absPressure,
    absDistance, absTiltX, absTiltY, absMajor, absMinor, btnToolMouse, Bool.or_eq_true, and_assoc, or_comm]

/-- The axes of a new tool. -/
theorem ite_axes (c : Prop) [Decidable c] (t u : Tool) (x : Axis) :
    (if c then t else u).axes x = if c then t.axes x else u.axes x := by split <;> rfl

theorem ite_axes' (c : Prop) [Decidable c] (t u : Tool) :
    (if c then t else u).axes = if c then t.axes else u.axes := by split <;> rfl

theorem ite_buttons (c : Prop) [Decidable c] (t u : Tool) (x : Nat) :
    (if c then t else u).buttons x = if c then t.buttons x else u.buttons x := by split <;> rfl

theorem ite_buttons' (c : Prop) [Decidable c] (t u : Tool) :
    (if c then t else u).buttons = if c then t.buttons else u.buttons := by split <;> rfl

theorem setAxis_axes (t : Tool) (a x : Axis) : (t.setAxis a).axes x = (t.axes x || decide (x = a)) := rfl

theorem setKnown_axes (b : Tablet) (s : Stylus) (t : Tool) (ht : t.axes = fun x =>
      (b.caps .x && decide (x = .x)) || (b.caps .y && decide (x = .y)))
    (hc : ∀ a, b.caps a = true ↔ Spec.CanReport b.dev a) (a : Axis) :
    (setKnown b s t).axes a = true ↔ Spec.KnownAxis b.dev s a := by
  obtain ⟨u, hu⟩ : ∃ u, (if s.puck then copyPuckButtons b s.buttons.toNat t
    else
      let t := if s.buttons ≥ 2 then copyButton b btnStylus2 t else t
      if s.buttons ≥ 1 then copyButton b btnStylus t else t) = u := ⟨_, rfl⟩
  have hua : u.axes = t.axes := by
    rw [← hu]
    simp only [ite_axes', copyPuck_rest, copyButton_rest, ite_self]
  unfold setKnown
  rw [hu]
  simp only [ite_axes, copyAxis_axes, setAxis_axes, hua, ht]
  cases a <;> simp [Spec.KnownAxis, ← hc] <;> grind

theorem setUnknown_axes (b : Tablet) (t : Tool) (ht : t.axes = fun x =>
      (b.caps .x && decide (x = .x)) || (b.caps .y && decide (x = .y)))
    (hc : ∀ a, b.caps a = true ↔ Spec.CanReport b.dev a) (a : Axis) :
    (setUnknown b t).axes a = true ↔ Spec.UnknownAxis b.dev t.kind a := by
  have hp := (same_penAxes b t).2.1
  have hm := (same_mouseAxes b t).2.1
  have hz : b.dev.has absZ = (b.dev.abs 0x02).isSome := rfl
  have hcr : b.dev.has absZ = true → b.caps .rotation = true := by
    intro h; rw [hc]; exact .inl h
  unfold setUnknown
  cases h : t.kind <;> simp only [h] at hp hm <;> simp only [h, hp, hm] <;>
    cases a <;>
    simp [Spec.UnknownAxis, Spec.Drawing, Spec.Cursor, ← hc, ← hz, penButtons, mouseButtons, penAxes, mouseAxes, ite_axes,
      copyAxis_axes, copyButton_rest, ht] <;> grind

theorem new_axes (db : Nat → Option Stylus) (b : Tablet) (hb : b.caps = b.dev.hasAxis) (o : Nat) (k : Kind) (id n : Nat)
    (a : Axis) : (newTool db b o k id n).axes a = true ↔ Spec.HasAxis db b.dev k id a := by
  have hc : ∀ a, b.caps a = true ↔ Spec.CanReport b.dev a := by intro a; rw [hb]; exact caps_can _ _
  obtain ⟨-, g2, -, g4, g5, -⟩ := setThresholds_rest b (blank o k id n)
  have ht : (copyAxis b .y (copyAxis b .x (setThresholds b (blank o k id n)))).axes = fun x =>
      (b.caps .x && decide (x = .x)) || (b.caps .y && decide (x = .y)) := by
    funext x; simp only [copyAxis_axes, g5]; simp [blank]
  unfold newTool setBits Spec.HasAxis
  simp only [copyAxis_rest, g4]
  show (match db id with | some s => _ | none => _ : Tool).axes a = true ↔ _
  cases hd : db id with
  | some s => exact setKnown_axes b s _ ht hc a
  | none =>
    have := setUnknown_axes b _ ht hc a
    simp only [copyAxis_rest, g2] at this
    exact this

theorem setKnown_buttons (b : Tablet) (s : Stylus) (t : Tool) (ht : t.buttons = fun _ => false) (c : Nat) :
    (setKnown b s t).buttons c = true ↔
      (b.dev.key c = true ∧
        ((s.puck = true ∧ 0x110 ≤ c ∧ (c : Int) < 0x110 + s.buttons) ∨
         (s.puck = false ∧ ((c = 0x14b ∧ s.buttons ≥ 1) ∨ (c = 0x14c ∧ s.buttons ≥ 2))))) := by
  obtain ⟨u, hu⟩ : ∃ u, (if s.puck then copyPuckButtons b s.buttons.toNat t
    else
      let t := if s.buttons ≥ 2 then copyButton b btnStylus2 t else t
      if s.buttons ≥ 1 then copyButton b btnStylus t else t) = u := ⟨_, rfl⟩
  have e : (setKnown b s t).buttons = u.buttons := by
    unfold setKnown
    rw [hu]
    simp only [ite_buttons', copyAxis_rest, setAxis_rest, ite_self]
  rw [e, ← hu]
  cases hp : s.puck with
  | true =>
    simp only [if_true, copyPuck_buttons, ht, btnLeft]
    simp
    intro _ _; omega
  | false =>
    simp only [ite_buttons, copyButton_buttons, ht, btnStylus, btnStylus2, Bool.false_eq_true, if_false]
    by_cases h1 : s.buttons ≥ 1 <;> by_cases h2 : s.buttons ≥ 2 <;> simp [h1, h2] <;> grind

theorem setUnknown_buttons (b : Tablet) (t : Tool) (ht : t.buttons = fun _ => false) (c : Nat) :
    (setUnknown b t).buttons c = true ↔
      (b.dev.key c = true ∧
        ((Spec.Drawing t.kind ∧ (c = 0x14b ∨ c = 0x14c)) ∨ (Spec.Cursor t.kind ∧ 0x110 ≤ c ∧ c ≤ 0x114))) := by
  have hp := (same_penAxes b t).2.1
  have hm := (same_mouseAxes b t).2.1
  unfold setUnknown
  cases h : t.kind <;> simp only [h] at hp hm <;> simp only [h, hp, hm] <;>
    simp [Spec.Drawing, Spec.Cursor, penButtons, mouseButtons, penAxes, mouseAxes, ite_buttons',
      copyAxis_rest, copyButton_buttons, ht, btnStylus, btnStylus2, btnLeft, btnRight, btnMiddle, btnSide, btnExtra] <;>
    grind

theorem new_buttons (db : Nat → Option Stylus) (b : Tablet) (o : Nat) (k : Kind) (id n : Nat)
    (c : Nat) : (newTool db b o k id n).buttons c = true ↔ Spec.HasButton db b.dev k id c := by
  obtain ⟨-, g2, -, g4, -, g6⟩ := setThresholds_rest b (blank o k id n)
  have ht : (copyAxis b .y (copyAxis b .x (setThresholds b (blank o k id n)))).buttons = fun _ => false := by
    simp only [copyAxis_rest, g6]; rfl
  unfold newTool setBits Spec.HasButton
  simp only [copyAxis_rest, g4]
  show (match db id with | some s => _ | none => _ : Tool).buttons c = true ↔ _
  cases hd : db id with
  | some s => exact setKnown_buttons b s _ ht c
  | none =>
    have := setUnknown_buttons b _ ht c
    simp only [copyAxis_rest, g2] at this
    exact this

/-- A new tool depends on the device only. -/
theorem newTool_dev (db : Nat → Option Stylus) (b b' : Tablet) (hb : b.caps = b'.caps) (hd : b.dev = b'.dev) (o : Nat)
    (k : Kind) (id n : Nat) : newTool db b o k id n = newTool db b' o k id n := by
  have hA : copyAxis b = copyAxis b' := by funext a t; simp only [copyAxis, hb]
  have hB : copyButton b = copyButton b' := by funext a t; simp only [copyButton, hd]
  have hP : copyPuckButtons b = copyPuckButtons b' := by
    funext n t
    induction n with
    | zero => rfl
    | succ n ih => simp only [copyPuckButtons, ih, hB]
  have hT : setThresholds b = setThresholds b' := by funext t; simp only [setThresholds, hd]
  have hK : setKnown b = setKnown b' := by funext s t; simp only [setKnown, hA, hB, hP]
  have hU : setUnknown b = setUnknown b' := by
    funext t; simp only [setUnknown, penAxes, penButtons, mouseAxes, mouseButtons, hA, hB, hd]
  simp only [newTool, setBits, hA, hT, hK, hU]

end Libinput.Tools
