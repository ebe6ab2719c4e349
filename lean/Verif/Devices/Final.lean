import Verif.Devices.Fallback
/-
The device as it is when it is made.
-/
namespace Libinput.Devices
open Libinput.Strings Libinput.Parsers Spec

/-- Everything but capabilities and tags of a device that goes to the fallback. -/
structure Kept (d d' : Dev) : Prop where
  abs : d'.k.abs = d.k.abs
  has : ∀ t c, t ≠ 5 → d'.k.has t c = d.k.has t c
  axes : d'.axes = d.axes
  fake : d'.fake = d.fake
  slots : d'.k.slots = d.k.slots

theorem Kept.refl (d : Dev) : Kept d d := ⟨rfl, fun _ _ _ => rfl, rfl, rfl, rfl⟩

theorem Kept.trans {a b c : Dev} (h : Kept a b) (h' : Kept b c) : Kept a c :=
  ⟨h'.abs.trans h.abs, fun t x ht => (h'.has t x ht).trans (h.has t x ht), h'.axes.trans h.axes, h'.fake.trans h.fake,
    h'.slots.trans h.slots⟩

theorem TagOnly.kept {a b : Dev} (h : TagOnly a b) : Kept a b := by
  obtain ⟨T, rfl⟩ := h
  exact ⟨rfl, fun _ _ _ => rfl, rfl, rfl, rfl⟩

theorem setupMouse_kept (C : Conv) (q : Quirks) (p : Props) (ts : Tag → Bool) (d : Dev) :
    Kept d (setupMouse C q p ts d) := by
  unfold setupMouse
  split
  · have h := ((tagExternalMouse_only d).trans (tagTrackpoint_only q p (tagExternalMouse d))).kept
    exact ⟨h.abs, h.has, h.axes, h.fake, h.slots⟩
  · exact Kept.refl d

theorem setupKeyboard_kept (q : Quirks) (ts : Tag → Bool) (d : Dev) : Kept d (setupKeyboard q ts d) := by
  unfold setupKeyboard
  split
  · simp only
    have h : Kept d (if (d.cap .keyboard).k.has 2 8 || (d.cap .keyboard).k.has 2 6 then
      ({ d.cap .keyboard with natural := true } : Dev).cap .pointer else d.cap .keyboard) := by
      split <;> exact ⟨rfl, fun _ _ _ => rfl, rfl, rfl, rfl⟩
    exact h.trans (tagKeyboard_only q _).kept
  · exact Kept.refl d

theorem setupSwitch_kept (q : Quirks) (ts : Tag → Bool) (d : Dev) : Kept d (setupSwitch q ts d) := by
  obtain ⟨h1, h2, h3, -, -, h6, -⟩ := setupSwitch_spec q ts d
  refine ⟨h1, ?_, h6, ?_, h2⟩
  · intro t c ht
    rw [h3]
    have ht' : (t == 5) = false := by simp [ht]
    simp [ht']
  · unfold setupSwitch
    split
    · simp only
      repeat' split
      all_goals rfl
    · rfl

theorem other_final {i : In} {ts : Tag → Bool} {d d' : Dev} (h : (configureOther i ts d).1 = some d') :
    Kept d d' ∧ d'.k.has 5 0 = d.k.has 5 0 ∧
      d'.k.has 5 1 = (d.k.has 5 1 && !(ts .switch && i.quirks.tabletModeUnreliable)) ∧
      d'.mtdev = (d.mtdev || needMtdev d'.k) := by
  unfold configureOther at h
  simp only at h
  have k1 := setupMouse_kept i.conv i.quirks i.props ts d
  have e1 := (setupMouse_spec i.conv i.quirks i.props ts d).1
  have m1 := (setupMouse_spec i.conv i.quirks i.props ts d).2.2.1
  generalize setupMouse i.conv i.quirks i.props ts d = d1 at h k1 e1 m1
  have k2 := setupKeyboard_kept i.quirks ts d1
  have e2 := (setupKeyboard_spec i.quirks ts d1).1
  have m2 := (setupKeyboard_spec i.quirks ts d1).2.2.1
  generalize setupKeyboard i.quirks ts d1 = d2 at h k2 e2 m2
  obtain ⟨d3, hd3⟩ : ∃ d3, (if ts .touchscreen then d2.cap .touch else d2) = d3 := ⟨_, rfl⟩
  have k3 : Kept d2 d3 := by rw [← hd3]; split <;> exact ⟨rfl, fun _ _ _ => rfl, rfl, rfl, rfl⟩
  have e3 : d3.k = d2.k := by rw [← hd3]; split <;> rfl
  have m3 : d3.mtdev = d2.mtdev := by rw [← hd3]; split <;> rfl
  rw [hd3] at h
  have k4 := setupSwitch_kept i.quirks ts d3
  have e4 := (setupSwitch_spec i.quirks ts d3).2.2.1
  have m4 := (setupSwitch_spec i.quirks ts d3).2.2.2.2.1
  generalize setupSwitch i.quirks ts d3 = d4 at h k4 e4 m4
  obtain ⟨d5, hd5⟩ : ∃ d5, (if i.quirks.invertHorizontal then { d4 with invertH := true } else d4) = d5 := ⟨_, rfl⟩
  rw [hd5] at h
  have k5 : Kept d4 d5 := by rw [← hd5]; split <;> exact ⟨rfl, fun _ _ _ => rfl, rfl, rfl, rfl⟩
  have e5 : d5.k = d4.k := by rw [← hd5]; split <;> rfl
  have m5 : d5.mtdev = d4.mtdev := by rw [← hd5]; split <;> rfl
  obtain ⟨_, g2, g3, _, _, _, g7, _, g9⟩ := (fallbackCreate_spec i.mtdevOpens d5).2 d' h
  have k6 : Kept d5 d' := ⟨by rw [g2], fun _ _ _ => by rw [g2], g3, g7, by rw [g2]⟩
  refine ⟨((((k1.trans k2).trans k3).trans k4).trans k5).trans k6, ?_, ?_, ?_⟩
  · rw [g2, e5, e4, e3, e2, e1]; simp
  · rw [g2, e5, e4, e3, e2, e1]; simp
  · rw [g9, m5, m4, m3, m2, m1, g2]

/-- What becomes of a device that goes to the touchpad code. -/
structure Padded (q : Quirks) (p : Props) (d d' : Dev) : Prop where
  ends : ∀ c, (d'.k.abs c).min = (d.k.abs c).min ∧ (d'.k.abs c).max = (d.k.abs c).max ∧ (d'.k.abs c).fuzz = (d.k.abs c).fuzz
  real : d.fake = false → d'.k.abs = d.k.abs
  made : d.fake = true → ∀ c, d.k.has 3 c = true →
    (d'.k.abs c).res = if c = 0 ∨ c = 0x35 then d.dims.1.tdiv 69 else if c = 1 ∨ c = 0x36 then d.dims.2.tdiv 50 else (d.k.abs c).res
  other : ∀ t c, t ≠ 3 → d'.k.has t c = d.k.has t c
  fewer : ∀ c, d'.k.has 3 c = true → d.k.has 3 c = true
  x : d'.k.has 3 0 = d.k.has 3 0
  y : d'.k.has 3 1 = d.k.has 3 1
  axes : d'.axes = d.axes
  fake : d'.fake = false
  tags : d'.tags = (tagTouchpad q p d).tags
  dpi : ∀ x y, d.axes = some (x, y) → d'.dpi = ((d'.k.abs x).res * 254).tdiv 10
  slots : d'.k.slots = d.k.slots

theorem disableAbsMt_has (k : Kern) (t c : Nat) :
    (disableAbsMt k).has t c = (k.has t c && !(t == 3 && decide (0x2f ≤ c) && decide (c ≤ 0x3f))) := by
  unfold disableAbsMt Kern.has
  simp only
  cases k.type t <;> cases k.bit t c <;> cases (!(t == 3 && decide (0x2f ≤ c) && decide (c ≤ 0x3f))) <;> rfl

theorem touchpad_final {q : Quirks} {p : Props} {d d' : Dev} (h : touchpadCreate q p d = some d') : Padded q p d d' := by
  unfold touchpadCreate at h
  simp only at h
  obtain ⟨T, hT⟩ := tagTouchpad_keeps q p d
  have htags : (tagTouchpad q p d).tags = T := by rw [hT]
  rw [hT] at h
  have hok : touchpadOk d.k = true := by
    cases hx : touchpadOk d.k with
    | true => rfl
    | false => rw [if_pos (by simp [hx])] at h; cases h
  rw [if_neg (by simp [hok])] at h
  obtain ⟨d1, hd1⟩ : ∃ d1, defaultRes { d with tags := T } = d1 := ⟨_, rfl⟩
  rw [hd1] at h
  have hends : ∀ c, (d1.k.abs c).min = (d.k.abs c).min ∧ (d1.k.abs c).max = (d.k.abs c).max ∧ (d1.k.abs c).fuzz = (d.k.abs c).fuzz := by
    intro c
    rw [← hd1]
    unfold defaultRes
    split
    · exact ⟨rfl, rfl, rfl⟩
    · simp only [setRes_abs]
      refine ⟨?_, ?_, ?_⟩ <;> (repeat' split) <;> simp_all
  have hreal : d.fake = false → d1.k.abs = d.k.abs := by
    intro hf
    rw [← hd1]; unfold defaultRes
    rw [if_pos (by simp [hf])]
  have hmade : d.fake = true → ∀ c, d.k.has 3 c = true → (d1.k.abs c).res =
      if c = 0 ∨ c = 0x35 then d.dims.1.tdiv 69 else if c = 1 ∨ c = 0x36 then d.dims.2.tdiv 50 else (d.k.abs c).res := by
    intro hf c hc
    rw [← hd1]; unfold defaultRes
    rw [if_neg (by simp [hf])]
    simp only [setRes_abs, setRes_has]
    by_cases h0 : c = 0
    · subst h0; simp [hc]
    by_cases h1 : c = 1
    · subst h1; simp [hc]
    by_cases h2 : c = 0x35
    · subst h2; simp [hc]
    by_cases h3 : c = 0x36
    · subst h3; simp [hc]
    simp [h0, h1, h2, h3]
  obtain ⟨e1, -, -, e4, -, e6⟩ := defaultRes_keeps { d with tags := T }
  rw [hd1] at e1 e4 e6
  simp only at e1 e4 e6
  have hfake : d1.fake = false := by
    rw [← hd1]; unfold defaultRes
    cases hf : d.fake with
    | false => simp [hf]
    | true => simp [hf]
  have hslots : d1.k.slots = d.k.slots := by
    rw [← hd1]; unfold defaultRes
    split
    · rfl
    · simp
  obtain ⟨-, p2, p3⟩ := pressurepad_keeps d1.k
  have pfew : ∀ t c, (pressurepad d1.k).has t c = true → d1.k.has t c = true := by
    intro t c
    unfold pressurepad
    split
    · rw [disable_has _ _ _ _ _ (by decide), disable_has _ _ _ _ _ (by decide)]
      intro hx
      simp only [Bool.and_eq_true] at hx
      first | exact hx.1.1 | exact hx.2.2 | exact hx.1.2 | exact hx.2.1
    · exact id
  have pslots : (pressurepad d1.k).slots = d1.k.slots := by
    unfold pressurepad; split
    · simp
    · rfl
  obtain ⟨k2, hk2⟩ : ∃ k2, (if touchpadMt q (pressurepad d1.k) then pressurepad d1.k else disableAbsMt (pressurepad d1.k)) = k2 := ⟨_, rfl⟩
  have q1 : k2.abs = d1.k.abs := by
    rw [← hk2]; split
    · exact p2
    · exact p2
  have q2 : ∀ t c, ¬ (t = 3 ∧ (c = 0x18 ∨ 0x2f ≤ c)) → k2.has t c = d1.k.has t c := by
    intro t c hn
    have hp := p3 t c (fun hx => hn ⟨hx.1, by omega⟩)
    rw [← hk2]; split
    · exact hp
    · rw [disableAbsMt_has, hp]
      by_cases ht : t = 3
      · have : ¬ 0x2f ≤ c := fun hc => hn ⟨ht, Or.inr hc⟩
        simp [this]
      · have ht' : (t == 3) = false := by simp [ht]
        simp [ht']
  have q3 : ∀ t c, k2.has t c = true → d1.k.has t c = true := by
    intro t c
    rw [← hk2]; split
    · exact pfew t c
    · rw [disableAbsMt_has, Bool.and_eq_true]
      exact fun hx => pfew t c hx.1
  have q4 : k2.slots = d1.k.slots := by
    rw [← hk2]; split
    · exact pslots
    · exact pslots
  have hd' : d'.k = k2 ∧ d'.axes = d1.axes ∧ d'.fake = d1.fake ∧ d'.tags = d1.tags ∧
      d'.dpi = (match d1.axes with | some (x, _) => ((k2.abs x).res * 254).tdiv 10 | none => d1.dpi) := by
    simp only [Option.some.injEq] at h
    rw [← h, ← hk2]
    by_cases hm : touchpadMt q (pressurepad d1.k) = true
    · simp only [hm, if_true]
      split <;> exact ⟨rfl, rfl, rfl, rfl, rfl⟩
    · rw [Bool.not_eq_true] at hm
      simp only [hm, Bool.false_eq_true, if_false]
      split <;> exact ⟨rfl, rfl, rfl, rfl, rfl⟩
  obtain ⟨r1, r2, r3, r4, r5⟩ := hd'
  refine ⟨?_, ?_, ?_, ?_, ?_, ?_, ?_, ?_, ?_, ?_, ?_, ?_⟩
  · intro c; rw [r1, q1]; exact hends c
  · intro hf; rw [r1, q1]; exact hreal hf
  · intro hf c hc; rw [r1, q1]; exact hmade hf c hc
  · intro t c ht; rw [r1, q2 t c (fun hx => ht hx.1), e1]
  · intro c hc; rw [r1] at hc; rw [← e1]; exact q3 3 c hc
  · rw [r1, q2 3 0 (by omega), e1]
  · rw [r1, q2 3 1 (by omega), e1]
  · rw [r2, e6]
  · rw [r3, hfake]
  · rw [r4, e4, htags]
  · intro x y hxy
    rw [r5, e6, hxy, r1]
  · rw [r1, q4, hslots]

/-! ### Axes -/

/-- The axes of a device that is not a touchpad, or of one whose resolution is not made up. -/
theorem axes_of {i : In} {b : Bool} {v : View} {d d' : Dev} {kind : Kind} (h : Ready i b v d) (hu : Usable v)
    (hb : b = true ↔ Tagged i .touchpad ∨ Tagged i .touchscreen)
    (ends : ∀ c, (d'.k.abs c).min = (d.k.abs c).min ∧ (d'.k.abs c).max = (d.k.abs c).max ∧ (d'.k.abs c).fuzz = (d.k.abs c).fuzz)
    (hres : ¬ (kind = .touchpad ∧ AnyMadeUp i.quirks v) → d'.k.abs = d.k.abs)
    (hmade : kind = .touchpad → AnyMadeUp i.quirks v → ∀ c, d.k.has 3 c = true → (d'.k.abs c).res =
      if c = 0 ∨ c = 0x35 then d.dims.1.tdiv 69 else if c = 1 ∨ c = 0x36 then d.dims.2.tdiv 50 else (d.k.abs c).res)
    (fewer : ∀ c, d'.k.has 3 c = true → d.k.has 3 c = true)
    (hx : d'.k.has 3 0 = d.k.has 3 0) (hy : d'.k.has 3 1 = d.k.has 3 1) (haxes : d'.axes = d.axes) :
    Axes i v kind d' := by
  have hempty : ∀ c, c < 0x40 → c ≠ 0x28 → c ≠ 0x2f → c ≠ 0x37 → v.has 3 c = true → ¬ Vacant v c → (v.abs c).min ≠ (v.abs c).max := by
    intro c h1 h2 h3 h4 h5 h6 he
    obtain ⟨g1, g2, g3⟩ := hu.ranges c h1 h2 h3 h4 h5 he
    exact h6 ⟨g1, by rw [← he]; exact g1, g2, g3⟩
  have hposE : HasPosition v → (posX v).min ≠ (posX v).max ∧ (posY v).min ≠ (posY v).max := by
    intro hp
    unfold posX posY
    by_cases h0 : v.has 3 0 = true
    · rw [if_pos h0, if_pos h0]
      have h1 : v.has 3 1 = true := by rw [← hu.abs]; exact h0
      exact ⟨hempty 0 (by decide) (by decide) (by decide) (by decide) h0 (empty_not (by omega)),
        hempty 1 (by decide) (by decide) (by decide) (by decide) h1 (empty_not (by omega))⟩
    · rw [if_neg h0, if_neg h0]
      rcases hp with hp | hp
      · exact absurd hp h0
      · exact ⟨hempty 0x35 (by decide) (by decide) (by decide) (by decide) hp.2.1 (empty_not (by omega)),
          hempty 0x36 (by decide) (by decide) (by decide) (by decide) hp.2.2 (empty_not (by omega))⟩
  have hcode : ∀ c, c ≠ 0 → c ≠ 1 → (d.k.abs c).min = (v.abs c).min ∧ (d.k.abs c).max = (v.abs c).max := by
    intro c h0 h1
    by_cases hm : Multitouch v
    · by_cases h2 : c = 0x35
      · rw [h2, h.mtX hm]; exact ⟨rfl, rfl⟩
      by_cases h3 : c = 0x36
      · rw [h3, h.mtY hm]; exact ⟨rfl, rfl⟩
      rw [h.abs c h0 h1 h2 h3]; exact ⟨rfl, rfl⟩
    · by_cases h2 : c = 0x35
      · rw [h2, (h.noMt hm).1]; exact ⟨rfl, rfl⟩
      by_cases h3 : c = 0x36
      · rw [h3, (h.noMt hm).2]; exact ⟨rfl, rfl⟩
      rw [h.abs c h0 h1 h2 h3]; exact ⟨rfl, rfl⟩
  refine ⟨by rw [hx]; exact h.px, by rw [hy]; exact h.py, fun hm => by rw [haxes]; exact (h.axesMt hm).1,
    fun hm hp => by rw [haxes]; exact (h.axes hm hp).1, fun hp => by rw [haxes]; exact (h.axesNone hp).1, ?_, ?_, ?_, ?_, ?_, ?_, ?_, ?_, ?_⟩
  · intro hp
    rw [(ends 0).1, (ends 0).2.1, (ends 1).1, (ends 1).2.1, h.absX hp, h.absY hp]
    exact ⟨rfl, rfl, rfl, rfl⟩
  · intro c h0 h1
    rw [(ends c).1, (ends c).2.1]; exact hcode c h0 h1
  · intro c h1 h2 h3 h4 h5
    rw [(ends c).1, (ends c).2.1]
    have h5' := fewer c h5
    by_cases c0 : c = 0
    · subst c0
      have hp := h.px.1 h5'
      rw [h.absX hp]; exact (hposE hp).1
    by_cases c1 : c = 1
    · subst c1
      have hp := h.py.1 h5'
      rw [h.absY hp]; exact (hposE hp).2
    rw [(hcode c c0 c1).1, (hcode c c0 c1).2]
    rw [h.has 3 c (by omega)] at h5'
    simp only [beq_self_eq_true, Bool.true_and, Bool.and_eq_true, Bool.not_eq_true', decide_eq_false_iff_not] at h5'
    exact hempty c h1 h2 h3 h4 h5'.1 h5'.2
  · intro hn hp
    rw [hres hn, h.absX hp, h.absY hp]
  · intro hn hm
    rw [hres hn, h.mtX hm, h.mtY hm]
  · intro hk hmu x y hs
    have hdims : HasPosition v → d.dims = (((x.max - x.min).natAbs : Int), ((y.max - y.min).natAbs : Int)) := by
      intro hp
      rcases hs with ⟨hm, rfl, rfl⟩ | ⟨hm, rfl, rfl⟩
      · rw [(h.axesMt hm).2.1]
        unfold dimsOf
        rw [h.mtX hm, h.mtY hm]
      · rw [(h.axes hm hp).2.1]
        unfold dimsOf
        rw [h.absX hp, h.absY hp]
    have hp : HasPosition v := by
      rcases hmu with h | h
      · exact h.1
      · exact Or.inr h.1
    have hd := hdims hp
    have t1 : ∀ n : Nat, ((n : Int)).tdiv 69 = ((n / 69 : Nat) : Int) := by
      intro n
      rw [Int.tdiv_eq_ediv_of_nonneg (by omega)]; omega
    have t2 : ∀ n : Nat, ((n : Int)).tdiv 50 = ((n / 50 : Nat) : Int) := by
      intro n
      rw [Int.tdiv_eq_ediv_of_nonneg (by omega)]; omega
    refine ⟨?_, ?_, ?_⟩
    · rw [hmade hk hmu 0 (h.px.2 hp), hd]; exact t1 _
    · rw [hmade hk hmu 1 (h.py.2 hp), hd]; exact t2 _
    · intro hm
      have h35 : d.k.has 3 0x35 = true := by rw [has_same h 3 0x35 (by omega) (by omega)]; exact hm.2.1
      have h36 : d.k.has 3 0x36 = true := by rw [has_same h 3 0x36 (by omega) (by omega)]; exact hm.2.2
      rw [hmade hk hmu 0x35 h35, hmade hk hmu 0x36 h36, hd]
      exact ⟨t1 _, t2 _⟩
  · intro ht hp
    rw [(ends 0).2.2, (ends 1).2.2, h.absX hp, h.absY hp]
    simp only [hb.2 ht, if_true]
    exact ⟨fuzzVal_is i.props 0 _, fuzzVal_is i.props 1 _⟩
  · intro ht hp
    rw [(ends 0).2.2, (ends 1).2.2, h.absX hp, h.absY hp]
    have : ¬ b = true := fun hx => ht (hb.1 hx)
    simp only [this, if_false]
    exact ⟨rfl, rfl⟩
  · intro hm
    rw [(ends 0x35).2.2, (ends 0x36).2.2, h.mtX hm, h.mtY hm]
    exact ⟨⟨_, fuzzVal_is i.props 0x35 _, rfl⟩, ⟨_, fuzzVal_is i.props 0x36 _, rfl⟩⟩

theorem tabletCodes_has (k : Kern) (t c : Nat) (ht : t ≠ 1) : (tabletCodes k).has t c = k.has t c := by
  unfold tabletCodes
  have ht' : (t == 1) = false := by simp [ht]
  have h1 : (if k.has 1 0x140 then k else k.enable 1 0x140).has t c = k.has t c := by
    split
    · rfl
    · simp [Kern.enable, Kern.enableType, Kern.has, ht']
  simp only
  generalize (if k.has 1 0x140 then k else k.enable 1 0x140) = k1 at h1 ⊢
  split
  · rw [disable_has _ _ _ _ _ (by decide), disable_has _ _ _ _ _ (by decide), h1]
    simp [ht']
  · exact h1

theorem tabletCodes_keeps (k : Kern) : (tabletCodes k).abs = k.abs ∧ (tabletCodes k).slots = k.slots := by
  unfold tabletCodes
  have h1 : (if k.has 1 0x140 then k else k.enable 1 0x140).abs = k.abs ∧
      (if k.has 1 0x140 then k else k.enable 1 0x140).slots = k.slots := by
    split <;> exact ⟨rfl, rfl⟩
  simp only
  generalize (if k.has 1 0x140 then k else k.enable 1 0x140) = k1 at h1 ⊢
  split
  · simp only [disable_abs, disable_slots]; exact h1
  · exact h1

end Libinput.Devices
