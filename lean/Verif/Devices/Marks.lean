import Verif.Devices.Final
/-
The marks of a device.
-/
namespace Libinput.Devices
open Libinput.Strings Libinput.Parsers Spec

theorem setupMouse_tags (C : Conv) (q : Quirks) (p : Props) (ts : Tag → Bool) (d : Dev) (t : DTag) :
    (setupMouse C q p ts d).tags t = true ↔ d.tags t = true ∨ (ts .mouse = true ∨ ts .pointingstick = true) ∧
      (t = .trackpoint ∧ (d.k.prop 5 = true ∨ flag p "ID_INPUT_POINTINGSTICK" = true) ∨
       t = .externalMouse ∧ (d.k.bus = 3 ∨ d.k.bus = 5 ∨
        (d.k.prop 5 = true ∨ flag p "ID_INPUT_POINTINGSTICK" = true) ∧ q.trackpointIntegration = some "external".toList)) := by
  unfold setupMouse
  by_cases h : (ts .mouse || ts .pointingstick) = true
  · rw [if_pos h]
    have h' : ts .mouse = true ∨ ts .pointingstick = true := by simpa using h
    simp only [h', true_and]
    show (tagTrackpoint q p (tagExternalMouse d)).tags t = true ↔ _
    have h1 : (tagExternalMouse d).tags t = true ↔ d.tags t = true ∨ t = .externalMouse ∧ (d.k.bus = 3 ∨ d.k.bus = 5) := by
      unfold tagExternalMouse
      split
      · rename_i hb
        simp only [Dev.tag, Bool.or_eq_true, beq_iff_eq, hb, and_true]; exact Or.comm
      · rename_i hb
        simp [hb]
    have hk : (tagExternalMouse d).k = d.k := by
      obtain ⟨T, hT⟩ := tagExternalMouse_only d
      rw [hT]
    generalize tagExternalMouse d = d1 at h1 hk ⊢
    unfold tagTrackpoint
    rw [hk]
    by_cases hs : d.k.prop 5 = true ∨ flag p "ID_INPUT_POINTINGSTICK" = true
    · rw [if_neg (by rcases hs with hs | hs <;> simp [hs])]
      simp only [hs, true_and, and_true]
      by_cases hq : q.trackpointIntegration = some "external".toList
      · rw [if_pos hq]
        simp only [Dev.tag, Bool.or_eq_true, beq_iff_eq, h1, hq, or_true, and_true]
        constructor
        · rintro (h | h | h | ⟨h, _⟩)
          · exact Or.inr (Or.inr h)
          · exact Or.inr (Or.inl h)
          · exact Or.inl h
          · exact Or.inr (Or.inr h)
        · rintro (h | h | h)
          · exact Or.inr (Or.inr (Or.inl h))
          · exact Or.inr (Or.inl h)
          · exact Or.inl h
      · rw [if_neg hq]
        simp only [Dev.tag, Bool.or_eq_true, beq_iff_eq, h1, hq, or_false]
        constructor
        · rintro (h | h | h)
          · exact Or.inr (Or.inl h)
          · exact Or.inl h
          · exact Or.inr (Or.inr h)
        · rintro (h | h | h)
          · exact Or.inr (Or.inl h)
          · exact Or.inl h
          · exact Or.inr (Or.inr h)
    · rw [if_pos (by rw [not_or] at hs; simp [hs])]
      simp only [hs, false_and, and_false, or_false, false_or]
      exact h1
  · rw [if_neg h]
    have h' : ¬ (ts .mouse = true ∨ ts .pointingstick = true) := by simpa using h
    simp [h']

theorem letters_iff (k : Kern) : (List.range 10).all (fun i => k.has 1 (16 + i)) = true ↔ ∀ c, 16 ≤ c → c ≤ 25 → k.has 1 c = true := by
  rw [List.all_eq_true]
  constructor
  · intro h c h1 h2
    have := h (c - 16) (List.mem_range.2 (by omega))
    rw [show 16 + (c - 16) = c by omega] at this
    exact this
  · intro h j hj
    rw [List.mem_range] at hj
    exact h _ (by omega) (by omega)

theorem setupKeyboard_tags (q : Quirks) (ts : Tag → Bool) (d : Dev) (t : DTag)
    (hi : d.tags .internalKeyboard = false) (he : d.tags .externalKeyboard = false) :
    (setupKeyboard q ts d).tags t = true ↔ d.tags t = true ∨ ts .keyboard = true ∧
      (∀ c, 16 ≤ c → c ≤ 25 → d.k.has 1 c = true) ∧
      (t = .keyboard ∨ t = .internalKeyboard ∧ q.keyboardIntegration = some "internal".toList ∨
        t = .externalKeyboard ∧ q.keyboardIntegration = some "external".toList) := by
  unfold setupKeyboard
  by_cases h : ts .keyboard = true
  · rw [if_pos h]
    simp only [h, true_and]
    obtain ⟨d1, hd1⟩ : ∃ d1, (if (d.cap .keyboard).k.has 2 8 || (d.cap .keyboard).k.has 2 6 then
      ({ d.cap .keyboard with natural := true } : Dev).cap .pointer else d.cap .keyboard) = d1 := ⟨_, rfl⟩
    have hk : d1.k = d.k := by rw [← hd1]; split <;> rfl
    have ht : d1.tags = d.tags := by rw [← hd1]; split <;> rfl
    rw [hd1]
    unfold tagKeyboard
    by_cases hl : (List.range 10).all (fun i => d1.k.has 1 (16 + i)) = true
    · rw [if_neg (by simp only [hl]; simp)]
      rw [letters_iff, hk] at hl
      have hne : ("internal".toList : Str) ≠ "external".toList := by decide
      by_cases h1 : q.keyboardIntegration = some "internal".toList
      · rw [if_pos h1]
        have h2 : ¬ (q.keyboardIntegration = some "external".toList) := by rw [h1]; intro hx; exact hne (Option.some.inj hx)
        simp only [Dev.tag, Dev.untag, ht, h2, and_false, or_false, and_true]
        rw [show (∀ c, 16 ≤ c → c ≤ 25 → d.k.has 1 c = true) = True from eq_true hl]
        cases t <;> simp [hi, he, h1]
      · rw [if_neg h1]
        by_cases h2 : q.keyboardIntegration = some "external".toList
        · rw [if_pos h2]
          rw [show (∀ c, 16 ≤ c → c ≤ 25 → d.k.has 1 c = true) = True from eq_true hl]
          simp only [Dev.tag, Dev.untag, ht]
          cases t <;> simp [hi, he, h2]
        · rw [if_neg h2]
          rw [show (∀ c, 16 ≤ c → c ≤ 25 → d.k.has 1 c = true) = True from eq_true hl]
          simp only [Dev.tag, ht, h1, h2, and_false, or_false]
          cases t <;> simp [hi, he]
    · rw [if_pos (by simpa using hl)]
      rw [letters_iff, hk] at hl
      rw [show (∀ c, 16 ≤ c → c ≤ 25 → d.k.has 1 c = true) = False from eq_false hl, ht]
      simp
  · rw [if_neg h]; simp [h]

theorem setupSwitch_tags (q : Quirks) (ts : Tag → Bool) (d : Dev) (t : DTag) :
    (setupSwitch q ts d).tags t = true ↔ d.tags t = true ∨ ts .switch = true ∧
      (t = .lidSwitch ∧ d.k.has 5 0 = true ∨ t = .tabletModeSwitch ∧ d.k.has 5 1 = true ∧ q.tabletModeUnreliable = false) := by
  unfold setupSwitch
  by_cases h : ts .switch = true
  · rw [if_pos h]
    simp only [h, true_and]
    obtain ⟨d1, hd1⟩ : ∃ d1, (if d.k.has 5 0 then (d.cap .switch).tag .lidSwitch else d) = d1 := ⟨_, rfl⟩
    have hk : d1.k = d.k := by rw [← hd1]; split <;> rfl
    have ht : d1.tags t = true ↔ d.tags t = true ∨ t = .lidSwitch ∧ d.k.has 5 0 = true := by
      rw [← hd1]
      split
      · rename_i h0
        simp only [Dev.tag, Dev.cap, Bool.or_eq_true, beq_iff_eq, h0, and_true]; exact Or.comm
      · rename_i h0
        simp [h0]
    rw [hd1, hk]
    by_cases h1 : d.k.has 5 1 = true
    · rw [if_pos h1]
      cases hu : q.tabletModeUnreliable with
      | true =>
        simp only [if_true, Bool.true_eq_false, and_false, or_false]
        exact ht
      | false =>
        simp only [Bool.false_eq_true, if_false, Dev.cap, Dev.tag, Bool.or_eq_true, beq_iff_eq, ht, h1, and_true]
        constructor
        · rintro (h | h | h)
          · exact Or.inr (Or.inr h)
          · exact Or.inl h
          · exact Or.inr (Or.inl h)
        · rintro (h | h | h)
          · exact Or.inr (Or.inl h)
          · exact Or.inr (Or.inr h)
          · exact Or.inl h
    · rw [if_neg h1, ht]
      simp [h1]
  · rw [if_neg h]; simp [h]

theorem other_tags {i : In} {b : Bool} {v : View} {d d' : Dev} {ts : Tag → Bool} (h : Ready i b v d) (ht : Tags i v ts)
    (hd : (configureOther i ts d).1 = some d') (t : DTag) : d'.tags t = true ↔ Marked i v .fallback t := by
  unfold configureOther at hd
  simp only at hd
  have t1 := setupMouse_tags i.conv i.quirks i.props ts d
  have e1 := (setupMouse_spec i.conv i.quirks i.props ts d).1
  generalize setupMouse i.conv i.quirks i.props ts d = d1 at hd t1 e1
  simp only [h.tags, Bool.false_eq_true, false_or] at t1
  have hi1 : d1.tags .internalKeyboard = false := by rw [← Bool.not_eq_true, t1]; simp
  have he1 : d1.tags .externalKeyboard = false := by rw [← Bool.not_eq_true, t1]; simp
  have t2 := fun t => setupKeyboard_tags i.quirks ts d1 t hi1 he1
  have e2 := (setupKeyboard_spec i.quirks ts d1).1
  generalize setupKeyboard i.quirks ts d1 = d2 at hd t2 e2
  obtain ⟨d3, hd3⟩ : ∃ d3, (if ts .touchscreen then d2.cap .touch else d2) = d3 := ⟨_, rfl⟩
  have t3 : d3.tags = d2.tags := by rw [← hd3]; split <;> rfl
  have e3 : d3.k = d2.k := by rw [← hd3]; split <;> rfl
  rw [hd3] at hd
  have t4 := setupSwitch_tags i.quirks ts d3
  generalize setupSwitch i.quirks ts d3 = d4 at hd t4
  obtain ⟨d5, hd5⟩ : ∃ d5, (if i.quirks.invertHorizontal then { d4 with invertH := true } else d4) = d5 := ⟨_, rfl⟩
  rw [hd5] at hd
  have t5 : d5.tags = d4.tags := by rw [← hd5]; split <;> rfl
  obtain ⟨_, _, _, g4, _⟩ := (fallbackCreate_spec i.mtdevOpens d5).2 d' hd
  have hm := ht.other .mouse (by decide)
  have hs := ht.other .pointingstick (by decide)
  have hk := ht.other .keyboard (by decide)
  have hw := ht.other .switch (by decide)
  have e50 : d.k.has 5 0 = v.has 5 0 := has_same h 5 0 (by omega) (by omega)
  have e51 : d.k.has 5 1 = v.has 5 1 := has_same h 5 1 (by omega) (by omega)
  have ek : ∀ c, d.k.has 1 c = v.has 1 c := fun c => has_same h 1 c (by omega) (by omega)
  rw [g4, t5, t4, t3, t2, t1, e3, e2, e1, hm, hs, hk, hw, e50, e51, h.prop, h.ids.1, flag_iff]
  simp only [ek]
  cases t <;> simp [Marked, Mousy, Stick, Letters]

theorem touchpad_tags (q : Quirks) (p : Props) (d : Dev) (he : d.tags .externalTouchpad = false)
    (hi : d.tags .internalTouchpad = false) (t : DTag) :
    (tagTouchpad q p d).tags t = true ↔
      (t = .externalTouchpad ∧ (p "ID_INPUT_TOUCHPAD_INTEGRATION" = some "external".toList ∨
        p "ID_INPUT_TOUCHPAD_INTEGRATION" ≠ some "internal".toList ∧
        (d.k.bus = 5 ∨ d.k.bus = 3 ∧ q.appleTouchpad = false ∨ d.k.vendor = 0x46d ∨ q.wacomTouchpad = true))) ∨
      (t = .internalTouchpad ∧ ¬ (p "ID_INPUT_TOUCHPAD_INTEGRATION" = some "external".toList ∨
        p "ID_INPUT_TOUCHPAD_INTEGRATION" ≠ some "internal".toList ∧
        (d.k.bus = 5 ∨ d.k.bus = 3 ∧ q.appleTouchpad = false ∨ d.k.vendor = 0x46d ∨ q.wacomTouchpad = true))) ∨
      d.tags t = true := by
  have hin : ∀ d0 : Dev, ∀ t, (tagInternal d0).tags t = (!(t == .externalTouchpad) && (t == .internalTouchpad || d0.tags t)) :=
    fun _ _ => rfl
  have hex : ∀ d0 : Dev, ∀ t, (tagExternal d0).tags t = (!(t == .internalTouchpad) && (t == .externalTouchpad || d0.tags t)) :=
    fun _ _ => rfl
  have hne : ("internal".toList : Str) ≠ "external".toList := by decide
  unfold tagTouchpad
  by_cases h1 : p "ID_INPUT_TOUCHPAD_INTEGRATION" = some "internal".toList
  · rw [if_pos h1, hin, h1]
    have : ¬ (some ("internal".toList : Str) = some "external".toList) := fun hx => hne (Option.some.inj hx)
    simp only [this, ne_eq, not_true_eq_false, false_and, or_self, and_false, not_false_eq_true, and_true, false_or]
    cases t <;> simp [he, hi]
  rw [if_neg h1]
  by_cases h2 : p "ID_INPUT_TOUCHPAD_INTEGRATION" = some "external".toList
  · rw [if_pos h2, hex, h2]
    simp only [true_or, and_true, not_true_eq_false, and_false, false_or]
    cases t <;> simp [he, hi]
  rw [if_neg h2]
  simp only [h1, h2, false_or, ne_eq, not_false_eq_true, true_and]
  -- the bus
  obtain ⟨d1, hd1⟩ : ∃ d1, (if d.k.bus = 3 then (if q.appleTouchpad then tagInternal d else d)
      else if d.k.bus = 5 then tagExternal d else tagInternal d) = d1 := ⟨_, rfl⟩
  have hk1 : d1.k = d.k := by
    rw [← hd1]
    split
    · split <;> rfl
    · split <;> rfl
  have a1 : ∀ t, t ≠ .externalTouchpad → t ≠ .internalTouchpad → d1.tags t = d.tags t := by
    intro t ha hb
    have ha' : (t == .externalTouchpad) = false := by simp [ha]
    have hb' : (t == .internalTouchpad) = false := by simp [hb]
    rw [← hd1]
    repeat' split
    all_goals first | rfl | simp [hin, hex, ha', hb']
  have b1 : d1.tags .externalTouchpad = decide (d.k.bus = 5) := by
    rw [← hd1]
    by_cases x3 : d.k.bus = 3
    · rw [if_pos x3]; split <;> simp [hin, x3, he]
    · rw [if_neg x3]
      split
      · rename_i x5; simp [hex, x5]
      · rename_i x5; simp [hin, x5]
  have c1 : d1.tags .internalTouchpad = (decide (d.k.bus ≠ 5) && decide (¬ (d.k.bus = 3 ∧ q.appleTouchpad = false))) := by
    rw [← hd1]
    by_cases x3 : d.k.bus = 3
    · rw [if_pos x3]
      split
      · rename_i xa; simp [hin, x3, xa]
      · rename_i xa
        rw [Bool.not_eq_true] at xa
        simp [hi, x3, xa]
    · rw [if_neg x3]
      split
      · rename_i x5; simp [hex, x5]
      · rename_i x5; simp [hin, x5, x3]
  rw [hd1, hk1]
  obtain ⟨d2, hd2⟩ : ∃ d2, (if d.k.vendor = 0x46d then tagExternal d1 else d1) = d2 := ⟨_, rfl⟩
  have a2 : ∀ t, t ≠ .externalTouchpad → t ≠ .internalTouchpad → d2.tags t = d.tags t := by
    intro t ha hb
    have ha' : (t == .externalTouchpad) = false := by simp [ha]
    have hb' : (t == .internalTouchpad) = false := by simp [hb]
    rw [← hd2]
    split
    · simp [hex, ha', hb', a1 t ha hb]
    · exact a1 t ha hb
  have b2 : d2.tags .externalTouchpad = decide (d.k.bus = 5 ∨ d.k.vendor = 0x46d) := by
    rw [← hd2]
    split
    · rename_i hv; simp [hex, hv]
    · rename_i hv; simp [b1, hv]
  have c2 : d2.tags .internalTouchpad = (decide (d.k.bus ≠ 5) && decide (¬ (d.k.bus = 3 ∧ q.appleTouchpad = false)) &&
      decide (d.k.vendor ≠ 0x46d)) := by
    rw [← hd2]
    split
    · rename_i hv; simp [hex, hv]
    · rename_i hv; simp [c1, hv]
  rw [hd2]
  obtain ⟨d3, hd3⟩ : ∃ d3, (if q.wacomTouchpad then tagExternal d2 else d2) = d3 := ⟨_, rfl⟩
  have a3 : ∀ t, t ≠ .externalTouchpad → t ≠ .internalTouchpad → d3.tags t = d.tags t := by
    intro t ha hb
    have ha' : (t == .externalTouchpad) = false := by simp [ha]
    have hb' : (t == .internalTouchpad) = false := by simp [hb]
    rw [← hd3]
    split
    · simp [hex, ha', hb', a2 t ha hb]
    · exact a2 t ha hb
  have b3 : d3.tags .externalTouchpad = decide (d.k.bus = 5 ∨ d.k.vendor = 0x46d ∨ q.wacomTouchpad = true) := by
    rw [← hd3]
    split
    · rename_i hv; simp [hex, hv]
    · rename_i hv; simp [b2, hv]
  have c3 : d3.tags .internalTouchpad = (decide (d.k.bus ≠ 5) && decide (¬ (d.k.bus = 3 ∧ q.appleTouchpad = false)) &&
      decide (d.k.vendor ≠ 0x46d) && !q.wacomTouchpad) := by
    rw [← hd3]
    split
    · rename_i hv; simp [hex, hv]
    · rename_i hv; simp [c2, hv]
  rw [hd3, b3, c3]
  by_cases x5 : d.k.bus = 5
  · cases q.wacomTouchpad <;> cases t <;> simp_all
  · by_cases xv : d.k.vendor = 0x46d
    · cases q.wacomTouchpad <;> cases t <;> simp_all
    · by_cases x3 : d.k.bus = 3
      · cases hw : q.wacomTouchpad <;> cases ha : q.appleTouchpad <;> cases t <;> simp_all
      · cases hw : q.wacomTouchpad <;> cases t <;> simp_all

end Libinput.Devices
