import Verif.Devices.Kinds
/-
Devices that are neither tablets nor touchpads, and the whole configuration.
-/
namespace Libinput.Devices
open Libinput.Strings Libinput.Parsers Spec

theorem tag_only (d : Dev) (t : DTag) : TagOnly d (d.tag t) := ⟨_, rfl⟩
theorem untag_only (d : Dev) (t : DTag) : TagOnly d (d.untag t) := ⟨_, rfl⟩

theorem tagExternalMouse_only (d : Dev) : TagOnly d (tagExternalMouse d) :=
  TagOnly.ite (tag_only _ _) (TagOnly.refl _)

theorem tagTrackpoint_only (q : Quirks) (p : Props) (d : Dev) : TagOnly d (tagTrackpoint q p d) := by
  unfold tagTrackpoint
  exact TagOnly.ite (TagOnly.refl _) (TagOnly.ite ((tag_only _ _).trans (tag_only _ _)) (tag_only _ _))

theorem tagKeyboard_only (q : Quirks) (d : Dev) : TagOnly d (tagKeyboard q d) := by
  unfold tagKeyboard
  exact TagOnly.ite (TagOnly.refl _) ((TagOnly.ite ((tag_only _ _).trans (untag_only _ _))
    (TagOnly.ite ((tag_only _ _).trans (untag_only _ _)) (TagOnly.refl _))).trans (tag_only _ _))

theorem setupMouse_spec (C : Conv) (q : Quirks) (p : Props) (ts : Tag → Bool) (d : Dev) :
    (setupMouse C q p ts d).k = d.k ∧ (∀ c, (setupMouse C q p ts d).caps c = true ↔
      d.caps c = true ∨ c = .pointer ∧ (ts .mouse = true ∨ ts .pointingstick = true)) ∧
    (setupMouse C q p ts d).mtdev = d.mtdev ∧ (setupMouse C q p ts d).axes = d.axes := by
  unfold setupMouse
  obtain ⟨T, hT⟩ := (tagExternalMouse_only d).trans (tagTrackpoint_only q p (tagExternalMouse d))
  by_cases h : (ts .mouse || ts .pointingstick) = true
  · rw [if_pos h]
    simp only
    rw [hT]
    refine ⟨rfl, ?_, rfl, rfl⟩
    intro c
    rw [Bool.or_eq_true] at h
    simp only [Dev.cap, Bool.or_eq_true, beq_iff_eq, h, and_true]
    exact Or.comm
  · rw [if_neg h]
    rw [Bool.or_eq_true] at h
    refine ⟨rfl, ?_, rfl, rfl⟩
    intro c
    simp [h]

theorem setupKeyboard_spec (q : Quirks) (ts : Tag → Bool) (d : Dev) :
    (setupKeyboard q ts d).k = d.k ∧ (∀ c, (setupKeyboard q ts d).caps c = true ↔
      d.caps c = true ∨ c = .keyboard ∧ ts .keyboard = true ∨
        c = .pointer ∧ ts .keyboard = true ∧ (d.k.has 2 8 = true ∨ d.k.has 2 6 = true)) ∧
    (setupKeyboard q ts d).mtdev = d.mtdev ∧ (setupKeyboard q ts d).axes = d.axes := by
  unfold setupKeyboard
  by_cases h : ts .keyboard = true
  · rw [if_pos h]
    simp only
    obtain ⟨T, hT⟩ := tagKeyboard_only q (if (d.cap .keyboard).k.has 2 8 || (d.cap .keyboard).k.has 2 6 then
      ({ d.cap .keyboard with natural := true } : Dev).cap .pointer else d.cap .keyboard)
    rw [hT]
    by_cases hw : ((d.cap .keyboard).k.has 2 8 || (d.cap .keyboard).k.has 2 6) = true
    · rw [if_pos hw]
      refine ⟨rfl, ?_, rfl, rfl⟩
      intro c
      have hw' : d.k.has 2 8 = true ∨ d.k.has 2 6 = true := by simpa [Dev.cap] using hw
      simp only [Dev.cap, Bool.or_eq_true, beq_iff_eq, hw', h, and_true]
      constructor
      · rintro (h | h | h)
        · exact Or.inr (Or.inr h)
        · exact Or.inr (Or.inl h)
        · exact Or.inl h
      · rintro (h | h | h)
        · exact Or.inr (Or.inr h)
        · exact Or.inr (Or.inl h)
        · exact Or.inl h
    · rw [if_neg hw]
      refine ⟨rfl, ?_, rfl, rfl⟩
      intro c
      have hw' : ¬ (d.k.has 2 8 = true ∨ d.k.has 2 6 = true) := by simpa [Dev.cap] using hw
      simp only [Dev.cap, Bool.or_eq_true, beq_iff_eq, hw', h, and_true, and_false, or_false]
      exact Or.comm
  · rw [if_neg h]
    refine ⟨rfl, ?_, rfl, rfl⟩
    intro c
    simp [h]

theorem setupSwitch_spec (q : Quirks) (ts : Tag → Bool) (d : Dev) :
    (setupSwitch q ts d).k.abs = d.k.abs ∧ (setupSwitch q ts d).k.slots = d.k.slots ∧
    (∀ t c, (setupSwitch q ts d).k.has t c = (d.k.has t c &&
      !(t == 5 && c == 1 && ts .switch && q.tabletModeUnreliable))) ∧
    (∀ c, (setupSwitch q ts d).caps c = true ↔
      d.caps c = true ∨ c = .switch ∧ ts .switch = true ∧ (d.k.has 5 0 = true ∨ d.k.has 5 1 = true ∧ q.tabletModeUnreliable = false)) ∧
    (setupSwitch q ts d).mtdev = d.mtdev ∧ (setupSwitch q ts d).axes = d.axes ∧ (setupSwitch q ts d).k.prop = d.k.prop := by
  unfold setupSwitch
  by_cases h : ts .switch = true
  · rw [if_pos h]
    simp only
    obtain ⟨d1, hd1⟩ : ∃ d1, (if d.k.has 5 0 then (d.cap .switch).tag .lidSwitch else d) = d1 := ⟨_, rfl⟩
    rw [hd1]
    have hk : d1.k = d.k := by rw [← hd1]; split <;> rfl
    have hmt : d1.mtdev = d.mtdev := by rw [← hd1]; split <;> rfl
    have hax : d1.axes = d.axes := by rw [← hd1]; split <;> rfl
    have hcaps : ∀ c, d1.caps c = true ↔ d.caps c = true ∨ c = .switch ∧ d.k.has 5 0 = true := by
      intro c
      rw [← hd1]
      split
      · rename_i h0
        simp only [Dev.cap, Dev.tag, Bool.or_eq_true, beq_iff_eq, h0, and_true]
        exact Or.comm
      · rename_i h0
        simp [h0]
    rw [hk]
    by_cases h1 : d.k.has 5 1 = true
    · rw [if_pos h1]
      by_cases hu : q.tabletModeUnreliable = true
      · rw [if_pos hu]
        refine ⟨by simp, by simp, ?_, ?_, hmt, hax, by simp⟩
        · intro t c
          simp only
          rw [disable_has _ _ _ _ _ (by decide)]
          simp [h, hu, Bool.and_comm]
        · intro c
          simp only [hcaps, h, hu, true_and, Bool.true_eq_false, and_false, or_false]
      · rw [if_neg hu]
        rw [Bool.not_eq_true] at hu
        refine ⟨by rw [← hk]; rfl, by rw [← hk]; rfl, ?_, ?_, hmt, hax, by rw [← hk]; rfl⟩
        · intro t c
          rw [← hk]
          simp [Dev.cap, Dev.tag, hu]
        · intro c
          simp only [Dev.cap, Dev.tag, Bool.or_eq_true, beq_iff_eq, hcaps, h, hu, h1, and_true, or_true]
          constructor
          · rintro (h | h | ⟨h, _⟩)
            · exact Or.inr h
            · exact Or.inl h
            · exact Or.inr h
          · rintro (h | h)
            · exact Or.inr (Or.inl h)
            · exact Or.inl h
    · rw [if_neg h1]
      rw [Bool.not_eq_true] at h1
      refine ⟨by rw [hk], by rw [hk], ?_, ?_, hmt, hax, by rw [hk]⟩
      · intro t c
        rw [hk]
        by_cases hx : t = 5 ∧ c = 1
        · obtain ⟨rfl, rfl⟩ := hx; rw [h1]; rfl
        · have : (t == 5 && c == 1) = false := by
            rw [← Bool.not_eq_true, Bool.and_eq_true, beq_iff_eq, beq_iff_eq]; exact hx
          simp [this]
      · intro c
        simp [hcaps, h, h1]
  · rw [if_neg h]
    refine ⟨rfl, rfl, ?_, ?_, rfl, rfl, rfl⟩
    · intro t c
      rw [Bool.not_eq_true] at h
      simp [h]
    · intro c
      simp [h]

theorem fallbackCreate_spec (m : Bool) (d : Dev) :
    ((fallbackCreate m d).isSome = true ↔ (d.k.has 3 0x35 = true → d.k.has 3 0x36 = true → d.k.has 3 0x2f = false → m = true)) ∧
    ∀ d', fallbackCreate m d = some d' → d'.caps = d.caps ∧ d'.k = d.k ∧ d'.axes = d.axes ∧ d'.tags = d.tags ∧
      d'.dpi = d.dpi ∧ d'.multiplier = d.multiplier ∧ d'.fake = d.fake ∧ d'.dims = d.dims ∧
      d'.mtdev = (d.mtdev || needMtdev d.k) := by
  unfold fallbackCreate
  simp only
  obtain ⟨b, hb⟩ : ∃ b, (!fakeMt d.k && d.k.has 3 0x35 && d.k.has 3 0x36 && needMtdev d.k) = b := ⟨_, rfl⟩
  rw [hb]
  have hbn : b = needMtdev d.k := by
    rw [← hb]
    unfold needMtdev fakeMt
    cases d.k.has 3 0x35 <;> cases d.k.has 3 0x36 <;> cases d.k.has 3 0x2f <;> simp
  have hbe : b = true ↔ d.k.has 3 0x35 = true ∧ d.k.has 3 0x36 = true ∧ d.k.has 3 0x2f = false := by
    rw [hbn]; unfold needMtdev
    simp [and_assoc]
  by_cases hc : (b && !m) = true
  · rw [if_pos hc]
    simp only [Bool.and_eq_true, Bool.not_eq_true'] at hc
    refine ⟨?_, by intro d' h; cases h⟩
    constructor
    · intro h; cases h
    · intro h
      obtain ⟨h1, h2, h3⟩ := hbe.1 hc.1
      rw [h h1 h2 h3] at hc
      exact absurd hc.2 (by simp)
  · rw [if_neg hc]
    refine ⟨?_, ?_⟩
    · simp only [Option.isSome_some, true_iff]
      intro h1 h2 h3
      have : b = true := hbe.2 ⟨h1, h2, h3⟩
      rw [this] at hc
      simpa using hc
    · intro d' h
      simp only [Option.some.injEq] at h
      rw [← h, ← hbn]
      cases b with
      | true => simp only [if_true]; split <;> simp
      | false => simp only [Bool.false_eq_true, if_false]; split <;> simp

theorem other_spec {i : In} {b : Bool} {v : View} {d : Dev} {ts : Tag → Bool} (h : Ready i b v d) (ht : Tags i v ts) :
    (∀ c, (configureOther i ts d).2.caps c = true ↔ Can i v .fallback c) ∧
    ((configureOther i ts d).1.isSome = true ↔
      (v.has 3 0x35 = true → v.has 3 0x36 = true → v.has 3 0x2f = false → i.mtdevOpens = true)) ∧
    (∀ d', (configureOther i ts d).1 = some d' → d'.caps = (configureOther i ts d).2.caps) := by
  unfold configureOther
  simp only
  obtain ⟨k1, c1, -, -⟩ := setupMouse_spec i.conv i.quirks i.props ts d
  obtain ⟨d1, hd1⟩ : ∃ d1, setupMouse i.conv i.quirks i.props ts d = d1 := ⟨_, rfl⟩
  rw [hd1] at k1 c1 ⊢
  obtain ⟨k2, c2, -, -⟩ := setupKeyboard_spec i.quirks ts d1
  obtain ⟨d2, hd2⟩ : ∃ d2, setupKeyboard i.quirks ts d1 = d2 := ⟨_, rfl⟩
  rw [hd2] at k2 c2 ⊢
  obtain ⟨d3, hd3⟩ : ∃ d3, (if ts .touchscreen then d2.cap .touch else d2) = d3 := ⟨_, rfl⟩
  have k3 : d3.k = d.k := by rw [← hd3, ← k1, ← k2]; split <;> rfl
  have c3 : ∀ c, d3.caps c = true ↔ d2.caps c = true ∨ c = .touch ∧ ts .touchscreen = true := by
    intro c
    rw [← hd3]
    split
    · rename_i hh
      simp only [Dev.cap, Bool.or_eq_true, beq_iff_eq, hh, and_true]; exact Or.comm
    · rename_i hh; simp [hh]
  rw [hd3]
  obtain ⟨a4, s4, k4, c4, -, -, -⟩ := setupSwitch_spec i.quirks ts d3
  obtain ⟨d4, hd4⟩ : ∃ d4, setupSwitch i.quirks ts d3 = d4 := ⟨_, rfl⟩
  rw [hd4] at a4 s4 k4 c4 ⊢
  obtain ⟨d5, hd5⟩ : ∃ d5, (if i.quirks.invertHorizontal then { d4 with invertH := true } else d4) = d5 := ⟨_, rfl⟩
  rw [hd5]
  have k5 : d5.k = d4.k := by rw [← hd5]; split <;> rfl
  have c5 : d5.caps = d4.caps := by rw [← hd5]; split <;> rfl
  obtain ⟨f1, f2⟩ := fallbackCreate_spec i.mtdevOpens d5
  have hsame : ∀ c, 0x2f ≤ c → d5.k.has 3 c = v.has 3 c := by
    intro c hc
    rw [k5, k4, k3, has_same h 3 c (by omega) (by omega)]
    simp
  refine ⟨?_, ?_, ?_⟩
  · intro c
    have hm := ht.other .mouse (by decide)
    have hs := ht.other .pointingstick (by decide)
    have hk := ht.other .keyboard (by decide)
    have hw := ht.other .switch (by decide)
    have e28 : d1.k.has 2 8 = v.has 2 8 := by rw [k1]; exact has_same h 2 8 (by omega) (by omega)
    have e26 : d1.k.has 2 6 = v.has 2 6 := by rw [k1]; exact has_same h 2 6 (by omega) (by omega)
    have e50 : d3.k.has 5 0 = v.has 5 0 := by rw [k3]; exact has_same h 5 0 (by omega) (by omega)
    have e51 : d3.k.has 5 1 = v.has 5 1 := by rw [k3]; exact has_same h 5 1 (by omega) (by omega)
    rw [c5, c4, c3, c2, c1, h.caps, e28, e26, e50, e51, hm, hs, hk, hw, ht.screen]
    cases c <;> simp [Can, or_assoc]
  · rw [f1, hsame 0x35 (by decide), hsame 0x36 (by decide), hsame 0x2f (by decide)]
  · intro d' hd'
    exact (f2 d' hd').1

/-! ### All kinds -/

theorem role_unique {i : In} {v : View} {a b : Kind} (ha : Role i v a) (hb : Role i v b) : a = b := by
  cases a <;> cases b <;> simp only [Role] at ha hb <;> first | rfl | (exfalso; simp_all)

theorem kind_spec {i : In} {b : Bool} {v : View} {d : Dev} {ts : Tag → Bool} (h : Ready i b v d) (ht : Tags i v ts) :
    ∃ r, Role i v r ∧
      ((configureKind i ts d).1.isSome = true ∧ (∃ c, (configureKind i ts d).2 c = true) ↔ Works i v r) ∧
      (∀ kind d', (configureKind i ts d).1 = some (kind, d') →
        kind = r ∧ d'.caps = (configureKind i ts d).2 ∧ ∀ c, d'.caps c = true ↔ Can i v r c) := by
  have hcap : ∀ c0 c, (d.cap c0).caps c = true ↔ c = c0 := by
    intro c0 c
    simp [Dev.cap, h.caps]
  unfold configureKind
  by_cases hq : i.quirks.totem = true
  · refine ⟨.totem, hq, ?_⟩
    rw [if_pos hq]
    simp only
    by_cases hok : totemOk d = true
    · rw [if_pos hok]
      refine ⟨⟨fun _ => (totemOk_iff h).1 hok, fun _ => ⟨rfl, .tabletTool, (hcap _ _).2 rfl⟩⟩, ?_⟩
      intro kind d' he
      cases he
      exact ⟨rfl, rfl, fun c => by rw [hcap]; rfl⟩
    · rw [if_neg hok]
      refine ⟨⟨fun hx => absurd hx.1 (by simp), fun hx => absurd ((totemOk_iff h).2 hx) hok⟩, ?_⟩
      intro kind d' he; cases he
  rw [if_neg hq]
  rw [Bool.not_eq_true] at hq
  have hpad := ht.other .tabletPad (by decide)
  have htab := ht.other .tablet (by decide)
  have htp := ht.other .touchpad (by decide)
  by_cases hp : ts .tabletPad = true
  · refine ⟨.tabletPad, ⟨hq, hpad.1 hp⟩, ?_⟩
    rw [if_pos hp]
    simp only
    by_cases hok : i.padLeds = true
    · rw [if_pos hok]
      refine ⟨⟨fun _ => hok, fun _ => ⟨rfl, .tabletPad, (hcap _ _).2 rfl⟩⟩, ?_⟩
      intro kind d' he
      cases he
      exact ⟨rfl, rfl, fun c => by rw [hcap]; rfl⟩
    · rw [if_neg hok]
      refine ⟨⟨fun hx => absurd hx.1 (by simp), fun hx => absurd hx hok⟩, ?_⟩
      intro kind d' he; cases he
  rw [if_neg hp]
  have hp' : ¬ Tagged i .tabletPad := fun hx => hp (hpad.2 hx)
  by_cases htl : (ts .tablet && !ts .touchpad && !ts .touchscreen) = true
  · rw [if_pos htl]
    simp only [Bool.and_eq_true, Bool.not_eq_true'] at htl
    refine ⟨.tablet, ⟨hq, hp', htab.1 htl.1.1, fun hx => ?_, fun hx => ?_⟩, ?_⟩
    · rw [htp.2 hx] at htl; simp at htl
    · rw [ht.screen.2 hx] at htl; simp at htl
    simp only
    by_cases hok : tabletOk d = true
    · rw [if_pos hok]
      refine ⟨⟨fun _ => (tabletOk_iff h).1 hok, fun _ => ⟨rfl, .tabletTool, (hcap _ _).2 rfl⟩⟩, ?_⟩
      intro kind d' he
      cases he
      refine ⟨rfl, rfl, fun c => ?_⟩
      have := hcap .tabletTool c
      exact this
    · rw [if_neg hok]
      refine ⟨⟨fun hx => absurd hx.1 (by simp), fun hx => absurd ((tabletOk_iff h).2 hx) hok⟩, ?_⟩
      intro kind d' he; cases he
  rw [if_neg htl]
  by_cases htt : ts .touchpad = true
  · rw [if_pos htt]
    refine ⟨.touchpad, ⟨hq, hp', htp.1 htt⟩, ?_⟩
    simp only
    obtain ⟨d1, hd1⟩ : ∃ d1, ({ (if ts .tablet = true then d.tag .tabletTouchpad else d) with
        averaging := needAveraging i.quirks } : Dev) = d1 := ⟨_, rfl⟩
    rw [hd1]
    have hk1 : d1.k = d.k := by rw [← hd1]; split <;> rfl
    have hc1 : d1.caps = d.caps := by rw [← hd1]; split <;> rfl
    have hft : ForTouchpad i v d1 :=
      ⟨by rw [hk1]; exact touchpadOk_iff h,
       ⟨by rw [hk1]; exact has_same h 3 0x2f (by omega) (by omega),
        by rw [hk1]; exact h.abs 0x2f (by decide) (by decide) (by decide) (by decide), by rw [hk1]; exact h.prop⟩,
       by rw [hc1]; exact h.caps⟩
    obtain ⟨t1, t2⟩ := touchpadCreate_caps hft
    cases hcr : touchpadCreate i.quirks i.props d1 with
    | none =>
      rw [hcr] at t2
      simp only [Option.isSome_none, Bool.false_eq_true, false_iff] at t2
      refine ⟨⟨fun hx => absurd hx.1 (by simp), fun hx => absurd hx t2⟩, ?_⟩
      intro kind d' he; cases he
    | some d' =>
      rw [hcr] at t2
      refine ⟨⟨fun _ => t2.1 rfl, fun _ => ⟨rfl, .pointer, (t1 d' hcr .pointer).2 trivial⟩⟩, ?_⟩
      intro kind d'' he
      simp only [Option.some.injEq, Prod.mk.injEq] at he
      obtain ⟨rfl, rfl⟩ := he
      exact ⟨rfl, rfl, t1 _ hcr⟩
  · rw [if_neg htt]
    have hntp : ¬ Tagged i .touchpad := fun hx => htt (htp.2 hx)
    refine ⟨.fallback, ⟨hq, hp', hntp, ?_⟩, ?_⟩
    · intro hx
      rw [Bool.not_eq_true] at htt
      have : ts .touchscreen = true := by
        cases hts : ts .touchscreen with
        | true => rfl
        | false => exact absurd (by rw [htab.2 hx, htt, hts]; rfl) htl
      exact ht.screen.1 this
    simp only
    obtain ⟨o1, o2, o3⟩ := other_spec h ht
    refine ⟨?_, ?_⟩
    · rw [Option.isSome_map, o2]
      unfold Works
      simp only [o1]
    · intro kind d' he
      cases hc : (configureOther i ts d).1 with
      | none => rw [hc] at he; cases he
      | some d0 =>
        rw [hc] at he
        cases he
        refine ⟨rfl, o3 _ hc, fun c => ?_⟩
        rw [o3 _ hc]; exact o1 c

end Libinput.Devices
