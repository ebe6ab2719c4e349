import Verif.Devices.Lemmas
/-
The device once its axes are known.
-/
namespace Libinput.Devices
open Libinput.Strings Libinput.Parsers Spec

instance (v : View) (c : Nat) : Decidable (Vacant v c) := by unfold Vacant; infer_instance

/-- The fuzz of a multitouch axis: the property's, if it has one other than 0, else the kernel's. -/
def mtFuzz (p : Props) (c : Nat) (kernel : Int) : Int := if fuzzVal p c kernel = 0 then kernel else fuzzVal p c kernel

/-- The device before it is told what handles it. -/
structure Ready (i : In) (touchy : Bool) (v : View) (d : Dev) : Prop where
  px : d.k.has 3 0 = true ↔ HasPosition v
  py : d.k.has 3 1 = true ↔ HasPosition v
  has : ∀ t c, ¬ (t = 3 ∧ c ≤ 1) → d.k.has t c = (v.has t c && !(t == 3 && decide (Vacant v c)))
  abs : ∀ c, c ≠ 0 → c ≠ 1 → c ≠ 0x35 → c ≠ 0x36 → d.k.abs c = v.abs c
  absX : HasPosition v → d.k.abs 0 =
    ⟨(posX v).min, (posX v).max, (res i.quirks (posX v) (posY v)).1,
      if touchy then fuzzVal i.props 0 (posX v).fuzz else (posX v).fuzz⟩
  absY : HasPosition v → d.k.abs 1 =
    ⟨(posY v).min, (posY v).max, (res i.quirks (posX v) (posY v)).2,
      if touchy then fuzzVal i.props 1 (posY v).fuzz else (posY v).fuzz⟩
  mtX : Multitouch v → d.k.abs 0x35 =
    ⟨(v.abs 0x35).min, (v.abs 0x35).max, (res i.quirks (v.abs 0x35) (v.abs 0x36)).1, mtFuzz i.props 0x35 (v.abs 0x35).fuzz⟩
  mtY : Multitouch v → d.k.abs 0x36 =
    ⟨(v.abs 0x36).min, (v.abs 0x36).max, (res i.quirks (v.abs 0x35) (v.abs 0x36)).2, mtFuzz i.props 0x36 (v.abs 0x36).fuzz⟩
  noMt : ¬ Multitouch v → d.k.abs 0x35 = v.abs 0x35 ∧ d.k.abs 0x36 = v.abs 0x36
  fake : d.fake = true ↔ AnyMadeUp i.quirks v
  axesMt : Multitouch v → d.axes = some (0x35, 0x36) ∧ d.dims = dimsOf d.k 0x35 0x36 ∧ d.isMt = true
  axes : ¬ Multitouch v → HasPosition v → d.axes = some (0, 1) ∧ d.dims = dimsOf d.k 0 1 ∧ d.isMt = false
  axesNone : ¬ HasPosition v → d.axes = none ∧ d.isMt = false
  prop : d.k.prop = v.prop
  slots : d.k.slots = v.slots
  caps : d.caps = fun _ => false
  tags : d.tags = fun _ => false
  rest : d.dpi = 1000 ∧ d.averaging = false ∧ d.mtdev = false ∧ d.middle = none ∧ d.leftHanded = false ∧
    d.natural = false ∧ d.buttonScroll = false ∧ d.invertH = false
  ids : d.k.bus = i.kern.bus ∧ d.k.vendor = i.kern.vendor

/-- After `evdev_fix_android_mt`. -/
structure Fixed (i : In) (v : View) (k : Kern) : Prop where
  px : k.has 3 0 = true ↔ HasPosition v
  py : k.has 3 1 = true ↔ HasPosition v
  has : ∀ t c, ¬ (t = 3 ∧ c ≤ 1) → k.has t c = (v.has t c && !(t == 3 && decide (Vacant v c)))
  abs : ∀ c, c ≠ 0 → c ≠ 1 → k.abs c = v.abs c
  absX : HasPosition v → k.abs 0 = posX v
  absY : HasPosition v → k.abs 1 = posY v
  prop : k.prop = v.prop
  slots : k.slots = v.slots
  ids : k.bus = i.kern.bus ∧ k.vendor = i.kern.vendor

theorem empty_not {v : View} {c : Nat} (h : c ≤ 0x28 ∨ 0x2f ≤ c) : ¬ Vacant v c := by
  rintro ⟨_, _, h1, h2⟩
  omega

theorem fixed {i : In} {k k1 : Kern} (hr : reject k = some k1) (hid : k.bus = i.kern.bus ∧ k.vendor = i.kern.vendor) :
    Fixed i k.view (if fakeMt k1 then k1 else fixAndroid k1) := by
  obtain ⟨hu, ha⟩ := reject_some hr
  have hhas : ∀ t c, k1.has t c = (k.view.has t c && !(t == 3 && decide (Vacant k.view c))) := by
    intro t c
    rw [ha.has]
    by_cases hd : Hid k c
    · have he : Vacant k.view c := hd
      have hlt : c < 64 := by have := hd.2.2.2; omega
      simp [hd, he, hlt, view_has]
    · have he : ¬ Vacant k.view c := hd
      simp [hd, he, view_has]
  have hsame : ∀ t c, ¬ (t = 3 ∧ 0x28 < c ∧ c < 0x2f) → k1.has t c = k.has t c := by
    intro t c hn
    rw [hhas]
    by_cases ht : t = 3
    · have : ¬ Vacant k.view c := empty_not (by omega)
      simp [this, view_has]
    · have ht' : (t == 3) = false := by simp [ht]
      simp [ht', view_has]
  have h0 : k1.has 3 0 = k.has 3 0 := hsame _ _ (by omega)
  have h1 : k1.has 3 1 = k.has 3 1 := hsame _ _ (by omega)
  have h35 : k1.has 3 0x35 = k.has 3 0x35 := hsame _ _ (by omega)
  have h36 : k1.has 3 0x36 = k.has 3 0x36 := hsame _ _ (by omega)
  have h2f : k1.has 3 0x2f = k.has 3 0x2f := hsame _ _ (by omega)
  have hxy : k.has 3 0 = k.has 3 1 := hu.abs
  have hfk : fakeMt k1 = fakeMt k := by unfold fakeMt; rw [h2f, ha.slots]
  have hunch : (k.has 3 0 = true ∨ ¬ Multitouch k.view) → Fixed i k.view k1 := by
    intro hor
    have hpos : HasPosition k.view ↔ k.has 3 0 = true := by
      constructor
      · rintro (h | h)
        · exact h
        · rcases hor with h' | h'
          · exact h'
          · exact absurd h h'
      · exact fun h => Or.inl h
    refine ⟨?_, ?_, fun t c _ => hhas t c, ?_, ?_, ?_, ha.prop, ha.slots, ?_⟩
    · rw [h0, hpos]
    · rw [h1, ← hxy, hpos]
    · intro c _ _; rw [ha.abs]; rfl
    · intro hp
      have hk0 := hpos.1 hp
      unfold posX
      rw [ha.abs, if_pos (show k.view.has 3 0 = true from hk0)]; rfl
    · intro hp
      have hk0 := hpos.1 hp
      unfold posY
      rw [ha.abs, if_pos (show k.view.has 3 0 = true from hk0)]; rfl
    · rw [ha.bus, ha.vendor]; exact hid
  by_cases hf : fakeMt k1 = true
  · rw [if_pos hf]
    refine hunch (Or.inr fun hm => hm.1 ?_)
    rw [← fakeMt_iff, ← hfk]; exact hf
  · rw [if_neg hf]
    have hnf : ¬ Fake k.view := by rw [← fakeMt_iff, ← hfk]; exact hf
    unfold fixAndroid
    by_cases hx : (k1.has 3 0 || k1.has 3 1) = true
    · rw [if_pos hx]
      refine hunch (Or.inl ?_)
      rw [h0, h1, ← hxy] at hx
      simpa using hx
    · rw [if_neg hx]
      have hno : k.has 3 0 = false := by
        rw [h0, h1, ← hxy] at hx
        simpa using hx
      by_cases hm : (!k1.has 3 0x35 || !k1.has 3 0x36 || fakeMt k1) = true
      · rw [if_pos hm]
        refine hunch (Or.inr fun hmt => ?_)
        obtain ⟨_, ha35, ha36⟩ := hmt
        rw [h35, h36] at hm
        have e35 : k.has 3 0x35 = true := ha35
        have e36 : k.has 3 0x36 = true := ha36
        simp only [e35, e36, Bool.not_true, Bool.false_or] at hm
        exact hf hm
      · rw [if_neg hm]
        have hm' : k.has 3 0x35 = true ∧ k.has 3 0x36 = true := by
          rw [h35, h36] at hm
          simp only [Bool.or_eq_true, Bool.not_eq_true', not_or, Bool.not_eq_false] at hm
          exact hm.1
        have hmt : Multitouch k.view := ⟨hnf, hm'.1, hm'.2⟩
        have ht3 : k1.type 3 = true := by
          have : k1.has 3 0x35 = true := by rw [h35]; exact hm'.1
          unfold Kern.has at this
          simp only [Bool.and_eq_true] at this
          exact this.1
        have hty : ((k1.enableAbs 0 (k1.abs 0x35))).type 3 = true := by
          simp [Kern.enableAbs, Kern.enable, Kern.enableType]
        have hhas2 : ∀ t c, ((k1.enableAbs 0 (k1.abs 0x35)).enableAbs 1 (k1.abs 0x36)).has t c =
            (t == 3 && c == 1 || (t == 3 && c == 0 || k1.has t c)) := by
          intro t c
          rw [enableAbs_has _ _ _ _ _ (fun _ => hty), enableAbs_has _ _ _ _ _ (fun _ => ht3)]
        refine ⟨?_, ?_, ?_, ?_, ?_, ?_, ?_, ?_, ?_⟩
        · rw [hhas2]
          exact ⟨fun _ => Or.inr hmt, fun _ => rfl⟩
        · rw [hhas2]
          exact ⟨fun _ => Or.inr hmt, fun _ => rfl⟩
        · intro t c hn
          rw [hhas2, ← hhas]
          by_cases ht : t = 3
          · have hc0 : (c == 0) = false := by
              have : c ≠ 0 := by omega
              simp [this]
            have hc1 : (c == 1) = false := by
              have : c ≠ 1 := by omega
              simp [this]
            simp [hc0, hc1]
          · have ht' : (t == 3) = false := by simp [ht]
            simp [ht']
        · intro c hc0 hc1
          simp only [Kern.enableAbs, Kern.enable, Kern.enableType, hc0, hc1, if_false, ha.abs]
          rfl
        · intro _
          simp only [Kern.enableAbs, Kern.enable, Kern.enableType, ha.abs, posX, Kern.view, hno]
          rfl
        · intro _
          simp only [Kern.enableAbs, Kern.enable, Kern.enableType, ha.abs, posY, Kern.view, hno]
          rfl
        · exact ha.prop
        · exact ha.slots
        · exact ⟨ha.bus.trans hid.1, ha.vendor.trans hid.2⟩

theorem extract_ready {i : In} {ts : Tag → Bool} {v : View} {k : Kern} (hf : Fixed i v k) :
    Ready i (ts .touchpad || ts .touchscreen) v
      (if k.has 3 0 then extractAxes i.quirks i.props ts { k := k } else { k := k }) := by
  have hfk : fakeMt k = true ↔ Fake v := by
    unfold fakeMt Fake
    rw [hf.has 3 0x2f (by omega), hf.slots]
    have : ¬ Vacant v 0x2f := empty_not (by omega)
    simp [this]
  have h35 : k.has 3 0x35 = v.has 3 0x35 := by
    rw [hf.has 3 0x35 (by omega)]
    have : ¬ Vacant v 0x35 := empty_not (by omega)
    simp [this]
  have h36 : k.has 3 0x36 = v.has 3 0x36 := by
    rw [hf.has 3 0x36 (by omega)]
    have : ¬ Vacant v 0x36 := empty_not (by omega)
    simp [this]
  by_cases h0 : k.has 3 0 = true
  · rw [if_pos h0]
    have hp : HasPosition v := hf.px.1 h0
    have h1 : k.has 3 1 = true := hf.py.2 hp
    -- the single-touch axes
    obtain ⟨k1, hk1⟩ : ∃ k1, (fixRes i.quirks k 0 1).1 = k1 := ⟨_, rfl⟩
    have hs1 : Same k k1 := hk1 ▸ fixRes_same _ _ _ _
    have ha1 : ∀ c, k1.abs c =
        if c = 0 then { k.abs 0 with res := (res i.quirks (k.abs 0) (k.abs 1)).1 }
        else if c = 1 then { k.abs 1 with res := (res i.quirks (k.abs 0) (k.abs 1)).2 } else k.abs c := by
      intro c
      rw [← hk1]; exact fixRes_abs _ _ _ _ _ h0 h1 (by decide)
    obtain ⟨k2, hk2⟩ : ∃ k2, (if ts .touchpad || ts .touchscreen then
        (k1.setFuzz 0 (readFuzz i.props k1 0)).setFuzz 1 (readFuzz i.props (k1.setFuzz 0 (readFuzz i.props k1 0)) 1)
      else k1) = k2 := ⟨_, rfl⟩
    have hs2 : Same k k2 := by
      rw [← hk2]
      split
      · exact (hs1.trans (setFuzz_same _ _ _)).trans (setFuzz_same _ _ _)
      · exact hs1
    have ha2 : ∀ c, k2.abs c =
        if c = 0 then ⟨(posX v).min, (posX v).max, (res i.quirks (posX v) (posY v)).1,
          if ts .touchpad || ts .touchscreen then fuzzVal i.props 0 (posX v).fuzz else (posX v).fuzz⟩
        else if c = 1 then ⟨(posY v).min, (posY v).max, (res i.quirks (posX v) (posY v)).2,
          if ts .touchpad || ts .touchscreen then fuzzVal i.props 1 (posY v).fuzz else (posY v).fuzz⟩
        else k.abs c := by
      intro c
      have e0 : k1.has 3 0 = true := by rw [hs1.has]; exact h0
      have e1 : k1.has 3 1 = true := by rw [hs1.has]; exact h1
      rw [← hk2]
      by_cases htt : (ts .touchpad || ts .touchscreen) = true
      · rw [if_pos htt, if_pos htt, if_pos htt]
        have e1' : (k1.setFuzz 0 (readFuzz i.props k1 0)).has 3 1 = true := by simp [e1]
        rw [readFuzz_eq _ _ _ e1', readFuzz_eq _ _ _ e0]
        simp only [setFuzz_abs, setFuzz_has, e0, e1, and_true, ha1, hf.absX hp, hf.absY hp]
        by_cases hc0 : c = 0
        · subst hc0; simp
        · by_cases hc1 : c = 1
          · subst hc1; simp
          · simp [hc0, hc1]
      · rw [if_neg htt, if_neg htt, if_neg htt]
        rw [ha1, hf.absX hp, hf.absY hp]
    have hsingle : extractSingle i.quirks i.props ts { k := k } =
        { k := k2, fake := (fixRes i.quirks k 0 1).2, axes := some (0, 1), dims := dimsOf k2 0 1 } := by
      unfold extractSingle
      simp only [Bool.false_or]
      rw [hk1, hk2]
    have hfake1 : (fixRes i.quirks k 0 1).2 = true ↔ MadeUp i.quirks (posX v) (posY v) := by
      rw [fixRes_fake, hf.absX hp, hf.absY hp]
    unfold extractAxes
    simp only [h0, h1, Bool.not_true, Bool.or_self, Bool.false_eq_true, if_false]
    rw [hsingle]
    have hfk2 : fakeMt k2 = fakeMt k := by unfold fakeMt; rw [hs2.has, hs2.slots]
    by_cases hmt : Multitouch v
    · have hcond : ¬ (fakeMt k2 || !k2.has 3 0x35 || !k2.has 3 0x36) = true := by
        rw [hfk2, hs2.has, h35, h36, hmt.2.1, hmt.2.2]
        simp only [Bool.not_true, Bool.or_false, hfk]
        exact hmt.1
      simp only
      rw [if_neg hcond]
      have e35 : k2.has 3 0x35 = true := by rw [hs2.has, h35]; exact hmt.2.1
      have e36 : k2.has 3 0x36 = true := by rw [hs2.has, h36]; exact hmt.2.2
      have ea35 : k2.abs 0x35 = v.abs 0x35 := by
        rw [ha2, if_neg (by decide), if_neg (by decide)]; exact hf.abs _ (by decide) (by decide)
      have ea36 : k2.abs 0x36 = v.abs 0x36 := by
        rw [ha2, if_neg (by decide), if_neg (by decide)]; exact hf.abs _ (by decide) (by decide)
      obtain ⟨k3, hk3⟩ : ∃ k3, (fixRes i.quirks k2 0x35 0x36).1 = k3 := ⟨_, rfl⟩
      have hs3 : Same k2 k3 := hk3 ▸ fixRes_same _ _ _ _
      have ha3 : ∀ c, k3.abs c =
          if c = 0x35 then { v.abs 0x35 with res := (res i.quirks (v.abs 0x35) (v.abs 0x36)).1 }
          else if c = 0x36 then { v.abs 0x36 with res := (res i.quirks (v.abs 0x35) (v.abs 0x36)).2 } else k2.abs c := by
        intro c
        rw [← hk3, fixRes_abs _ _ _ _ _ e35 e36 (by decide), ea35, ea36]
      have g35 : k3.has 3 0x35 = true := by rw [hs3.has]; exact e35
      have g36 : k3.has 3 0x36 = true := by rw [hs3.has]; exact e36
      obtain ⟨k4, hk4⟩ : ∃ k4, (if readFuzz i.props k3 0x35 = 0 then k3
          else k3.setFuzz 0x35 (readFuzz i.props k3 0x35)) = k4 := ⟨_, rfl⟩
      have hs4 : Same k3 k4 := by
        rw [← hk4]; split
        · exact Same.refl _
        · exact setFuzz_same _ _ _
      have ha4 : ∀ c, k4.abs c = if c = 0x35 then
          ⟨(v.abs 0x35).min, (v.abs 0x35).max, (res i.quirks (v.abs 0x35) (v.abs 0x36)).1, mtFuzz i.props 0x35 (v.abs 0x35).fuzz⟩
          else k3.abs c := by
        intro c
        rw [← hk4, readFuzz_eq _ _ _ g35]
        have : (k3.abs 0x35).fuzz = (v.abs 0x35).fuzz := by rw [ha3]; rfl
        rw [this]
        unfold mtFuzz
        by_cases hz : fuzzVal i.props 0x35 (v.abs 0x35).fuzz = 0
        · rw [if_pos hz, if_pos hz]
          split
          · rename_i hc; subst hc; rw [ha3]; rfl
          · rfl
        · rw [if_neg hz, if_neg hz, setFuzz_abs]
          simp only [g35, and_true]
          split
          · rw [ha3]; rfl
          · rfl
      have l36 : k4.has 3 0x36 = true := by rw [hs4.has]; exact g36
      obtain ⟨k5, hk5⟩ : ∃ k5, (if readFuzz i.props k4 0x36 = 0 then k4
          else k4.setFuzz 0x36 (readFuzz i.props k4 0x36)) = k5 := ⟨_, rfl⟩
      have hs5 : Same k4 k5 := by
        rw [← hk5]; split
        · exact Same.refl _
        · exact setFuzz_same _ _ _
      have ha5 : ∀ c, k5.abs c = if c = 0x36 then
          ⟨(v.abs 0x36).min, (v.abs 0x36).max, (res i.quirks (v.abs 0x35) (v.abs 0x36)).2, mtFuzz i.props 0x36 (v.abs 0x36).fuzz⟩
          else k4.abs c := by
        intro c
        rw [← hk5, readFuzz_eq _ _ _ l36]
        have : (k4.abs 0x36).fuzz = (v.abs 0x36).fuzz := by rw [ha4, if_neg (by decide), ha3]; rfl
        rw [this]
        unfold mtFuzz
        by_cases hz : fuzzVal i.props 0x36 (v.abs 0x36).fuzz = 0
        · rw [if_pos hz, if_pos hz]
          split
          · rename_i hc; subst hc; rw [ha4, if_neg (by decide), ha3]; rfl
          · rfl
        · rw [if_neg hz, if_neg hz, setFuzz_abs]
          simp only [l36, and_true]
          split
          · rw [ha4, if_neg (by decide), ha3]; rfl
          · rfl
      have hfake2 : (fixRes i.quirks k2 0x35 0x36).2 = true ↔ MadeUp i.quirks (v.abs 0x35) (v.abs 0x36) := by
        rw [fixRes_fake, ea35, ea36]
      have hmtd : extractMt i.quirks i.props { k := k2, fake := (fixRes i.quirks k 0 1).2, axes := some (0, 1), dims := dimsOf k2 0 1 } =
          { k := k5, fake := (fixRes i.quirks k 0 1).2 || (fixRes i.quirks k2 0x35 0x36).2, axes := some (0x35, 0x36), dims := dimsOf k5 0x35 0x36, isMt := true } := by
        unfold extractMt
        simp only
        rw [hk3, hk4, hk5]
      rw [hmtd]
      have hsa : Same k k5 := ((hs2.trans hs3).trans hs4).trans hs5
      refine ⟨?_, ?_, ?_, ?_, ?_, ?_, ?_, ?_, ?_, ?_, ?_, ?_, ?_, ?_, ?_, rfl, rfl, ?_, ?_⟩
      · simp only [hsa.has]; exact hf.px
      · simp only [hsa.has]; exact hf.py
      · simp only [hsa.has]; exact hf.has
      · intro c h1 h2 h3 h4
        simp only
        rw [ha5, if_neg h4, ha4, if_neg h3, ha3, if_neg h3, if_neg h4, ha2, if_neg h1, if_neg h2]
        exact hf.abs c h1 h2
      · intro _
        simp only
        rw [ha5, if_neg (by decide), ha4, if_neg (by decide), ha3, if_neg (by decide), if_neg (by decide), ha2, if_pos rfl]
      · intro _
        simp only
        rw [ha5, if_neg (by decide), ha4, if_neg (by decide), ha3, if_neg (by decide), if_neg (by decide), ha2,
          if_neg (by decide), if_pos rfl]
      · intro _
        simp only
        rw [ha5, if_neg (by decide), ha4, if_pos rfl]
      · intro _
        simp only
        rw [ha5, if_pos rfl]
      · exact fun h => absurd hmt h
      · simp only [Bool.or_eq_true, hfake1, hfake2, AnyMadeUp, hp, hmt, true_and]
      · exact fun _ => ⟨rfl, rfl, rfl⟩
      · exact fun h => absurd hmt h
      · exact fun h => absurd hp h
      · exact hsa.prop.trans hf.prop
      · exact hsa.slots.trans hf.slots
      · exact ⟨rfl, rfl, rfl, rfl, rfl, rfl, rfl, rfl⟩
      · exact ⟨hsa.bus.trans hf.ids.1, hsa.vendor.trans hf.ids.2⟩
    · have hcond : (fakeMt k2 || !k2.has 3 0x35 || !k2.has 3 0x36) = true := by
        rw [hfk2, hs2.has, h35, h36]
        by_cases hfx : fakeMt k = true
        · simp [hfx]
        · rw [Bool.not_eq_true] at hfx
          have hnf : ¬ Fake v := by rw [← hfk, hfx]; simp
          cases ha : v.has 3 0x35 with
          | false => simp
          | true =>
            cases hb : v.has 3 0x36 with
            | false => simp
            | true => exact absurd ⟨hnf, ha, hb⟩ hmt
      simp only
      rw [if_pos hcond]
      have ea35 : k2.abs 0x35 = v.abs 0x35 := by
        rw [ha2, if_neg (by decide), if_neg (by decide)]; exact hf.abs _ (by decide) (by decide)
      have ea36 : k2.abs 0x36 = v.abs 0x36 := by
        rw [ha2, if_neg (by decide), if_neg (by decide)]; exact hf.abs _ (by decide) (by decide)
      refine ⟨?_, ?_, ?_, ?_, ?_, ?_, ?_, ?_, ?_, ?_, ?_, ?_, ?_, ?_, ?_, rfl, rfl, ?_, ?_⟩
      · simp only [hs2.has]; exact hf.px
      · simp only [hs2.has]; exact hf.py
      · simp only [hs2.has]; exact hf.has
      · intro c h1 h2 h3 h4
        simp only
        rw [ha2, if_neg h1, if_neg h2]
        exact hf.abs c h1 h2
      · intro _
        simp only
        rw [ha2, if_pos rfl]
      · intro _
        simp only
        rw [ha2, if_neg (by decide), if_pos rfl]
      · exact fun h => absurd h hmt
      · exact fun h => absurd h hmt
      · exact fun _ => ⟨ea35, ea36⟩
      · simp only [hfake1, AnyMadeUp, hp, hmt, true_and, false_and, or_false]
      · exact fun h => absurd h hmt
      · exact fun _ _ => ⟨rfl, rfl, rfl⟩
      · exact fun h => absurd hp h
      · exact hs2.prop.trans hf.prop
      · exact hs2.slots.trans hf.slots
      · exact ⟨rfl, rfl, rfl, rfl, rfl, rfl, rfl, rfl⟩
      · exact ⟨hs2.bus.trans hf.ids.1, hs2.vendor.trans hf.ids.2⟩
  · rw [if_neg h0]
    have hp : ¬ HasPosition v := fun h => h0 (hf.px.2 h)
    have hmt : ¬ Multitouch v := fun h => hp (Or.inr h)
    refine ⟨hf.px, hf.py, hf.has, ?_, fun h => absurd h hp, fun h => absurd h hp, fun h => absurd h hmt,
      fun h => absurd h hmt, ?_, ?_, fun h => absurd h hmt, fun _ h => absurd h hp, fun _ => ⟨rfl, rfl⟩, hf.prop, hf.slots,
      rfl, rfl, ⟨rfl, rfl, rfl, rfl, rfl, rfl, rfl, rfl⟩, hf.ids⟩
    · intro c h1 h2 _ _; exact hf.abs c h1 h2
    · exact fun _ => ⟨hf.abs _ (by decide) (by decide), hf.abs _ (by decide) (by decide)⟩
    · simp only [AnyMadeUp, hp, hmt, false_and, or_false]
      simp

end Libinput.Devices
