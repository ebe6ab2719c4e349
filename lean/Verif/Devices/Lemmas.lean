import Verif.Devices.Spec
/-
Lemmas: what each step leaves of the description.
-/
namespace Libinput.Devices
open Libinput.Strings Libinput.Parsers Spec

/-- The view of a description. -/
def Kern.view (k : Kern) : View := ⟨k.has, k.abs, k.prop, k.slots⟩

theorem view_has (k : Kern) : k.view.has = k.has := rfl

/-! ### Tags -/

theorem flag_iff (p : Props) (n : String) : flag p n = true ↔ p n = some ['1'] := by
  simp [flag]

theorem ownTags_iff (p : Props) (t : Tag) : ownTags p t = true ↔ ∃ n ∈ names t, p n = some ['1'] := by
  cases t <;> simp [ownTags, tagMatches, names, flag_iff]

theorem udevTags_iff (i : In) (t : Tag) : udevTags i.props i.parent t = true ↔ Tagged i t := by
  unfold udevTags Tagged
  rw [Bool.or_eq_true, ownTags_iff]
  cases hp : i.parent with
  | none => simp
  | some q =>
    simp only [ownTags_iff, Option.some.injEq]
    constructor
    · rintro (⟨n, h1, h2⟩ | ⟨n, h1, h2⟩)
      · exact ⟨n, h1, Or.inl h2⟩
      · exact ⟨n, h1, Or.inr ⟨q, rfl, h2⟩⟩
    · rintro ⟨n, h1, h2 | ⟨p, rfl, h2⟩⟩
      · exact Or.inl ⟨n, h1, h2⟩
      · exact Or.inr ⟨n, h1, h2⟩

theorem udevTags_false (i : In) (t : Tag) : udevTags i.props i.parent t = false ↔ ¬ Tagged i t := by
  rw [← udevTags_iff, Bool.not_eq_true]

theorem mem_all (t : Tag) : t ∈ Tag.all := by cases t <;> decide

theorem isPure_iff (i : In) (a : Tag) : isPure (udevTags i.props i.parent) a = true ↔ Only i a := by
  unfold isPure Only
  rw [List.all_eq_true]
  constructor
  · intro h t
    have := h t (mem_all t)
    rw [← udevTags_iff]
    simp only [beq_iff_eq] at this
    rw [this]; simp
  · intro h t _
    have := h t
    rw [← udevTags_iff] at this
    simp only [beq_iff_eq]
    rw [Bool.eq_iff_iff, this]; simp

theorem noOther_iff (i : In) :
    Tag.all.all (fun t => t == .input || !udevTags i.props i.parent t) = true ↔ ¬ ∃ t, t ≠ .input ∧ Tagged i t := by
  rw [List.all_eq_true]
  constructor
  · rintro h ⟨t, ht, htt⟩
    have := h t (mem_all t)
    rw [(udevTags_iff i t).2 htt] at this
    simp [ht] at this
  · intro h t _
    by_cases ht : t = .input
    · simp [ht]
    · simp only [Bool.or_eq_true, beq_iff_eq, ht, false_or, Bool.not_eq_true', udevTags_false]
      exact fun hx => h ⟨t, ht, hx⟩

/-! ### Changes of the description -/

@[simp] theorem disable_has (k : Kern) (t c t' c' : Nat) (h : t ≠ 0) :
    (k.disable t c).has t' c' = (!(t' == t && c' == c) && k.has t' c') := by
  unfold Kern.disable Kern.has
  rw [if_neg h]
  simp only
  cases k.type t' <;> cases k.bit t' c' <;> simp

@[simp] theorem disable_abs (k : Kern) (t c : Nat) : (k.disable t c).abs = k.abs := by
  unfold Kern.disable; split <;> rfl
@[simp] theorem disable_prop (k : Kern) (t c : Nat) : (k.disable t c).prop = k.prop := by
  unfold Kern.disable; split <;> rfl
@[simp] theorem disable_slots (k : Kern) (t c : Nat) : (k.disable t c).slots = k.slots := by
  unfold Kern.disable; split <;> rfl
@[simp] theorem disable_bus (k : Kern) (t c : Nat) : (k.disable t c).bus = k.bus := by
  unfold Kern.disable; split <;> rfl
@[simp] theorem disable_vendor (k : Kern) (t c : Nat) : (k.disable t c).vendor = k.vendor := by
  unfold Kern.disable; split <;> rfl

@[simp] theorem setRes_has (k : Kern) (c : Nat) (v : Int) : (k.setRes c v).has = k.has := by
  unfold Kern.setRes; split <;> rfl
@[simp] theorem setRes_prop (k : Kern) (c : Nat) (v : Int) : (k.setRes c v).prop = k.prop := by
  unfold Kern.setRes; split <;> rfl
@[simp] theorem setRes_slots (k : Kern) (c : Nat) (v : Int) : (k.setRes c v).slots = k.slots := by
  unfold Kern.setRes; split <;> rfl
@[simp] theorem setRes_bus (k : Kern) (c : Nat) (v : Int) : (k.setRes c v).bus = k.bus := by
  unfold Kern.setRes; split <;> rfl
@[simp] theorem setRes_vendor (k : Kern) (c : Nat) (v : Int) : (k.setRes c v).vendor = k.vendor := by
  unfold Kern.setRes; split <;> rfl
theorem setRes_abs (k : Kern) (c : Nat) (v : Int) (c' : Nat) :
    (k.setRes c v).abs c' = if c' = c ∧ k.has 3 c = true then { k.abs c with res := v } else k.abs c' := by
  unfold Kern.setRes
  by_cases h : k.has 3 c = true
  · simp [h]
  · simp [h]

@[simp] theorem setFuzz_has (k : Kern) (c : Nat) (v : Int) : (k.setFuzz c v).has = k.has := by
  unfold Kern.setFuzz; split <;> rfl
@[simp] theorem setFuzz_prop (k : Kern) (c : Nat) (v : Int) : (k.setFuzz c v).prop = k.prop := by
  unfold Kern.setFuzz; split <;> rfl
@[simp] theorem setFuzz_slots (k : Kern) (c : Nat) (v : Int) : (k.setFuzz c v).slots = k.slots := by
  unfold Kern.setFuzz; split <;> rfl
@[simp] theorem setFuzz_bus (k : Kern) (c : Nat) (v : Int) : (k.setFuzz c v).bus = k.bus := by
  unfold Kern.setFuzz; split <;> rfl
@[simp] theorem setFuzz_vendor (k : Kern) (c : Nat) (v : Int) : (k.setFuzz c v).vendor = k.vendor := by
  unfold Kern.setFuzz; split <;> rfl
theorem setFuzz_abs (k : Kern) (c : Nat) (v : Int) (c' : Nat) :
    (k.setFuzz c v).abs c' = if c' = c ∧ k.has 3 c = true then { k.abs c with fuzz := v } else k.abs c' := by
  unfold Kern.setFuzz
  by_cases h : k.has 3 c = true
  · simp [h]
  · simp [h]

theorem enableAbs_has (k : Kern) (c : Nat) (a : Abs) (t' c' : Nat) (hc : k.bit 3 c' = true → k.type 3 = true) :
    (k.enableAbs c a).has t' c' = (t' == 3 && c' == c || k.has t' c') := by
  simp only [Kern.enableAbs, Kern.enable, Kern.enableType, Kern.has]
  by_cases ht : t' = 3
  · subst ht
    by_cases hcc : c' = c
    · simp [hcc]
    · have hcc' : (c' == c) = false := by simp [hcc]
      cases hb : k.bit 3 c' with
      | false => simp [hcc']
      | true => simp [hc hb]
  · have ht' : (t' == 3) = false := by simp [ht]
    simp [ht']

/-! ### Rejection -/

/-- The view after the accelerometer's axes are hidden. -/
theorem accel_has (k : Kern) (t c : Nat) :
    (disableAccelerometer k).has t c = (!(t == 3 && decide (c ≤ 2)) && k.has t c) := by
  unfold disableAccelerometer
  simp only [disable_has _ 3 _ _ _ (by decide)]
  by_cases ht : t = 3
  · subst ht
    by_cases h : c ≤ 2
    · have : c = 0 ∨ c = 1 ∨ c = 2 := by omega
      rcases this with h | h | h <;> subst h <;> simp
    · have h0 : c ≠ 0 := by omega
      have h1 : c ≠ 1 := by omega
      have h2 : c ≠ 2 := by omega
      have h0' : (c == 0) = false := by simp [h0]
      have h1' : (c == 1) = false := by simp [h1]
      have h2' : (c == 2) = false := by simp [h2]
      simp [h, h0', h1', h2']
  · have ht' : (t == 3) = false := by simp [ht]
    simp [ht']

@[simp] theorem accel_abs (k : Kern) : (disableAccelerometer k).abs = k.abs := by simp [disableAccelerometer]
@[simp] theorem accel_prop (k : Kern) : (disableAccelerometer k).prop = k.prop := by simp [disableAccelerometer]
@[simp] theorem accel_slots (k : Kern) : (disableAccelerometer k).slots = k.slots := by simp [disableAccelerometer]

/-- What the check of the ranges demands of one axis. -/
def RangeOk (k : Kern) (c : Nat) : Prop :=
  c ≠ 0x28 → c ≠ 0x2f → c ≠ 0x37 → k.has 3 c = true → (k.abs c).min = (k.abs c).max →
    (k.abs c).min = 0 ∧ 0x28 < c ∧ c < 0x2f

/-- The axes the check hides. -/
def Hid (k : Kern) (c : Nat) : Prop := (k.abs c).min = 0 ∧ (k.abs c).max = 0 ∧ 0x28 < c ∧ c < 0x2f

instance (k : Kern) (c : Nat) : Decidable (Hid k c) := by unfold Hid; infer_instance

/-- What is left after the check of some axes. -/
structure After (k k' : Kern) (cs : List Nat) : Prop where
  has : ∀ t c, k'.has t c = (k.has t c && !(t == 3 && cs.contains c && decide (Hid k c)))
  bits : ∀ c, k'.bit 3 c = true → k.bit 3 c = true
  type : k'.type = k.type
  abs : k'.abs = k.abs
  prop : k'.prop = k.prop
  slots : k'.slots = k.slots
  bus : k'.bus = k.bus
  vendor : k'.vendor = k.vendor

theorem checkMinMax_some {k k' : Kern} {c : Nat} (h28 : c ≠ 0x28) (h2f : c ≠ 0x2f) (h37 : c ≠ 0x37)
    (h : checkMinMax k c = some k') : RangeOk k c ∧ After k k' [c] := by
  unfold checkMinMax Kern.info at h
  by_cases hh : k.has 3 c = true
  · rw [if_pos hh] at h
    simp only at h
    by_cases heq : (k.abs c).min = (k.abs c).max
    · rw [if_pos heq] at h
      by_cases hc : (k.abs c).min = 0 ∧ 0x28 ≤ c ∧ c < 0x2f
      · rw [if_pos hc] at h
        cases h
        have hhid : Hid k c := ⟨hc.1, by rw [← heq]; exact hc.1, by omega, hc.2.2⟩
        refine ⟨fun _ _ _ _ _ => ⟨hc.1, by omega, hc.2.2⟩, ?_, ?_, ?_, by simp, by simp, by simp, by simp, by simp⟩
        · intro t c'
          rw [disable_has _ 3 _ _ _ (by decide)]
          by_cases ht : t = 3
          · subst ht
            by_cases hcc : c' = c
            · subst hcc; simp [hhid]
            · have hcc' : (c' == c) = false := by simp [hcc]
              simp [hcc, hcc']
          · have ht' : (t == 3) = false := by simp [ht]
            simp [ht']
        · intro c' hb
          unfold Kern.disable at hb
          rw [if_neg (by decide)] at hb
          simp only [Bool.and_eq_true] at hb
          exact hb.2
        · unfold Kern.disable; rw [if_neg (by decide)]
      · rw [if_neg hc] at h; cases h
    · rw [if_neg heq] at h
      cases h
      refine ⟨fun _ _ _ _ h => absurd h heq, ?_, fun _ h => h, rfl, rfl, rfl, rfl, rfl, rfl⟩
      intro t c'
      by_cases ht : t = 3
      · subst ht
        by_cases hcc : c' = c
        · subst hcc
          have : ¬ Hid k c' := fun hd => heq (hd.1.trans hd.2.1.symm)
          simp [this]
        · simp [hcc]
      · have ht' : (t == 3) = false := by simp [ht]
        simp [ht']
  · rw [if_neg hh] at h
    cases h
    refine ⟨fun _ _ _ h => absurd h hh, ?_, fun _ h => h, rfl, rfl, rfl, rfl, rfl, rfl⟩
    intro t c'
    by_cases ht : t = 3
    · subst ht
      by_cases hcc : c' = c
      · subst hcc
        rw [Bool.not_eq_true] at hh
        simp [hh]
      · simp [hcc]
    · have ht' : (t == 3) = false := by simp [ht]
      simp [ht']

theorem checkMinMax_none {k : Kern} {c : Nat} (h28 : c ≠ 0x28) (h2f : c ≠ 0x2f) (h37 : c ≠ 0x37)
    (h : checkMinMax k c = none) : ¬ RangeOk k c := by
  intro hr
  unfold checkMinMax Kern.info at h
  by_cases hh : k.has 3 c = true
  · rw [if_pos hh] at h
    simp only at h
    split at h
    · rename_i heq
      split at h
      · cases h
      · rename_i hn
        obtain ⟨h1, h2, h3⟩ := hr h28 h2f h37 hh heq
        exact hn ⟨h1, by omega, h3⟩
    · cases h
  · rw [if_neg hh] at h; cases h

theorem checkAxes_some : ∀ (cs : List Nat) (k k' : Kern), checkAxes cs k = some k' →
    (∀ c ∈ cs, RangeOk k c) ∧ After k k' cs
  | [], k, k', h => by
    cases h
    exact ⟨fun _ h => absurd h (by simp), by intro t c; simp, fun _ h => h, rfl, rfl, rfl, rfl, rfl, rfl⟩
  | c :: cs, k, k', h => by
    unfold checkAxes at h
    by_cases hs : c = 0x28 ∨ c = 0x2f ∨ c = 0x37
    · rw [if_pos hs] at h
      obtain ⟨h1, h2⟩ := checkAxes_some cs k k' h
      have hnot : ¬ Hid k c := by rintro ⟨_, _, h3, h4⟩; omega
      refine ⟨?_, ?_, h2.bits, h2.type, h2.abs, h2.prop, h2.slots, h2.bus, h2.vendor⟩
      · intro c' hc'
        rcases List.mem_cons.mp hc' with rfl | hm
        · intro a b c
          rcases hs with h | h | h
          · exact absurd h a
          · exact absurd h b
          · exact absurd h c
        · exact h1 c' hm
      · intro t c'
        rw [h2.has]
        by_cases hcc : c' = c
        · subst hcc; simp [hnot]
        · have : (c' == c) = false := by simp [hcc]
          simp [hcc]
    · rw [if_neg hs] at h
      cases hm : checkMinMax k c with
      | none => rw [hm] at h; cases h
      | some k1 =>
        rw [hm] at h
        simp only at h
        obtain ⟨h1, h2⟩ := checkAxes_some cs k1 k' h
        obtain ⟨h3, h4⟩ := checkMinMax_some (fun h => hs (Or.inl h)) (fun h => hs (Or.inr (Or.inl h)))
          (fun h => hs (Or.inr (Or.inr h))) hm
        have hhid : ∀ c', Hid k1 c' ↔ Hid k c' := fun c' => by unfold Hid; rw [h4.abs]
        refine ⟨?_, ?_, fun c hb => h4.bits c (h2.bits c hb), h2.type.trans h4.type, h2.abs.trans h4.abs,
          h2.prop.trans h4.prop, h2.slots.trans h4.slots, h2.bus.trans h4.bus, h2.vendor.trans h4.vendor⟩
        · intro c' hc'
          rcases List.mem_cons.mp hc' with rfl | hm'
          · exact h3
          · intro a b d e f
            by_cases hd : Hid k c'
            · exact ⟨hd.1, hd.2.2⟩
            · have := h1 c' hm' a b d
              rw [h4.abs, h4.has] at this
              exact this (by simp [e, hd]) f
        · intro t c'
          rw [h2.has, h4.has]
          simp only [hhid]
          by_cases ht : t = 3
          · subst ht
            by_cases hcc : c' = c
            · subst hcc
              cases k.has 3 c' <;> by_cases hd : Hid k c' <;> simp [hd]
            · have : (c' == c) = false := by simp [hcc]
              simp [hcc]
          · have ht' : (t == 3) = false := by simp [ht]
            simp [ht']

theorem checkAxes_none : ∀ (cs : List Nat) (k : Kern), checkAxes cs k = none → ∃ c ∈ cs, ¬ RangeOk k c
  | [], k, h => by cases h
  | c :: cs, k, h => by
    unfold checkAxes at h
    by_cases hs : c = 0x28 ∨ c = 0x2f ∨ c = 0x37
    · rw [if_pos hs] at h
      obtain ⟨c', h1, h2⟩ := checkAxes_none cs k h
      exact ⟨c', List.mem_cons_of_mem _ h1, h2⟩
    · rw [if_neg hs] at h
      have h28 : c ≠ 0x28 := fun h => hs (Or.inl h)
      have h2f : c ≠ 0x2f := fun h => hs (Or.inr (Or.inl h))
      have h37 : c ≠ 0x37 := fun h => hs (Or.inr (Or.inr h))
      cases hm : checkMinMax k c with
      | none => exact ⟨c, List.mem_cons_self .., checkMinMax_none h28 h2f h37 hm⟩
      | some k1 =>
        rw [hm] at h
        simp only at h
        obtain ⟨c', h1, h2⟩ := checkAxes_none cs k1 h
        obtain ⟨h3, h4⟩ := checkMinMax_some h28 h2f h37 hm
        refine ⟨c', List.mem_cons_of_mem _ h1, fun hr => h2 ?_⟩
        intro a b d e f
        rw [h4.abs] at f ⊢
        rw [h4.has] at e
        simp only [Bool.and_eq_true] at e
        exact hr a b d e.1 f

theorem fakeMt_iff (k : Kern) : fakeMt k = true ↔ Fake k.view := by
  unfold fakeMt Fake Kern.view
  simp

theorem oneRes_false (x y : Abs) : oneRes x y = false ↔ (x.res = 0 ↔ y.res = 0) := by
  unfold oneRes
  by_cases h1 : x.res = 0 <;> by_cases h2 : y.res = 0 <;> simp [h1, h2]

theorem reject_some {k k' : Kern} (h : reject k = some k') : Usable k.view ∧ After k k' (List.range 0x40) := by
  unfold reject at h
  by_cases h1 : (k.has 3 0 ^^ k.has 3 1) = true
  · rw [if_pos h1] at h; cases h
  rw [if_neg h1] at h
  by_cases h2 : (k.has 2 0 ^^ k.has 2 1) = true
  · rw [if_pos h2] at h; cases h
  rw [if_neg h2] at h
  by_cases h3 : (!fakeMt k && (k.has 3 0x35 ^^ k.has 3 0x36)) = true
  · rw [if_pos h3] at h; cases h
  rw [if_neg h3] at h
  by_cases h4 : (k.has 3 0 && oneRes (k.abs 0) (k.abs 1)) = true
  · rw [if_pos h4] at h; cases h
  rw [if_neg h4] at h
  by_cases h5 : (!fakeMt k && k.has 3 0x35 && oneRes (k.abs 0x35) (k.abs 0x36)) = true
  · rw [if_pos h5] at h; cases h
  rw [if_neg h5] at h
  obtain ⟨hr, ha⟩ := checkAxes_some _ _ _ h
  refine ⟨⟨?_, ?_, ?_, ?_, ?_, ?_⟩, ha⟩
  · simpa [Kern.view] using h1
  · simpa [Kern.view] using h2
  · intro hf
    rw [← fakeMt_iff, Bool.not_eq_true] at hf
    simpa [Kern.view, hf] using h3
  · intro hp
    simp only [Kern.view] at hp ⊢
    rw [← oneRes_false]
    simpa [hp] using h4
  · intro hf hp
    rw [← fakeMt_iff, Bool.not_eq_true] at hf
    simp only [Kern.view] at hp ⊢
    rw [← oneRes_false]
    simpa [hp, hf] using h5
  · intro c hc
    exact hr c (List.mem_range.mpr hc)

theorem reject_none {k : Kern} (h : reject k = none) : ¬ Usable k.view := by
  intro hu
  unfold reject at h
  rw [if_neg (by simpa [Kern.view] using hu.abs), if_neg (by simpa [Kern.view] using hu.rel)] at h
  have h3 : ¬ (!fakeMt k && (k.has 3 0x35 ^^ k.has 3 0x36)) = true := by
    intro hx
    simp only [Bool.and_eq_true, Bool.not_eq_true'] at hx
    have : k.has 3 0x35 = k.has 3 0x36 := hu.mt (by rw [← fakeMt_iff, hx.1]; simp)
    rw [this] at hx
    simp at hx
  have h4 : ¬ (k.has 3 0 && oneRes (k.abs 0) (k.abs 1)) = true := by
    intro hx
    simp only [Bool.and_eq_true] at hx
    have := (oneRes_false _ _).2 (hu.absRes hx.1)
    simp only [Kern.view] at this
    rw [this] at hx
    simp at hx
  have h5 : ¬ (!fakeMt k && k.has 3 0x35 && oneRes (k.abs 0x35) (k.abs 0x36)) = true := by
    intro hx
    simp only [Bool.and_eq_true, Bool.not_eq_true'] at hx
    have := (oneRes_false _ _).2 (hu.mtRes (by rw [← fakeMt_iff, hx.1.1]; simp) hx.1.2)
    simp only [Kern.view] at this
    rw [this] at hx
    simp at hx
  rw [if_neg h3, if_neg h4, if_neg h5] at h
  obtain ⟨c, hc, hn⟩ := checkAxes_none _ _ h
  exact hn (hu.ranges c (List.mem_range.mp hc))

/-! ### The axes -/

/-- The fuzz read from the property, given the kernel's. -/
def fuzzVal (p : Props) (c : Nat) (kernel : Int) : Int :=
  match p (fuzzName c) with
  | none => 0
  | some s =>
    match safeAtoi s with
    | none => 0
    | some v => if v < 0 then 0 else if kernel = 0 then v else 0

theorem readFuzz_eq (p : Props) (k : Kern) (c : Nat) (h : k.has 3 c = true) :
    readFuzz p k c = fuzzVal p c (k.abs c).fuzz := by
  unfold readFuzz fuzzVal Kern.info
  rw [if_pos h]
  cases p (fuzzName c) with
  | none => simp
  | some s =>
    simp only
    cases safeAtoi s with
    | none => rfl
    | some v =>
      simp only
      by_cases hv : v < 0
      · rw [if_pos hv, if_pos hv]
      · rw [if_neg hv, if_neg hv]

theorem fuzzVal_is (p : Props) (c : Nat) (kernel : Int) : FuzzIs p (fuzzName c) kernel (fuzzVal p c kernel) := by
  unfold fuzzVal FuzzIs FuzzText
  cases hp : p (fuzzName c) with
  | none => right; simp
  | some s =>
    simp only
    cases hs : safeAtoi s with
    | none =>
      right
      refine ⟨rfl, Or.inr ?_⟩
      rintro ⟨w, s', h1, h2, h3⟩
      cases h1
      rw [(atoi_int32 s w).2 h2] at hs
      cases hs
    | some v =>
      simp only
      by_cases hv : v < 0
      · rw [if_pos hv]
        right
        refine ⟨rfl, Or.inr ?_⟩
        rintro ⟨w, s', h1, h2, h3⟩
        cases h1
        rw [(atoi_int32 s w).2 h2] at hs
        cases hs
        omega
      · rw [if_neg hv]
        by_cases hk : kernel = 0
        · rw [if_pos hk]
          exact Or.inl ⟨hk, s, rfl, (atoi_int32 s v).1 hs, by omega⟩
        · rw [if_neg hk]
          exact Or.inr ⟨rfl, Or.inl hk⟩

/-- Everything but the axes is as it was. -/
structure Same (k k' : Kern) : Prop where
  has : k'.has = k.has
  prop : k'.prop = k.prop
  slots : k'.slots = k.slots
  bus : k'.bus = k.bus
  vendor : k'.vendor = k.vendor

theorem Same.trans {a b c : Kern} (h : Same a b) (h' : Same b c) : Same a c :=
  ⟨h'.has.trans h.has, h'.prop.trans h.prop, h'.slots.trans h.slots, h'.bus.trans h.bus, h'.vendor.trans h.vendor⟩

theorem Same.refl (a : Kern) : Same a a := ⟨rfl, rfl, rfl, rfl, rfl⟩

theorem setRes_same (k : Kern) (c : Nat) (v : Int) : Same k (k.setRes c v) :=
  ⟨by simp, by simp, by simp, by simp, by simp⟩

theorem setFuzz_same (k : Kern) (c : Nat) (v : Int) : Same k (k.setFuzz c v) :=
  ⟨by simp, by simp, by simp, by simp, by simp⟩

theorem fixRes_same (q : Quirks) (k : Kern) (x y : Nat) : Same k (fixRes q k x y).1 := by
  unfold fixRes
  split
  · exact Same.refl _
  · exact (setRes_same _ _ _).trans (setRes_same _ _ _)

theorem fixRes_abs (q : Quirks) (k : Kern) (x y c : Nat) (hx : k.has 3 x = true) (hy : k.has 3 y = true) (hxy : x ≠ y) :
    (fixRes q k x y).1.abs c =
      if c = x then { k.abs x with res := (res q (k.abs x) (k.abs y)).1 }
      else if c = y then { k.abs y with res := (res q (k.abs x) (k.abs y)).2 } else k.abs c := by
  unfold fixRes res
  by_cases h : (k.abs x).res ≠ 0 ∨ (k.abs y).res ≠ 0
  · rw [if_pos h, if_pos h]
    simp only
    split
    · rename_i hc; subst hc; rfl
    · split
      · rename_i hc; subst hc; rfl
      · rfl
  · rw [if_neg h, if_neg h]
    simp only [setRes_abs, setRes_has, hx, hy, and_true]
    cases q.resHint with
    | some r =>
      simp only
      by_cases h1 : c = x
      · subst h1; simp [hxy]
      · by_cases h2 : c = y
        · subst h2; simp [h1]
        · simp [h1, h2]
    | none =>
      cases q.sizeHint with
      | some s =>
        simp only
        by_cases h1 : c = x
        · subst h1; simp [hxy]
        · by_cases h2 : c = y
          · subst h2; simp [h1]
          · simp [h1, h2]
      | none =>
        simp only
        by_cases h1 : c = x
        · subst h1; simp [hxy]; decide
        · by_cases h2 : c = y
          · subst h2; simp [h1]; decide
          · simp [h1, h2]

theorem fixRes_fake (q : Quirks) (k : Kern) (x y : Nat) :
    (fixRes q k x y).2 = true ↔ MadeUp q (k.abs x) (k.abs y) := by
  unfold fixRes MadeUp
  by_cases h : (k.abs x).res ≠ 0 ∨ (k.abs y).res ≠ 0
  · rw [if_pos h]
    constructor
    · intro h; cases h
    · rintro ⟨h1, h2, _⟩
      rcases h with h | h <;> contradiction
  · rw [if_neg h]
    have h1 : (k.abs x).res = 0 := by omega
    have h2 : (k.abs y).res = 0 := by omega
    simp only [h1, h2, true_and]
    cases q.resHint with
    | some r => simp
    | none =>
      cases q.sizeHint with
      | some s => simp
      | none => simp

end Libinput.Devices
