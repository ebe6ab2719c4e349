import Verif.Parsers.Spec
import Verif.Strings.Props
namespace Libinput.Parsers
open Libinput.Strings Libinput.Strings.Spec Libinput.Parsers.Spec

/-- glibc's `%d`: saturate to `long`, then truncate. -/
def glibcConv : Conv where
  conv v := ((max (-9223372036854775808) (min v 9223372036854775807)) + 2147483648) % 4294967296 - 2147483648
  exact := by
    intro v h1 h2
    have e1 : INT_MIN = -2147483648 := rfl
    have e2 : INT_MAX = 2147483647 := rfl
    omega

/-! ### Wheel clicks -/

theorem atoi_int32 (s : Str) (v : Int) : safeAtoi s = some v ↔ IntText s v := by
  have := atoi_accepts_exactly_numerals 10 (by simp) s v
  unfold safeAtoi IntText
  rw [this]

/-- **C20.**  The wheel click count and angle parsers return 0, or the number the whole string spells, which is
then at most 360 in magnitude; every such number is returned.  Their behaviour is undefined exactly on
spellings of -2147483648. -/
theorem wheel_click_range (s : Str) :
    (∀ v, parseWheelClick (some s) = .val v → v = 0 ∨ (IntText s v ∧ -360 ≤ v ∧ v ≤ 360)) ∧
    (∀ v, IntText s v → -360 ≤ v → v ≤ 360 → parseWheelClick (some s) = .val v) ∧
    (parseWheelClick (some s) = .ub ↔ IntText s (-2147483648)) := by
  have e : INT_MIN = -2147483648 := rfl
  simp only [parseWheelClick]
  cases h : safeAtoi s with
  | none =>
    refine ⟨?_, ?_, ?_⟩
    · intro v hv; simp only [UB.val.injEq] at hv; exact Or.inl hv.symm
    · intro v hv; rw [(atoi_int32 s v).mpr hv] at h; cases h
    · simp only [reduceCtorEq, false_iff]
      intro hv; rw [(atoi_int32 s _).mpr hv] at h; cases h
  | some w =>
    have hw := (atoi_int32 s w).mp h
    have uniq : ∀ v, IntText s v → v = w := by
      intro v hv
      rw [(atoi_int32 s v).mpr hv] at h
      simpa using h
    simp only
    refine ⟨?_, ?_, ?_⟩
    · intro v
      split
      · intro hv; cases hv
      · split
        · intro hv; simp only [UB.val.injEq] at hv; exact Or.inl hv.symm
        · rename_i h1 h2
          intro hv; simp only [UB.val.injEq] at hv
          subst hv
          exact Or.inr ⟨hw, by omega, by omega⟩
    · intro v hv h1 h2
      have := uniq v hv
      subst this
      rw [if_neg (by omega), if_neg (by omega)]
    · constructor
      · intro hu
        split at hu
        · rename_i h1; rw [h1] at hw; exact hw
        · split at hu <;> cases hu
      · intro hv
        have := uniq _ hv
        rw [if_pos (by omega)]

/-- A missing property gives 0. -/
theorem wheel_click_missing : parseWheelClick none = .val 0 := rfl

/-- **C20, undefined input.** -/
theorem wheel_click_undefined : parseWheelClick (some "-2147483648".toList) = .ub := by decide +kernel

example : parseWheelClick (some "-15".toList) = .val (-15) ∧ parseWheelClick (some "361".toList) = .val 0 ∧
    parseWheelClick (some "15x".toList) = .val 0 := by decide +kernel

/-! ### Pairs -/

theorem scanPair_iff (C : Conv) (sep : Char) (hsep : digitVal 10 sep = none) (s : Str) (x y : Int) :
    scanPair C sep s = some (x, y) ↔ ∃ u v, Pair sep s u v ∧ x = C.conv u ∧ y = C.conv v := by
  constructor
  · intro h
    unfold scanPair at h
    cases h1 : strto 10 s with
    | none => rw [h1] at h; cases h
    | some q =>
      obtain ⟨n, m, r⟩ := q
      rw [h1] at h
      cases r with
      | nil => cases h
      | cons c r =>
        simp only at h
        split at h
        · rename_i hc
          subst hc
          cases h2 : strto 10 r with
          | none => rw [h2] at h; cases h
          | some q =>
            obtain ⟨n', m', r'⟩ := q
            rw [h2] at h
            simp only [Option.some.injEq, Prod.mk.injEq] at h
            obtain ⟨a, e1, na, _⟩ := strto_some h1
            obtain ⟨b, e2, nb, nd⟩ := strto_some h2
            refine ⟨signed n m, signed n' m', ⟨a, b, r', n, n', m, m', ?_, na, nb, ?_, rfl, rfl⟩, h.1.symm, h.2.symm⟩
            · rw [e1, e2]; simp
            · intro c t ht; rw [ht] at nd; exact nd
        · cases h
  · rintro ⟨u, v, ⟨a, b, rest, na, nb, ma, mb, rfl, ha, hb, hr, rfl, rfl⟩, rfl, rfl⟩
    obtain ⟨ws, sign, pre, digits, ds, rfl, g1, g2, g3, g4, g5, rfl⟩ := ha
    obtain ⟨ws', sign', pre', digits', ds', rfl, k1, k2, k3, k4, k5, rfl⟩ := hb
    have s1 := strto_eq 10 (by omega) ws sign pre digits (sep :: (ws' ++ sign' ++ pre' ++ digits' ++ rest)) na ds g1 g2 g3 g4 g5 hsep
      (by intro _ h; cases h)
    have nd : NoDigit 10 rest := by
      cases rest with
      | nil => trivial
      | cons c t => exact hr c t rfl
    have s2 := strto_eq 10 (by omega) ws' sign' pre' digits' rest nb ds' k1 k2 k3 k4 k5 nd (by intro _ h; cases h)
    unfold scanPair
    have e : ws ++ sign ++ pre ++ digits ++ sep :: (ws' ++ sign' ++ pre' ++ digits') ++ rest =
        ws ++ sign ++ pre ++ digits ++ sep :: (ws' ++ sign' ++ pre' ++ digits' ++ rest) := by simp
    rw [e, s1]
    simp only [if_true, s2]

/-- **C24, dimensions.**  The dimension parser succeeds exactly on two numbers around `x`, both of which must be
strictly positive, and yields them.  (`C.conv` is the identity on `int`.) -/
theorem dimension_iff (C : Conv) (s : Str) (w h : Int) :
    parseDimension C (some s) = some (w, h) ↔
      0 < w ∧ 0 < h ∧ ∃ u v, Pair 'x' s u v ∧ w = C.conv u ∧ h = C.conv v := by
  rw [← scanPair_iff C 'x' (by decide)]
  simp only [parseDimension]
  cases hp : scanPair C 'x' s with
  | none => simp
  | some q =>
    obtain ⟨x, y⟩ := q
    simp only [Option.some.injEq, Prod.mk.injEq]
    constructor
    · intro hh
      split at hh
      · cases hh
      · simp only [Option.some.injEq, Prod.mk.injEq] at hh
        obtain ⟨rfl, rfl⟩ := hh
        exact ⟨by omega, by omega, rfl, rfl⟩
    · rintro ⟨h1, h2, rfl, rfl⟩
      rw [if_neg (by omega)]

/-- **C24, ranges.**  The range parser yields 0/0 for `none` and otherwise succeeds exactly on two numbers around a
colon of which the first is strictly greater, and yields them. -/
theorem range_iff (C : Conv) (s : Str) (hi lo : Int) :
    parseRange C (some s) = some (hi, lo) ↔
      (s = "none".toList ∧ hi = 0 ∧ lo = 0) ∨
      (lo < hi ∧ ∃ u v, Pair ':' s u v ∧ hi = C.conv u ∧ lo = C.conv v) := by
  rw [← scanPair_iff C ':' (by decide)]
  have en : "none".toList = ['n', 'o', 'n', 'e'] := rfl
  rw [en]
  simp only [parseRange]
  by_cases hn : s = ['n', 'o', 'n', 'e']
  · rw [if_pos hn]
    subst hn
    have : scanPair C ':' ['n', 'o', 'n', 'e'] = none := rfl
    rw [this]
    simp only [Option.some.injEq, Prod.mk.injEq, true_and, reduceCtorEq, and_false, or_false]
    constructor <;> (rintro ⟨rfl, rfl⟩; exact ⟨rfl, rfl⟩)
  · rw [if_neg hn]
    simp only [hn, false_and, false_or]
    cases hp : scanPair C ':' s with
    | none => simp
    | some q =>
      obtain ⟨x, y⟩ := q
      simp only [Option.some.injEq, Prod.mk.injEq]
      constructor
      · intro hh
        split at hh
        · cases hh
        · simp only [Option.some.injEq, Prod.mk.injEq] at hh
          obtain ⟨rfl, rfl⟩ := hh
          exact ⟨by omega, rfl, rfl⟩
      · rintro ⟨h1, rfl, rfl⟩
        rw [if_neg (by omega)]

/-- Missing properties fail. -/
theorem pair_missing (C : Conv) : parseDimension C none = none ∧ parseRange C none = none := ⟨rfl, rfl⟩

example : parseDimension glibcConv (some "10x20".toList) = some (10, 20) ∧
    parseDimension glibcConv (some "10x-2".toList) = none ∧ parseDimension glibcConv (some "10".toList) = none ∧
    parseRange glibcConv (some "10:8".toList) = some (10, 8) ∧ parseRange glibcConv (some "8:10".toList) = none ∧
    parseRange glibcConv (some "none".toList) = some (0, 0) := by decide +kernel
example : Pair 'x' "10x20".toList 10 20 :=
  ⟨['1', '0'], ['2', '0'], [], false, false, 10, 20, rfl,
   ⟨[], [], [], ['1', '0'], [1, 0], rfl, by simp, by simp, by simp, by simp, by decide, by decide⟩,
   ⟨[], [], [], ['2', '0'], [2, 0], rfl, by simp, by simp, by simp, by simp, by decide, by decide⟩, by simp, rfl, rfl⟩

/-- **C24, out of range.**  Beyond the range of `int` the values are not those written. -/
theorem dimension_truncates : parseDimension glibcConv (some "4294967297x1".toList) = some (1, 1) := by decide +kernel

/-! ### EVDEV_ABS -/

theorem splitColon_field {f rest : Str} (h : ':' ∉ f) : splitColon (f ++ ':' :: rest) = (f, some rest) := by
  induction f with
  | nil => simp [splitColon]
  | cons c f ih =>
    simp only [List.mem_cons, not_or] at h
    rw [List.cons_append, splitColon, if_neg (fun e => h.1 e.symm), ih h.2]

theorem splitColon_last {f : Str} (h : ':' ∉ f) : splitColon f = (f, none) := by
  induction f with
  | nil => rfl
  | cons c f ih =>
    simp only [List.mem_cons, not_or] at h
    rw [splitColon, if_neg (fun e => h.1 e.symm), ih h.2]

theorem absLoop_eq (i : Nat) (v : AbsVals) (c : Char) (t : Str) :
    absLoop i v (c :: t) =
      if 4 < i then some v
      else if c = ':' then absLoop (i + 1) v t
      else
        match safeAtoi (splitColon (c :: t)).1 with
        | none => none
        | some x =>
          match (splitColon (c :: t)).2 with
          | none => some { mask := v.mask ||| 2 ^ i, values := fun j => if j = i then x else v.values j }
          | some r => absLoop (i + 1) { mask := v.mask ||| 2 ^ i, values := fun j => if j = i then x else v.values j } r := by
  conv => lhs; unfold absLoop
  split
  · rfl
  · split
    · rfl
    · split
      · rename_i h; rw [h]
      · rename_i x h
        rw [h]
        split
        · rename_i h2; rw [h2]
        · rename_i h2; rw [h2]

/-- What the loop computes from field `i` on. -/
theorem absLoop_fields {s : Str} {fs : List Str} (hf : Fields s fs) : ∀ i v, i ≤ 5 →
    (∀ w, absLoop i v s = some w →
      (∀ k, k < 5 - i → ∀ f, fs[k]? = some f → f ≠ [] → IntText f (w.values (i + k)) ∧ w.mask.testBit (i + k) = true) ∧
      (∀ k, k < 5 - i → (fs[k]? = none ∨ fs[k]? = some []) → w.mask.testBit (i + k) = v.mask.testBit (i + k)) ∧
      (∀ j, j < i ∨ 5 ≤ j → w.mask.testBit j = v.mask.testBit j) ∧ (∀ j, j < i → w.values j = v.values j)) ∧
    (absLoop i v s = none ↔ ∃ k f, k < 5 - i ∧ fs[k]? = some f ∧ f ≠ [] ∧ ¬ ∃ x, IntText f x) := by
  have bit : ∀ (a i : Nat) (j : Nat), (a ||| 2 ^ i).testBit j = (a.testBit j || decide (i = j)) := by
    intro a i j; rw [Nat.testBit_or, Nat.testBit_two_pow]
  induction hf with
  | last f h =>
    intro i v hi
    cases f with
    | nil =>
      have e : absLoop i v [] = some v := by unfold absLoop; rfl
      rw [e]
      refine ⟨?_, ?_⟩
      · rintro w ⟨⟩
        refine ⟨?_, by simp, by simp, by simp⟩
        intro k _ f hk hne
        cases k with
        | zero => simp at hk; exact absurd hk.symm (by simpa using hne)
        | succ k => simp at hk
      · simp only [reduceCtorEq, false_iff]
        rintro ⟨k, f, _, hk, hne, _⟩
        cases k with
        | zero => simp at hk; exact hne hk
        | succ k => simp at hk
    | cons c t =>
      rw [absLoop_eq]
      by_cases h4 : 4 < i
      · rw [if_pos h4]
        refine ⟨?_, ?_⟩
        · rintro w ⟨⟩
          exact ⟨by intro k hk; omega, by simp, by simp, by simp⟩
        · simp only [reduceCtorEq, false_iff]
          rintro ⟨k, f, hk, _⟩; omega
      · rw [if_neg h4, if_neg (fun e => h (by simp [e])), splitColon_last h]
        simp only
        cases ha : safeAtoi (c :: t) with
        | none =>
          refine ⟨by simp, ?_⟩
          simp only [true_iff]
          refine ⟨0, c :: t, by omega, by simp, by simp, ?_⟩
          rintro ⟨x, hx⟩
          rw [(atoi_int32 _ _).mpr hx] at ha; cases ha
        | some x =>
          refine ⟨?_, ?_⟩
          · rintro w ⟨⟩
            refine ⟨?_, ?_, ?_, ?_⟩
            · intro k _ f hk hne
              cases k with
              | zero =>
                simp only [List.getElem?_cons_zero, Option.some.injEq] at hk
                subst hk
                refine ⟨?_, ?_⟩
                · simp only [Nat.add_zero, if_true]; exact (atoi_int32 _ _).mp ha
                · rw [bit]; simp
              | succ k => simp at hk
            · intro k _ hk
              cases k with
              | zero => simp at hk
              | succ k => rw [bit]; simp
            · intro j hj
              rw [bit]
              have : i ≠ j := by omega
              simp [this]
            · intro j hj
              have : j ≠ i := by omega
              simp [this]
          · simp only [reduceCtorEq, false_iff]
            rintro ⟨k, f, _, hk, _, hno⟩
            cases k with
            | zero =>
              simp only [List.getElem?_cons_zero, Option.some.injEq] at hk
              subst hk
              exact hno ⟨x, (atoi_int32 _ _).mp ha⟩
            | succ k => simp at hk
  | cons f rest fs h hr ih =>
    intro i v hi
    by_cases h4 : 4 < i
    · have e : absLoop i v (f ++ ':' :: rest) = some v := by
        cases f with
        | nil => rw [List.nil_append, absLoop_eq, if_pos h4]
        | cons c t => rw [List.cons_append, absLoop_eq, if_pos h4]
      rw [e]
      refine ⟨?_, ?_⟩
      · rintro w ⟨⟩
        exact ⟨by intro k hk; omega, by simp, by simp, by simp⟩
      · simp only [reduceCtorEq, false_iff]
        rintro ⟨k, f, hk, _⟩; omega
    · cases f with
      | nil =>
        rw [List.nil_append, absLoop_eq, if_neg h4, if_pos rfl]
        obtain ⟨i1, i2⟩ := ih (i + 1) v (by omega)
        refine ⟨?_, ?_⟩
        · intro w hw
          obtain ⟨a, b, c, d⟩ := i1 w hw
          refine ⟨?_, ?_, ?_, ?_⟩
          · intro k hk f hf hne
            cases k with
            | zero => simp at hf; exact absurd hf.symm (by simpa using hne)
            | succ k =>
              rw [List.getElem?_cons_succ] at hf
              have := a k (by omega) f hf hne
              rwa [show i + 1 + k = i + (k + 1) by omega] at this
          · intro k hk hf
            cases k with
            | zero => exact c i (by omega)
            | succ k =>
              rw [List.getElem?_cons_succ] at hf
              have := b k (by omega) hf
              rwa [show i + 1 + k = i + (k + 1) by omega] at this
          · intro j hj; exact c j (by omega)
          · intro j hj; exact d j (by omega)
        · rw [i2]
          constructor
          · rintro ⟨k, f, hk, hf, hne, hno⟩
            exact ⟨k + 1, f, by omega, by simpa using hf, hne, hno⟩
          · rintro ⟨k, f, hk, hf, hne, hno⟩
            cases k with
            | zero => simp at hf; exact absurd hf.symm (by simpa using hne)
            | succ k => exact ⟨k, f, by omega, by simpa using hf, hne, hno⟩
      | cons c t =>
        rw [List.cons_append, absLoop_eq, if_neg h4, if_neg (fun e => h (by simp [e])), ← List.cons_append,
          splitColon_field h]
        simp only
        cases ha : safeAtoi (c :: t) with
        | none =>
          refine ⟨by simp, ?_⟩
          simp only [true_iff]
          refine ⟨0, c :: t, by omega, by simp, by simp, ?_⟩
          rintro ⟨x, hx⟩
          rw [(atoi_int32 _ _).mpr hx] at ha; cases ha
        | some x =>
          simp only
          obtain ⟨i1, i2⟩ := ih (i + 1) { mask := v.mask ||| 2 ^ i, values := fun j => if j = i then x else v.values j } (by omega)
          refine ⟨?_, ?_⟩
          · intro w hw
            obtain ⟨a, b, cc, d⟩ := i1 w hw
            simp only at b cc d
            refine ⟨?_, ?_, ?_, ?_⟩
            · intro k hk f hf hne
              cases k with
              | zero =>
                simp only [List.getElem?_cons_zero, Option.some.injEq] at hf
                subst hf
                refine ⟨?_, ?_⟩
                · rw [Nat.add_zero, d i (by omega), if_pos rfl]; exact (atoi_int32 _ _).mp ha
                · rw [Nat.add_zero, cc i (by omega), bit]; simp
              | succ k =>
                rw [List.getElem?_cons_succ] at hf
                have := a k (by omega) f hf hne
                rwa [show i + 1 + k = i + (k + 1) by omega] at this
            · intro k hk hf
              cases k with
              | zero => simp at hf
              | succ k =>
                rw [List.getElem?_cons_succ] at hf
                have := b k (by omega) hf
                rw [show i + 1 + k = i + (k + 1) by omega, bit] at this
                rw [this]; simp
            · intro j hj
              rw [cc j (by omega), bit]
              have : i ≠ j := by omega
              simp [this]
            · intro j hj
              rw [d j (by omega)]
              have : j ≠ i := by omega
              simp [this]
          · rw [i2]
            constructor
            · rintro ⟨k, f, hk, hf, hne, hno⟩
              exact ⟨k + 1, f, by omega, by simpa using hf, hne, hno⟩
            · rintro ⟨k, f, hk, hf, hne, hno⟩
              cases k with
              | zero =>
                simp only [List.getElem?_cons_zero, Option.some.injEq] at hf
                subst hf
                exact absurd ⟨x, (atoi_int32 _ _).mp ha⟩ hno
              | succ k => exact ⟨k, f, by omega, by simpa using hf, hne, hno⟩

/-- **C23.**  Given a property of at most 24 bytes with colon-separated fields `fs`: if each of the first five fields
is empty or a number, bit `i` of the mask is set exactly if field `i` is among these and not empty, and value `i` is
then the number in it; if one of the first five is anything else, the mask is 0.  Longer properties give mask 0. -/
theorem evdev_abs_values (s : Str) (fs : List Str) (hf : Fields s fs) :
    (s.length ≤ 24 → (∀ (i : Nat) f, i < 5 → fs[i]? = some f → f = [] ∨ ∃ x, IntText f x) →
      (∀ i, (parseAbs s).mask.testBit i = true ↔ i < 5 ∧ ∃ f, fs[i]? = some f ∧ f ≠ []) ∧
      (∀ (i : Nat) f, i < 5 → fs[i]? = some f → f ≠ [] → IntText f ((parseAbs s).values i))) ∧
    ((∃ (i : Nat) (f : Str), i < 5 ∧ fs[i]? = some f ∧ f ≠ [] ∧ ¬ ∃ x, IntText f x) → (parseAbs s).mask = 0) ∧
    (24 < s.length → (parseAbs s).mask = 0) := by
  obtain ⟨h1, h2⟩ := absLoop_fields hf 0 { mask := 0, values := fun _ => 0 } (by omega)
  simp only [Nat.sub_zero, Nat.zero_add] at h1 h2
  refine ⟨?_, ?_, ?_⟩
  · intro hl hok
    unfold parseAbs
    rw [if_neg (by omega)]
    cases ha : absLoop 0 { mask := 0, values := fun _ => 0 } s with
    | none =>
      obtain ⟨k, f, hk, hfk, hne, hno⟩ := h2.mp ha
      rcases hok k f hk hfk with h | h
      · exact absurd h hne
      · exact absurd h hno
    | some w =>
      obtain ⟨a, b, c, d⟩ := h1 w ha
      simp only
      refine ⟨?_, ?_⟩
      · intro i
        by_cases hi : i < 5
        · cases hfi : fs[i]? with
          | none => rw [b i hi (Or.inl hfi)]; simp
          | some f =>
            cases f with
            | nil => rw [b i hi (Or.inr hfi)]; simp
            | cons x t => rw [(a i hi _ hfi (by simp)).2]; simp [hi]
        · rw [c i (by omega)]; simp [hi]
      · intro i f hi hfi hne
        exact (a i hi f hfi hne).1
  · intro hbad
    unfold parseAbs
    split
    · rfl
    · rw [h2.mpr hbad]
  · intro hl
    unfold parseAbs
    rw [if_pos (by omega)]

theorem first_colon (s : Str) (h : ':' ∈ s) : ∃ a b, s = a ++ ':' :: b ∧ ':' ∉ a := by
  induction s with
  | nil => simp at h
  | cons c s ih =>
    by_cases hc : c = ':'
    · exact ⟨[], s, by simp [hc], by simp⟩
    · have : ':' ∈ s := by
        rcases List.mem_cons.mp h with h | h
        · exact absurd h.symm hc
        · exact h
      obtain ⟨a, b, rfl, hn⟩ := ih this
      exact ⟨c :: a, b, rfl, by simp only [List.mem_cons, not_or]; exact ⟨fun e => hc e.symm, hn⟩⟩

/-- Every string has fields, so C23 says something about every string. -/
theorem fields_total (s : Str) : ∃ fs, Fields s fs := by
  suffices ∀ n (s : Str), s.length ≤ n → ∃ fs, Fields s fs from this s.length s (Nat.le_refl _)
  intro n
  induction n with
  | zero =>
    intro s hs
    have : s = [] := List.length_eq_zero_iff.mp (by omega)
    subst this
    exact ⟨_, Fields.last [] (by simp)⟩
  | succ n ih =>
    intro s hs
    by_cases h : ':' ∈ s
    · obtain ⟨a, b, rfl, hn⟩ := first_colon s h
      obtain ⟨fs, hfs⟩ := ih b (by simp only [List.length_append, List.length_cons] at hs; omega)
      exact ⟨_, Fields.cons a b fs hn hfs⟩
    · exact ⟨_, Fields.last s h⟩

example : (parseAbs "1:2::-4".toList).mask = 0b1011 ∧ (parseAbs "1:2::-4".toList).values 3 = -4 ∧
    (parseAbs "1:a".toList).mask = 0 ∧ (parseAbs "1:2:3:4:5:x".toList).mask = 31 := by decide +kernel
example : Fields "1::x".toList [['1'], [], ['x']] :=
  Fields.cons ['1'] _ _ (by decide) (Fields.cons [] _ _ (by decide) (Fields.last ['x'] (by decide)))

/-! ### DPI -/

theorem dpiLoop_eq (C : Conv) (dpi : Int) (c : Char) (s : Str) :
    dpiLoop C dpi (c :: s) =
      if c = ' ' then dpiLoop C dpi s
      else if starBad c s then 0
      else
        match dpiEntry C (unstar c s) with
        | none => 0
        | some (d, rate, rest) =>
          if d ≤ 0 ∨ rate ≤ 0 ∨ rest.head? = some '@' then 0
          else if c = '*' then d
          else dpiLoop C d rest := by
  conv => lhs; unfold dpiLoop
  split
  · rfl
  · split
    · rfl
    · split
      · rename_i h; rw [h]
      · rename_i h; rw [h]

theorem starBad_other {c : Char} (h : c ≠ '*') (s : Str) : ¬ (starBad c s = true) := by
  cases s <;> simp [starBad, h]

theorem unstar_other {c : Char} (h : c ≠ '*') (s : Str) : unstar c s = c :: s := by
  unfold unstar; rw [if_neg h]

theorem dpiLoop_nil (C : Conv) (d : Int) : dpiLoop C d [] = d := by unfold dpiLoop; rfl

theorem dpiRate_some {C : Conv} {s : Str} {r : Int} {rest : Str} (h : dpiRate C s = some (r, rest)) :
    ∃ a, s = a ++ rest := by
  cases s with
  | nil => cases h
  | cons c t =>
    simp only [dpiRate] at h
    split at h
    · cases hs : strto 10 t with
      | none => rw [hs] at h; cases h
      | some q =>
        obtain ⟨n, m, r0⟩ := q
        rw [hs] at h
        cases h
        obtain ⟨f, e, _⟩ := strto_some hs
        exact ⟨c :: f, by rw [e]; rfl⟩
    · cases h

theorem dpiEntry_some {C : Conv} {s : Str} {d r : Int} {rest : Str} (h : dpiEntry C s = some (d, r, rest)) :
    ∃ a b neg m, s = a ++ b ++ rest ∧ Numeral 10 a neg m ∧ d = C.conv (signed neg m) := by
  unfold dpiEntry at h
  cases hs : strto 10 s with
  | none => rw [hs] at h; cases h
  | some q =>
    obtain ⟨n, m, r0⟩ := q
    rw [hs] at h
    obtain ⟨f, e, hn, _⟩ := strto_some hs
    simp only at h
    cases hr : dpiRate C r0 with
    | none => rw [hr] at h; cases h; exact ⟨f, [], n, m, by simpa using e, hn, rfl⟩
    | some q =>
      obtain ⟨rate, r'⟩ := q
      obtain ⟨a, ea⟩ := dpiRate_some hr
      rw [hr] at h; cases h
      exact ⟨f, a, n, m, by rw [e, ea]; simp, hn, rfl⟩

/-- **C24, DPI range.**  For every string the DPI parser returns 0 or a strictly positive number that is spelled
somewhere in the string. -/
theorem dpi_zero_or_positive (C : Conv) (s : Str) :
    parseDpi C (some s) = 0 ∨ (0 < parseDpi C (some s) ∧
      ∃ a b c neg m, s = a ++ b ++ c ∧ Numeral 10 b neg m ∧ parseDpi C (some s) = C.conv (signed neg m)) := by
  have key : ∀ n (s : Str), s.length ≤ n → ∀ d, dpiLoop C d s = d ∨ dpiLoop C d s = 0 ∨ (0 < dpiLoop C d s ∧
      ∃ a b c neg m, s = a ++ b ++ c ∧ Numeral 10 b neg m ∧ dpiLoop C d s = C.conv (signed neg m)) := by
    intro n
    induction n with
    | zero =>
      intro s hs d
      have : s = [] := List.length_eq_zero_iff.mp (by omega)
      subst this
      exact Or.inl (dpiLoop_nil C d)
    | succ n ih =>
      intro s hs d
      cases s with
      | nil => exact Or.inl (dpiLoop_nil C d)
      | cons c s =>
        simp only [List.length_cons] at hs
        rw [dpiLoop_eq]
        split
        · rcases ih s (by omega) d with h | h | ⟨h0, a, b, c', neg, m, h1, h2, h3⟩
          · exact Or.inl h
          · exact Or.inr (Or.inl h)
          · exact Or.inr (Or.inr ⟨h0, c :: a, b, c', neg, m, by rw [h1]; rfl, h2, h3⟩)
        · split
          · exact Or.inr (Or.inl rfl)
          · have hp : ∃ pre, c :: s = pre ++ unstar c s := by
              unfold unstar
              split
              · exact ⟨[c], rfl⟩
              · exact ⟨[], rfl⟩
            obtain ⟨pre, hpre⟩ := hp
            generalize unstar c s = p at hpre ⊢
            cases he : dpiEntry C p with
            | none => exact Or.inr (Or.inl rfl)
            | some q =>
              obtain ⟨d', rate, rest⟩ := q
              obtain ⟨a, b, neg, m, e1, e2, e3⟩ := dpiEntry_some he
              simp only
              split
              · exact Or.inr (Or.inl rfl)
              · rename_i hnot
                have here : 0 < d' ∧ ∃ a b c_1 neg m, c :: s = a ++ b ++ c_1 ∧ Numeral 10 b neg m ∧
                    d' = C.conv (signed neg m) :=
                  ⟨by omega, pre, a, b ++ rest, neg, m, by rw [hpre, e1]; simp, e2, e3⟩
                split
                · exact Or.inr (Or.inr here)
                · have hl := dpiEntry_lt he
                  have hpl := congrArg List.length hpre
                  simp only [List.length_cons, List.length_append] at hpl
                  rcases ih rest (by omega) d' with h | h | ⟨h0, a', b', c', neg', m', h1, h2, h3⟩
                  · rw [h]; exact Or.inr (Or.inr here)
                  · exact Or.inr (Or.inl h)
                  · exact Or.inr (Or.inr ⟨h0, pre ++ a ++ b ++ a', b', c', neg', m', by rw [hpre, e1, h1]; simp, h2, h3⟩)
  rcases key s.length s (Nat.le_refl _) 0 with h | h | h
  · exact Or.inl h
  · exact Or.inl h
  · exact Or.inr h

theorem strto_text {d : Str} {v : Nat} (h : Digits d v) (rest : Str) (hr : NoDigit 10 rest) :
    strto 10 (d ++ rest) = some (false, v, rest) := by
  obtain ⟨hne, ds, hd, rfl⟩ := h
  have := strto_eq 10 (by omega) [] [] [] d rest false ds (by simp) (by simp) (by simp) hne hd hr (by simp)
  simpa using this

/-- What may follow an entry without continuing it. -/
def After : Str → Prop
  | [] => True
  | c :: _ => digitVal 10 c = none ∧ c ≠ '@'

theorem After.noDigit {s : Str} (h : After s) : NoDigit 10 s := by
  cases s with
  | nil => trivial
  | cons c t => exact h.1

theorem After.noAt {s : Str} (h : After s) : s.head? ≠ some '@' := by
  cases s with
  | nil => simp
  | cons c t => simpa using h.2

theorem after_rate {C : Conv} {s : Str} (h : After s) : dpiRate C s = none := by
  cases s with
  | nil => rfl
  | cons c t => simp only [dpiRate, if_neg h.2]

theorem conv_small (C : Conv) (v : Nat) (h : v ≤ 2147483647) : C.conv (signed false v) = v := by
  have e1 : INT_MIN = -2147483648 := rfl
  have e2 : INT_MAX = 2147483647 := rfl
  exact C.exact _ (by simp only [signed, Bool.false_eq_true, if_false]; omega)
    (by simp only [signed, Bool.false_eq_true, if_false]; omega)

theorem entry_plain (C : Conv) {e : Entry} {t : Str} (h : EntryText e t) (hs : e.star = false) (hf : e.fits)
    (rest : Str) (ha : After rest) :
    dpiEntry C (t ++ rest) = some ((e.dpi : Int), ((e.rate.getD 1 : Nat) : Int), rest) ∧
      ∃ c t', t = c :: t' ∧ isDigit c = true := by
  have hd : ∀ d v, Digits d v → ∃ c t', d = c :: t' ∧ isDigit c = true := by
    intro d v hd
    obtain ⟨hne, ds, hd, _⟩ := hd
    obtain ⟨c, t', e1, e2⟩ := head_digit hd hne
    exact ⟨c, t', e1, by rw [isDigit_digitVal]; exact e2⟩
  cases h with
  | plain _ v h =>
    refine ⟨?_, hd t v h⟩
    unfold dpiEntry
    rw [strto_text h rest ha.noDigit]
    simp only [after_rate ha, conv_small C v hf.1]
    rfl
  | rate d r v w h h' =>
    refine ⟨?_, ?_⟩
    · unfold dpiEntry
      rw [List.append_assoc, strto_text h _ (by show digitVal 10 '@' = none; decide)]
      simp only [List.cons_append, dpiRate, if_true, strto_text h' rest ha.noDigit, conv_small C v hf.1,
        conv_small C w (hf.2 w rfl)]
      rfl
    · obtain ⟨c, t', rfl, hc⟩ := hd d v h
      exact ⟨c, _, rfl, hc⟩
  | star e t h hs' => simp at hs

theorem digit_facts {c : Char} (h : isDigit c = true) : c ≠ ' ' ∧ c ≠ '*' := by
  constructor <;> (rintro rfl; simp [isDigit] at h)

theorem spaces_skip (C : Conv) (gap s : Str) (h : ∀ c ∈ gap, c = ' ') (d : Int) :
    dpiLoop C d (gap ++ s) = dpiLoop C d s := by
  induction gap with
  | nil => rfl
  | cons c gap ih =>
    rw [List.cons_append, dpiLoop_eq, if_pos (h c (by simp))]
    exact ih (fun c hc => h c (by simp [hc]))

theorem upToDefault_cons (e : Entry) (es : List Entry) :
    upToDefault (e :: es) = if e.star then [e] else e :: upToDefault es := by
  unfold upToDefault
  cases h : e.star <;> simp [h]

theorem positive_iff (e : Entry) : e.positive ↔ ¬ ((e.dpi : Int) ≤ 0 ∨ ((e.rate.getD 1 : Nat) : Int) ≤ 0) := by
  unfold Entry.positive
  cases e.rate with
  | none => simp
  | some r => simp

/-- The loop over well-formed entries followed by anything that does not continue the last one. -/
theorem dpiLoop_text (C : Conv) {es : List Entry} {s : Str} (h : DpiText es s) (hf : ∀ e ∈ es, e.fits) (g : Str)
    (hg : After g) : ∀ d : Int,
    ((∃ e ∈ upToDefault es, ¬ e.positive) → dpiLoop C d (s ++ g) = 0) ∧
    ((∀ e ∈ upToDefault es, e.positive) →
      dpiLoop C d (s ++ g) = if es.any (·.star) then (((upToDefault es).getLast?.map (fun e => (e.dpi : Int))).getD d)
        else dpiLoop C (((upToDefault es).getLast?.map (fun e => (e.dpi : Int))).getD d) g) := by
  induction h with
  | nil gap h =>
    intro d
    rw [spaces_skip C gap g h]
    simp [upToDefault]
  | cons gap t rest e es hgap ht hsep hr ih =>
    intro d
    have ha : After (rest ++ g) := by
      rcases hsep with rfl | ⟨r, rfl⟩
      · exact hg
      · exact ⟨by decide, by decide⟩
    have hfe := hf e (by simp)
    rw [List.append_assoc, List.append_assoc, spaces_skip C gap _ hgap, upToDefault_cons]
    cases hst : e.star with
    | false =>
      obtain ⟨h1, c, t', ht', hc⟩ := entry_plain C ht hst hfe _ ha
      have hcc := digit_facts hc
      have hl : dpiLoop C d (t ++ (rest ++ g)) =
          if (e.dpi : Int) ≤ 0 ∨ ((e.rate.getD 1 : Nat) : Int) ≤ 0 then 0 else dpiLoop C e.dpi (rest ++ g) := by
        rw [ht', List.cons_append, dpiLoop_eq, if_neg hcc.1, if_neg (starBad_other hcc.2 _), unstar_other hcc.2, ← List.cons_append,
          ← ht', h1]
        simp only [ha.noAt, or_false, if_neg hcc.2]
      rw [hl]
      obtain ⟨i1, i2⟩ := ih (fun e he => hf e (by simp [he])) (e.dpi : Int)
      have hp := positive_iff e
      simp only [Bool.false_eq_true, if_false, List.any_cons, hst, Bool.false_or]
      constructor
      · rintro ⟨e', he', hn⟩
        rcases List.mem_cons.mp he' with rfl | he'
        · rw [if_pos (by rw [hp] at hn; exact Decidable.not_not.mp hn)]
        · split
          · rfl
          · exact i1 ⟨e', he', hn⟩
      · intro hall
        rw [if_neg (hp.mp (hall e (by simp))), i2 (fun e' he' => hall e' (by simp [he']))]
        have : (((e :: upToDefault es).getLast?.map (fun e => (e.dpi : Int))).getD d) =
            (((upToDefault es).getLast?.map (fun e => (e.dpi : Int))).getD (e.dpi : Int)) := by
          cases hu : upToDefault es with
          | nil => rfl
          | cons a l => rw [List.getLast?_cons_cons]; simp [List.getLast?_cons]
        rw [this]
    | true =>
      cases ht with
      | plain _ v h => simp at hst
      | rate d r v w h h' => simp at hst
      | star e0 t0 h0 hs0 =>
        obtain ⟨h1, c, t', ht', hc⟩ := entry_plain C h0 hs0 hfe _ ha
        have hl : dpiLoop C d ('*' :: t0 ++ (rest ++ g)) =
            if (e0.dpi : Int) ≤ 0 ∨ ((e0.rate.getD 1 : Nat) : Int) ≤ 0 then 0 else (e0.dpi : Int) := by
          rw [List.cons_append, dpiLoop_eq, if_neg (by decide)]
          rw [if_neg (by rw [ht']; simp [starBad, hc]), show unstar '*' (t0 ++ (rest ++ g)) = t0 ++ (rest ++ g) from rfl, h1]
          simp only [ha.noAt, or_false, if_true]
        rw [hl]
        have hp := positive_iff ⟨true, e0.dpi, e0.rate⟩
        simp only [if_true, List.any_cons, Bool.true_or, List.mem_singleton, List.getLast?_singleton, Option.map_some,
          Option.getD_some]
        constructor
        · rintro ⟨e', rfl, hn⟩
          rw [if_pos (by rw [hp] at hn; exact Decidable.not_not.mp hn)]
        · intro hall
          rw [if_neg (hp.mp (hall _ rfl))]

/-- **C24, DPI lists.**  For a well-formed DPI list with numbers in the range of `int`: the result is the first entry
marked as default, or the last entry if none is marked, provided that all entries up to that one are positive, and 0
otherwise. -/
theorem dpi_list (C : Conv) (es : List Entry) (s : Str) (h : DpiText es s) (hf : ∀ e ∈ es, e.fits) :
    ((∀ e ∈ upToDefault es, e.positive) →
      parseDpi C (some s) = match (upToDefault es).getLast? with | some e => (e.dpi : Int) | none => 0) ∧
    ((∃ e ∈ upToDefault es, ¬ e.positive) → parseDpi C (some s) = 0) := by
  obtain ⟨h1, h2⟩ := dpiLoop_text C h hf [] trivial 0
  rw [List.append_nil] at h1 h2
  refine ⟨?_, h1⟩
  intro hall
  show dpiLoop C 0 s = _
  rw [h2 hall, dpiLoop_nil]
  cases (upToDefault es).getLast? <;> simp

/-- **C24, DPI garbage.**  A well-formed list without default followed by something that is neither number, space, `*`
nor `@` gives 0. -/
theorem dpi_garbage (C : Conv) (es : List Entry) (s : Str) (h : DpiText es s) (hf : ∀ e ∈ es, e.fits)
    (hs : ∀ e ∈ es, e.star = false) (c : Char) (t : Str) (hd : isDigit c = false) (hsp : isSpace c = false)
    (h1 : c ≠ '*') (h2 : c ≠ '@') (h3 : c ≠ '-') (h4 : c ≠ '+') : parseDpi C (some (s ++ c :: t)) = 0 := by
  have hdv : digitVal 10 c = none := by
    rw [isDigit_digitVal] at hd
    simpa using hd
  obtain ⟨g1, g2⟩ := dpiLoop_text C h hf (c :: t) ⟨hdv, h2⟩ 0
  show dpiLoop C 0 (s ++ c :: t) = 0
  by_cases hall : ∀ e ∈ upToDefault es, e.positive
  · rw [g2 hall]
    have : es.any (·.star) = false := by
      rw [List.any_eq_false]; intro e he; rw [hs e he]; simp
    rw [this]
    simp only [Bool.false_eq_true, if_false]
    rw [dpiLoop_eq, if_neg (by rintro rfl; simp [isSpace] at hsp), if_neg (starBad_other h1 _), unstar_other h1]
    have : dpiEntry C (c :: t) = none := by
      have hsg : scanSign (c :: t) = (false, c :: t) := by
        unfold scanSign
        split
        · rename_i heq; simp at heq; exact absurd heq.1 h3
        · rename_i heq; simp at heq; exact absurd heq.1 h4
        · rfl
      have : strto 10 (c :: t) = none := by
        unfold strto
        simp only [List.dropWhile_cons, hsp, Bool.false_eq_true, if_false, hsg, scanPrefix]
        simp [scanDigits, hdv]
      unfold dpiEntry
      rw [this]
    rw [this]
  · exact g1 (by
      simp only [Classical.not_forall] at hall
      obtain ⟨e, he, hn⟩ := hall
      exact ⟨e, he, hn⟩)

theorem dpi_missing (C : Conv) : parseDpi C none = 0 := rfl

example : parseDpi glibcConv (some "400 *800@125 1600".toList) = 800 ∧ parseDpi glibcConv (some "400 800".toList) = 800 ∧
    parseDpi glibcConv (some "400 0 800".toList) = 0 ∧ parseDpi glibcConv (some "400@".toList) = 0 ∧
    parseDpi glibcConv (some "x".toList) = 0 := by decide +kernel
example : DpiText [⟨false, 400, none⟩, ⟨true, 800, some 125⟩] "400  *800@125".toList :=
  DpiText.cons [] ['4', '0', '0'] _ _ _ (by simp) (.plain _ _ ⟨by simp, [4, 0, 0], by decide, by decide⟩) (Or.inr ⟨_, rfl⟩)
    (DpiText.cons [' ', ' '] "*800@125".toList [] _ _ (by simp)
      (.star ⟨false, 800, some 125⟩ _ (.rate ['8', '0', '0'] ['1', '2', '5'] _ _ ⟨by simp, [8, 0, 0], by decide, by decide⟩
        ⟨by simp, [1, 2, 5], by decide, by decide⟩) rfl) (Or.inl rfl) (.nil [] (by simp)))

/-! ### Lists -/

theorem each_mapM {α β : Type} {f : α → Option β} {R : α → β → Prop} (hR : ∀ a b, f a = some b ↔ R a b) :
    ∀ (l : List α) (r : List β), l.mapM f = some r ↔ Each R l r := by
  intro l
  induction l with
  | nil => intro r; cases r <;> simp [Each]
  | cons a l ih =>
    intro r
    rw [List.mapM_cons]
    cases hf : f a with
    | none =>
      cases r with
      | nil => simp [Each]
      | cons b r =>
        simp only [Option.bind_eq_bind, Option.bind_none, reduceCtorEq, Each, false_iff, not_and]
        intro h; rw [(hR a b).mpr h] at hf; cases hf
    | some b' =>
      cases r with
      | nil =>
        simp only [Option.bind_eq_bind, Option.bind_some, Each, iff_false]
        cases hm : l.mapM f <;> simp
      | cons b r =>
        have hb : R a b ↔ b' = b := by rw [← hR, hf]; simp
        simp only [Option.bind_eq_bind, Option.bind_some, Each, hb, ← ih]
        cases hm : l.mapM f <;> simp

/-- **C36, calibration.**  The calibration parser succeeds exactly if the string has at least six space-separated
words and the first six are decimal numbers, and yields these six. -/
theorem calibration_iff {F : Type} (round : Decimal → Option F) (s : Str) (fs : List F) :
    parseCalibration round (some s) = some fs ↔
      ∃ ws, Splits (fun c => [' '].contains c) s ws ∧ 6 ≤ ws.length ∧
        Each (fun w f => ∃ d, DecimalNumeral w d ∧ round d = some f) (ws.take 6) fs := by
  have hsp := split_returns_exactly_words s [' ']
  simp only [parseCalibration]
  constructor
  · intro h
    cases hw : strvFromString s [' '] with
    | none => rw [hw] at h; cases h
    | some ws =>
      rw [hw] at h
      simp only at h
      split at h
      · cases h
      · exact ⟨ws, ((hsp.1 ws).mp hw).2, by omega, (each_mapM (atod_accepts_exactly_decimals round) _ _).mp h⟩
  · rintro ⟨ws, h1, h2, h3⟩
    rw [(hsp.1 ws).mpr ⟨by intro h; rw [h] at h2; simp at h2, h1⟩]
    simp only
    rw [if_neg (by omega)]
    exact (each_mapM (atod_accepts_exactly_decimals round) _ _).mpr h3

theorem parseKv_iff {F : Type} (round : Decimal → Option F) (kvSep p : Str) (ab : F × F) :
    parseKv round kvSep p = some ab ↔ ∃ k v, Splits (fun c => kvSep.contains c) p [k, v] ∧
      (∃ d, DecimalNumeral k d ∧ round d = some ab.1) ∧ (∃ d, DecimalNumeral v d ∧ round d = some ab.2) := by
  have hsp := split_returns_exactly_words p kvSep
  unfold parseKv
  constructor
  · intro h
    split at h
    · rename_i k v hs
      split at h
      · rename_i a b ha hb
        cases h
        exact ⟨k, v, ((hsp.1 _).mp hs).2, (atod_accepts_exactly_decimals round _ _).mp ha,
          (atod_accepts_exactly_decimals round _ _).mp hb⟩
      · cases h
    · cases h
  · rintro ⟨k, v, h1, h2, h3⟩
    rw [(hsp.1 _).mpr ⟨by simp, h1⟩]
    simp only
    rw [(atod_accepts_exactly_decimals round _ _).mpr h2, (atod_accepts_exactly_decimals round _ _).mpr h3]

/-- **C36, key-value lists.**  The list parser succeeds exactly if every separator-free word is a pair of decimal
numbers, and yields the pairs in order. -/
theorem kv_doubles_iff {F : Type} (round : Decimal → Option F) (s pairSep kvSep : Str) (l : List (F × F)) :
    kvDoubles round s pairSep kvSep = some l ↔
      pairSep ≠ [] ∧ kvSep ≠ [] ∧ ∃ ps, ps ≠ [] ∧ Splits (fun c => pairSep.contains c) s ps ∧
        Each (fun p (ab : F × F) => ∃ k v, Splits (fun c => kvSep.contains c) p [k, v] ∧
          (∃ d, DecimalNumeral k d ∧ round d = some ab.1) ∧ (∃ d, DecimalNumeral v d ∧ round d = some ab.2)) ps l := by
  have hsp := split_returns_exactly_words s pairSep
  unfold kvDoubles
  constructor
  · intro h
    split at h
    · cases h
    · rename_i hne
      cases hw : strvFromString s pairSep with
      | none => rw [hw] at h; cases h
      | some ws =>
        rw [hw] at h
        obtain ⟨h1, h2⟩ := (hsp.1 ws).mp hw
        exact ⟨fun e => hne (Or.inl e), fun e => hne (Or.inr e), ws, h1, h2, (each_mapM (parseKv_iff round kvSep) _ _).mp h⟩
  · rintro ⟨h1, h2, ws, h3, h4, h5⟩
    rw [if_neg (by simp [h1, h2]), (hsp.1 ws).mpr ⟨h3, h4⟩]
    exact (each_mapM (parseKv_iff round kvSep) _ _).mpr h5

theorem takeWhile_all (p : Char → Bool) (s : Str) : ∀ c ∈ s.takeWhile p, p c = true := by
  induction s with
  | nil => simp
  | cons a s ih =>
    intro c hc
    rw [List.takeWhile_cons] at hc
    split at hc
    · rename_i ha
      rcases List.mem_cons.mp hc with rfl | hc
      · exact ha
      · exact ih c hc
    · simp at hc

theorem scanTypeCode_iff (C : Conv) (s name : Str) (v : Int) :
    scanTypeCode C s = some (name, v) ↔
      ∃ (hex : Str) (neg : Bool) (m : Nat), s = name ++ ':' :: hex ∧ name ≠ [] ∧ name.length ≤ 12 ∧
        (∀ c ∈ name, ('A' ≤ c ∧ c ≤ 'Z') ∨ c = '_') ∧ Numeral 16 hex neg m ∧ v = C.conv (signed neg m) := by
  unfold scanTypeCode
  simp only
  generalize hp : (fun c : Char => decide (('A' ≤ c ∧ c ≤ 'Z') ∨ c = '_')) = p
  constructor
  · intro h
    obtain ⟨nm, hn⟩ : ∃ nm, List.take 12 (List.takeWhile p s) = nm := ⟨_, rfl⟩
    rw [hn] at h
    split at h
    · cases h
    · rename_i hne
      split at h
      · rename_i r hr
        split at h
        · rename_i n m hs
          cases h
          refine ⟨r, n, m, ?_, hne, ?_, ?_, (strto_whole_iff (by omega) _ _ _).mp hs, rfl⟩
          · have pre : name <+: s := by
              rw [← hn]
              exact (List.take_prefix _ _).trans (List.takeWhile_prefix p)
            have h1 : name = List.take name.length s := List.prefix_iff_eq_take.mp pre
            rw [← hr]
            exact (List.take_append_drop name.length s).symm.trans (by rw [← h1])
          · rw [← hn]; exact List.length_take_le _ _
          · intro c hc
            rw [← hn] at hc
            have := takeWhile_all p s c (List.mem_of_mem_take hc)
            rw [← hp] at this
            simpa using this
        · cases h
      · cases h
  · rintro ⟨hex, neg, m, rfl, hne, hl, hc, hx, rfl⟩
    have ht : List.takeWhile p (name ++ ':' :: hex) = name := by
      apply takeWhile_append_stop
      · intro c h; rw [← hp]; simpa using hc c h
      · rintro c t heq
        cases heq
        rw [← hp]; decide
    rw [ht, List.take_of_length_le hl, if_neg hne, List.drop_left]
    simp only
    rw [(strto_whole_iff (by omega) _ _ _).mpr hx]

theorem evcodeElement_iff (N : Names) (C : Conv) (w : Str) (tc : Nat × Nat) :
    evcodeElement N C w = some tc ↔ Evcode N C w tc := by
  obtain ⟨t, c⟩ := tc
  unfold evcodeElement Evcode
  by_cases hcol : ':' ∈ w
  · rw [if_neg (by simp [hcol])]
    simp only [hcol, not_true_eq_false, false_and, false_or]
    constructor
    · intro h
      cases hs : scanTypeCode C w with
      | none => rw [hs] at h; cases h
      | some q =>
        obtain ⟨name, code⟩ := q
        rw [hs] at h
        obtain ⟨hex, neg, m, h1, h2, h3, h4, h5, h6⟩ := (scanTypeCode_iff C w name code).mp hs
        simp only at h
        cases ht : N.type name with
        | none => rw [ht] at h; cases h
        | some t' =>
          rw [ht] at h
          simp only at h
          split at h
          · cases h
          · cases h
            exact ⟨name, hex, neg, m, h1, h2, h3, h4, h5, ht, by omega, by omega⟩
    · rintro ⟨name, hex, neg, m, h1, h2, h3, h4, h5, h6, h7, h8⟩
      rw [(scanTypeCode_iff C w name (C.conv (signed neg m))).mpr ⟨hex, neg, m, h1, h2, h3, h4, h5, rfl⟩]
      simp only [h6]
      rw [if_neg (by omega)]
      congr 2
      omega
  · rw [if_pos (by simp [hcol])]
    have hno : ¬ ∃ (name hex : Str) (neg : Bool) (m : Nat), w = name ++ ':' :: hex ∧ name ≠ [] ∧ name.length ≤ 12 ∧
        (∀ c ∈ name, ('A' ≤ c ∧ c ≤ 'Z') ∨ c = '_') ∧ Numeral 16 hex neg m ∧ N.type name = some t ∧
        (c : Int) = C.conv (signed neg m) ∧ (c : Int) ≤ N.maxCode t := by
      rintro ⟨name, hex, _, _, h, _⟩
      exact hcol (by rw [h]; simp)
    simp only [hcol, not_false_eq_true, true_and, hno, or_false]
    have ev : "EV_".toList = ['E', 'V', '_'] := rfl
    have em : evMap = [(['K', 'E', 'Y', '_'], 1), (['B', 'T', 'N', '_'], 1), (['A', 'B', 'S', '_'], 3),
      (['R', 'E', 'L', '_'], 2), (['S', 'W', '_'], 5)] := rfl
    have sw : ∀ p : Str, p ≠ [] → (strstartswith w p = true ↔ ∃ r, w = p ++ r) := by
      intro p hp
      rw [startswith_iff]
      exact ⟨fun h => h.2, fun h => ⟨hp, h⟩⟩
    have tk : w.take 3 = ['E', 'V', '_'] ↔ ∃ r, w = 'E' :: 'V' :: '_' :: r := by
      constructor
      · intro h
        exact ⟨w.drop 3, (List.take_append_drop 3 w).symm.trans (by rw [h]; rfl)⟩
      · rintro ⟨r, rfl⟩; rfl
    unfold evcodeString
    rw [ev, em]
    constructor
    · intro h
      split at h
      · rename_i h3
        cases ht : N.type w with
        | none => rw [ht] at h; cases h
        | some t' => rw [ht] at h; cases h; exact Or.inl ⟨tk.mp h3, rfl, rfl⟩
      · right
        simp only [List.find?_cons, List.find?_nil] at h
        have key : ∀ t', (match N.code t' w with | none => none | some c => some (t', c)) = some (t, c) →
            t = t' ∧ N.code t w = some c := by
          intro t' h
          cases hc : N.code t' w with
          | none => rw [hc] at h; cases h
          | some c' => rw [hc] at h; cases h; exact ⟨rfl, hc⟩
        split at h
        · cases h
        · rename_i p t' hf
          obtain ⟨e, hc⟩ := key t' h
          refine ⟨hc, ?_⟩
          split at hf
          · rename_i h1; cases hf; exact Or.inl ⟨(sw _ (by simp)).mp h1, e⟩
          · split at hf
            · rename_i h1; cases hf; exact Or.inr (Or.inl ⟨(sw _ (by simp)).mp h1, e⟩)
            · split at hf
              · rename_i h1; cases hf; exact Or.inr (Or.inr (Or.inl ⟨(sw _ (by simp)).mp h1, e⟩))
              · split at hf
                · rename_i h1; cases hf; exact Or.inr (Or.inr (Or.inr (Or.inl ⟨(sw _ (by simp)).mp h1, e⟩)))
                · split at hf
                  · rename_i h1; cases hf; exact Or.inr (Or.inr (Or.inr (Or.inr ⟨(sw _ (by simp)).mp h1, e⟩)))
                  · cases hf
    · rintro (⟨h1, h2, h3⟩ | ⟨hc, h⟩)
      · rw [if_pos (tk.mpr h1), h2]
        rw [h3]; rfl
      · have fin : ∀ (q : Option (Str × Nat)) (p : Str), q = some (p, t) → w.take 3 ≠ ['E', 'V', '_'] →
            (if w.take 3 = ['E', 'V', '_'] then
              match N.type w with
              | none => none
              | some t => some (t, EVENT_CODE_UNDEFINED)
            else
              match q with
              | none => none
              | some (_, t) =>
                match N.code t w with
                | none => none
                | some c => some (t, c)) = some (t, c) := by
          intro q p hq hne
          rw [if_neg hne, hq]
          simp only
          rw [hc]
        rcases h with ⟨⟨r, rfl⟩, rfl⟩ | ⟨⟨r, rfl⟩, rfl⟩ | ⟨⟨r, rfl⟩, rfl⟩ | ⟨⟨r, rfl⟩, rfl⟩ | ⟨⟨r, rfl⟩, rfl⟩
        · exact fin (q := some (['K', 'E', 'Y', '_'], _)) _ rfl (by simp)
        · exact fin (q := some (['B', 'T', 'N', '_'], _)) _ rfl (by simp)
        · exact fin (q := some (['A', 'B', 'S', '_'], _)) _ rfl (by simp)
        · exact fin (q := some (['R', 'E', 'L', '_'], _)) _ rfl (by simp)
        · exact fin (q := some (['S', 'W', '_'], _)) _ rfl (by simp)

/-- **C36, event codes.**  The event code list parser succeeds exactly if there are one to 32 words separated by
semicolons, each the name of an event type or code or a type with a code in range, and yields the first `n` of them. -/
theorem evcodes_iff (N : Names) (C : Conv) (s : Str) (n : Nat) (l : List (Nat × Nat)) :
    parseEvcodes N C s n = some l ↔
      ∃ ws evs, ws ≠ [] ∧ Splits (fun c => [';'].contains c) s ws ∧ ws.length ≤ 32 ∧ Each (Evcode N C) ws evs ∧
        l = evs.take n := by
  have hsp := split_returns_exactly_words s [';']
  have tk : ∀ (ws : List Str) (evs : List (Nat × Nat)), Each (Evcode N C) ws evs → evs.take (min n ws.length) = evs.take n := by
    intro ws evs he
    have : ws.length = evs.length := by
      clear hsp
      induction ws generalizing evs with
      | nil => cases evs with
        | nil => rfl
        | cons => cases he
      | cons a ws ih => cases evs with
        | nil => cases he
        | cons b evs => simp [ih evs he.2]
    rw [this, List.take_eq_take_iff]
    omega
  unfold parseEvcodes
  constructor
  · intro h
    cases hw : strvFromString s [';'] with
    | none => rw [hw] at h; cases h
    | some ws =>
      rw [hw] at h
      obtain ⟨h1, h2⟩ := (hsp.1 ws).mp hw
      simp only at h
      split at h
      · cases h
      · cases hm : ws.mapM (evcodeElement N C) with
        | none => rw [hm] at h; cases h
        | some evs =>
          rw [hm] at h
          have he := (each_mapM (evcodeElement_iff N C) _ _).mp hm
          cases h
          exact ⟨ws, evs, h1, h2, by omega, he, tk ws evs he⟩
  · rintro ⟨ws, evs, h1, h2, h3, h4, rfl⟩
    rw [(hsp.1 ws).mpr ⟨h1, h2⟩]
    simp only
    rw [if_neg (by omega), (each_mapM (evcodeElement_iff N C) _ _).mpr h4]
    simp only [tk ws evs h4]

theorem inputProp_iff (N : Names) (w : Str) (p : Nat) : inputProp N w = some p ↔ InputProp N w p := by
  have ha := atou_exact 16 (by simp) w
  unfold inputProp InputProp
  cases h : safeAtouBase 16 w with
  | none =>
    have hno : ¬ ∃ v, Hex w v := by
      rintro ⟨v, hv⟩; rw [(ha v).mpr hv] at h; cases h
    have hno' : ¬ Hex w p := fun hh => hno ⟨p, hh⟩
    simp only [hno', hno, false_and, false_or, not_false_eq_true, true_and]
  | some v =>
    have hv : Hex w v := (ha v).mp h
    have uniq : ∀ u, Hex w u → u = v := by
      intro u hu; rw [(ha u).mpr hu] at h; simpa using h
    have hex : (∃ v, Hex w v) := ⟨v, hv⟩
    have e : INPUT_PROP_MAX = 0x1f := rfl
    simp only [hex, not_true_eq_false, false_and, or_false]
    constructor
    · intro h2
      split at h2
      · cases h2
      · cases h2; exact ⟨hv, by omega⟩
    · rintro ⟨h1, h2⟩
      have := uniq p h1
      subst this
      rw [if_neg (by omega)]

/-- **C36, input properties.**  The same for lists of input properties: one to 32 words, each a hexadecimal number up to
0x1f or the name of a property. -/
theorem input_props_iff (N : Names) (s : Str) (n : Nat) (l : List Nat) :
    parseInputProps N s n = some l ↔
      ∃ ws ps, ws ≠ [] ∧ Splits (fun c => [';'].contains c) s ws ∧ ws.length ≤ 32 ∧ Each (InputProp N) ws ps ∧
        l = ps.take n := by
  have hsp := split_returns_exactly_words s [';']
  have tk : ∀ (ws : List Str) (evs : List Nat), Each (InputProp N) ws evs → evs.take (min n ws.length) = evs.take n := by
    intro ws evs he
    have : ws.length = evs.length := by
      clear hsp
      induction ws generalizing evs with
      | nil => cases evs with
        | nil => rfl
        | cons => cases he
      | cons a ws ih => cases evs with
        | nil => cases he
        | cons b evs => simp [ih evs he.2]
    rw [this, List.take_eq_take_iff]
    omega
  have e : INPUT_PROP_MAX = 0x1f := rfl
  unfold parseInputProps
  constructor
  · intro h
    cases hw : strvFromString s [';'] with
    | none => rw [hw] at h; cases h
    | some ws =>
      rw [hw] at h
      obtain ⟨h1, h2⟩ := (hsp.1 ws).mp hw
      simp only at h
      split at h
      · cases h
      · cases hm : ws.mapM (inputProp N) with
        | none => rw [hm] at h; cases h
        | some evs =>
          rw [hm] at h
          have he := (each_mapM (inputProp_iff N) _ _).mp hm
          cases h
          exact ⟨ws, evs, h1, h2, by omega, he, tk ws evs he⟩
  · rintro ⟨ws, evs, h1, h2, h3, h4, rfl⟩
    rw [(hsp.1 ws).mpr ⟨h1, h2⟩]
    simp only
    rw [if_neg (by omega), (each_mapM (inputProp_iff N) _ _).mpr h4]
    simp only [tk ws evs h4]

/-- **C36, switch reliability.** -/
theorem reliability_iff (s : Str) (r : Reliability) :
    parseReliability (some s) = some r ↔
      (s = "reliable".toList ∧ r = .reliable) ∨ (s = "write_open".toList ∧ r = .writeOpen) := by
  simp only [parseReliability]
  by_cases h1 : s = "reliable".toList
  · subst h1
    simp only [if_true, Option.some.injEq, true_and]
    have : ¬ ("reliable".toList = "write_open".toList) := by decide
    simp only [this, false_and, or_false]
    exact eq_comm
  · rw [if_neg h1]
    simp only [h1, false_and, false_or]
    by_cases h2 : s = "write_open".toList
    · subst h2; simp only [if_true, Option.some.injEq, true_and]; exact eq_comm
    · rw [if_neg h2]; simp only [reduceCtorEq, h2, false_and]

/-- Tables for examples. -/
def someNames : Names where
  type s := if s = "EV_KEY".toList then some 1 else none
  code t s := if t = 1 ∧ s = "KEY_A".toList then some 30 else none
  maxCode _ := 0x2ff
  prop s := if s = "INPUT_PROP_POINTER".toList then some 0 else none

example : evcodeElement someNames glibcConv "EV_KEY:0x1e".toList = some (1, 30) ∧
    evcodeElement someNames glibcConv "KEY_A".toList = some (1, 30) ∧
    evcodeElement someNames glibcConv "EV_KEY".toList = some (1, 0xffff) ∧
    evcodeElement someNames glibcConv "EV_KEY:0x300".toList = none ∧
    inputProp someNames "0x3".toList = some 3 ∧ inputProp someNames "0x20".toList = none ∧
    inputProp someNames "INPUT_PROP_POINTER".toList = some 0 := by decide +kernel

example : parseEvcodes someNames glibcConv "KEY_A;EV_KEY;".toList 1 = some [(1, 30)] := by
  rw [evcodes_iff]
  refine ⟨["KEY_A".toList, "EV_KEY".toList], [(1, 30), (1, 0xffff)], by simp, ?_, by simp, ?_, rfl⟩
  · exact Splits.cons [] "KEY_A".toList ";EV_KEY;".toList _ (by simp) (by decide) (by decide) (Or.inr ⟨';', _, rfl, by decide⟩)
      (Splits.cons [';'] "EV_KEY".toList ";".toList _ (by decide) (by decide) (by decide) (Or.inr ⟨';', _, rfl, by decide⟩)
        (Splits.nil _ (by decide)))
  · exact ⟨(evcodeElement_iff _ glibcConv _ _).mp (by decide +kernel), (evcodeElement_iff _ glibcConv _ _).mp (by decide +kernel), trivial⟩

end Libinput.Parsers
