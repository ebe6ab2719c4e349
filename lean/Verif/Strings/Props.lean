import Verif.Strings.Lemmas
/-! ## Property theorems: string helpers (C21, C22) -/
namespace Libinput.Strings
open Spec

/-- **C21, signed.**  Parsing succeeds with value `v` exactly if the whole string is one numeral of the
base whose value is `v` and fits a 32-bit int. -/
theorem atoi_accepts_exactly_numerals (base : Nat) (hb : base = 8 ∨ base = 10 ∨ base = 16) (s : Str) (v : Int) :
    safeAtoiBase base s = some v ↔
      ∃ neg m, Numeral base s neg m ∧ v = signed neg m ∧ -2147483648 ≤ v ∧ v ≤ 2147483647 := by
  have hb1 : 1 < base := by rcases hb with rfl | rfl | rfl <;> omega
  unfold safeAtoiBase
  constructor
  · intro h
    cases hs : strto base s with
    | none => rw [hs] at h; cases h
    | some q =>
      obtain ⟨neg, m, rest⟩ := q
      rw [hs] at h
      simp only at h
      split at h
      · cases h
      · split at h
        · cases h
        · split at h
          · cases h
          · rename_i h1 h2 h3
            have h2' : rest = [] := by simpa using h2
            subst h2'
            simp only [Option.some.injEq] at h
            simp only [INT_MAX, INT_MIN] at h3
            exact ⟨neg, m, (strto_whole_iff hb1 s neg m).mp hs, h.symm, by omega, by omega⟩
  · rintro ⟨neg, m, hn, rfl, h1, h2⟩
    rw [(strto_whole_iff hb1 s neg m).mpr hn]
    have e1 : LONG_MAX = 9223372036854775807 := rfl
    have e2 : LONG_MIN = -9223372036854775808 := rfl
    have e3 : INT_MAX = 2147483647 := rfl
    have e4 : INT_MIN = -2147483648 := rfl
    simp only
    rw [if_neg (by omega), if_neg (by simp), if_neg (by omega)]

/-- A string has at most one reading as a numeral, so the value above is unique. -/
theorem numeral_unique (base : Nat) (hb : 1 < base) (s : Str) (n1 n2 : Bool) (m1 m2 : Nat)
    (h1 : Numeral base s n1 m1) (h2 : Numeral base s n2 m2) : n1 = n2 ∧ m1 = m2 := by
  have e1 := numeral_strto hb h1
  have e2 := numeral_strto hb h2
  rw [e1] at e2
  simp only [Option.some.injEq, Prod.mk.injEq, and_true] at e2
  exact e2

/-- **C21, unsigned, what is accepted.**  A numeral without minus sign that fits `unsigned int` is accepted
with its value; anything that is not a numeral is rejected. -/
theorem atou_accepts_numerals (base : Nat) (hb : base = 8 ∨ base = 10 ∨ base = 16) (s : Str) :
    (∀ m, Numeral base s false m → m ≤ 4294967295 → safeAtouBase base s = some m) ∧
    (∀ v, safeAtouBase base s = some v → v ≤ 4294967295 ∧ ∃ neg m, Numeral base s neg m) := by
  have hb1 : 1 < base := by rcases hb with rfl | rfl | rfl <;> omega
  constructor
  · intro m hn hm
    unfold safeAtouBase
    rw [(strto_whole_iff hb1 s false m).mpr hn]
    have e1 : ULONG_MAX = 18446744073709551615 := rfl
    simp only
    rw [if_neg (by omega)]
    simp only [Bool.false_eq_true, if_false]
    rw [if_neg (by simp), if_neg (by omega)]
    have : m % 2 ^ 32 = m := Nat.mod_eq_of_lt (by omega)
    rw [this]
  · intro v h
    unfold safeAtouBase at h
    cases hs : strto base s with
    | none => rw [hs] at h; cases h
    | some q =>
      obtain ⟨neg, m, rest⟩ := q
      rw [hs] at h
      simp only at h
      split at h
      · cases h
      · generalize (if neg = true then (2 ^ 64 - m) % 2 ^ 64 else m) = w at h
        split at h
        · cases h
        · split at h
          · cases h
          · rename_i h1 h2 h3
            have h2' : rest = [] := by simpa using h2
            subst h2'
            simp only [Option.some.injEq] at h
            refine ⟨?_, neg, m, (strto_whole_iff hb1 s neg m).mp hs⟩
            rw [← h]
            have := Nat.mod_lt w (show 0 < 2 ^ 32 by decide)
            omega

/-- **C21, unsigned, exactly.**  What is accepted and with which value: a numeral below 2^64 in magnitude whose
residue modulo 2^64 is below 2^63, stored modulo 2^32. -/
theorem atou_exact (base : Nat) (hb : base = 8 ∨ base = 10 ∨ base = 16) (s : Str) (v : Nat) :
    safeAtouBase base s = some v ↔
      ∃ neg m, Numeral base s neg m ∧ m < 18446744073709551616 ∧
        signed neg m % 18446744073709551616 < 9223372036854775808 ∧ (v : Int) = signed neg m % 4294967296 := by
  have hb1 : 1 < base := by rcases hb with rfl | rfl | rfl <;> omega
  have e1 : ULONG_MAX = 18446744073709551615 := rfl
  have key : ∀ neg m, m < 18446744073709551616 →
      ((if neg = true then (2 ^ 64 - m) % 2 ^ 64 else m : Nat) : Int) = signed neg m % 18446744073709551616 := by
    intro neg m hm
    cases neg with
    | false => simp only [signed, Bool.false_eq_true, if_false]; omega
    | true => simp only [signed, if_true]; omega
  have key2 : ∀ x : Int, x % 18446744073709551616 % 4294967296 = x % 4294967296 := by intro x; omega
  unfold safeAtouBase
  constructor
  · intro h
    cases hs : strto base s with
    | none => rw [hs] at h; cases h
    | some q =>
      obtain ⟨neg, m, rest⟩ := q
      rw [hs] at h
      simp only at h
      split at h
      · cases h
      · rename_i hm
        have k := key neg m (by omega)
        generalize (if neg = true then (2 ^ 64 - m) % 2 ^ 64 else m) = w at h k
        split at h
        · cases h
        · split at h
          · cases h
          · rename_i h2 h3
            have h2' : rest = [] := by simpa using h2
            subst h2'
            simp only [Option.some.injEq] at h
            refine ⟨neg, m, (strto_whole_iff hb1 s neg m).mp hs, by omega, by omega, ?_⟩
            rw [← h, ← key2, ← k]; omega
  · rintro ⟨neg, m, hn, hm, hlt, hv⟩
    rw [(strto_whole_iff hb1 s neg m).mpr hn]
    have k := key neg m hm
    simp only
    rw [if_neg (by omega)]
    generalize (if neg = true then (2 ^ 64 - m) % 2 ^ 64 else m) = w at k ⊢
    rw [if_neg (by simp), if_neg (by omega)]
    rw [← key2, ← k] at hv
    congr 1; omega

/-- **C21 fails for unsigned: truncation.**  A numeral above the range of `unsigned int` is accepted with a
wrong value. -/
theorem atou_truncates : safeAtou "4294967301".toList = some 5 := by decide +kernel

/-- **C21 fails for unsigned: negative numbers.**  A negative numeral is accepted with a wrong value. -/
theorem atou_accepts_negative : safeAtou "-18446744073709551615".toList = some 1 := by decide +kernel

/-- Non-vacuity: sign, white space and prefix; and what is rejected. -/
example : safeAtoi " \t-42".toList = some (-42) ∧ safeAtoiBase 16 "0x1F".toList = some 31 ∧
    safeAtoiBase 8 "17".toList = some 15 ∧ safeAtoi "0x1F".toList = none ∧ safeAtoi "12 ".toList = none ∧
    safeAtoi "".toList = none ∧ safeAtoi "2147483648".toList = none ∧ safeAtoi "-2147483648".toList = some (-2147483648) := by
  decide +kernel
example : Numeral 10 "-42".toList true 42 :=
  ⟨[], ['-'], [], ['4', '2'], [4, 2], rfl, by simp, Or.inl ⟨rfl, rfl⟩, Or.inl rfl, by simp, by decide, by decide⟩

/-! ### Doubles -/

theorem isDigit_digitVal (c : Char) : isDigit c = (digitVal 10 c).isSome := by
  unfold isDigit digitVal rawDigit
  by_cases h : '0' ≤ c ∧ c ≤ '9'
  · rw [if_pos h]
    have h2 : c.toNat ≤ '9'.toNat := h.2
    have h1 : '0'.toNat ≤ c.toNat := h.1
    have h9 : '9'.toNat = 57 := rfl
    have h0 : '0'.toNat = 48 := rfl
    have hlt : c.toNat - '0'.toNat < 10 := by omega
    simp only [hlt, if_true, h.1, h.2, decide_true, Bool.and_self, Option.isSome_some]
  · rw [if_neg h]
    have : (decide ('0' ≤ c) && decide (c ≤ '9')) = false := by
      rw [Bool.eq_false_iff]; intro hc
      simp only [Bool.and_eq_true, decide_eq_true_eq] at hc
      exact h hc
    rw [this]
    split
    · rename_i d hd
      split at hd
      · simp only [Option.some.injEq] at hd
        have : ¬ d < 10 := by omega
        simp [this]
      · split at hd
        · simp only [Option.some.injEq] at hd
          have : ¬ d < 10 := by omega
          simp [this]
        · cases hd
    · rfl

theorem dot_noDigit (t : Str) : NoDigit 10 ('.' :: t) := by
  show digitVal 10 '.' = none
  decide

theorem value_append (base : Nat) (a b : List Nat) :
    value base (a ++ b) = value base a * base ^ b.length + value base b := by
  induction a with
  | nil => simp [value]
  | cons d ds ih =>
    simp only [List.cons_append, value, List.length_append, ih, Nat.add_mul, Nat.pow_add, Nat.mul_assoc]
    omega

theorem strtodSyntax_numeral {s : Str} {d : Decimal} (h : DecimalNumeral s d) : strtodSyntax s = some (d, []) := by
  obtain ⟨sign, ip, fp, is, fs, hs, hsign, hi, hf, hne, hm, hsc⟩ := h
  obtain ⟨neg, mant, scale⟩ := d
  simp only at hsign hm hsc
  subst hm hsc
  have li := map_length hi
  have lf := map_length hf
  -- the body does not start with a sign
  have hbody : ∀ body, (body = ip ++ ['.'] ++ fp ∨ body = ip ∧ fp = []) → scanSign (sign ++ body) = (neg, body) := by
    intro body hb
    rcases hsign with ⟨rfl, rfl⟩ | ⟨rfl, rfl⟩ | ⟨rfl, rfl⟩
    · rfl
    · rfl
    · rw [List.nil_append]
      have : ∃ c t, body = c :: t ∧ c ≠ '-' ∧ c ≠ '+' := by
        cases ip with
        | nil =>
          rcases hb with rfl | ⟨rfl, rfl⟩
          · exact ⟨'.', fp, rfl, by decide, by decide⟩
          · simp at hne
        | cons c t =>
          cases is with
          | nil => simp at hi
          | cons i is =>
            simp only [List.map_cons, List.cons.injEq] at hi
            obtain ⟨n1, n2, _⟩ := digit_not_sign 10 c (by rw [hi.1]; rfl)
            rcases hb with rfl | ⟨rfl, rfl⟩
            · exact ⟨c, t ++ ['.'] ++ fp, rfl, n1, n2⟩
            · exact ⟨c, t, rfl, n1, n2⟩
      obtain ⟨c, t, rfl, n1, n2⟩ := this
      unfold scanSign
      split
      · rename_i h; injection h with h _; exact absurd h n1
      · rename_i h; injection h with h _; exact absurd h n2
      · rfl
  rcases hs with rfl | ⟨rfl, rfl⟩
  · have e : sign ++ ip ++ ['.'] ++ fp = sign ++ (ip ++ ['.'] ++ fp) := by simp
    rw [e]
    unfold strtodSyntax
    rw [hbody _ (Or.inl rfl)]
    have e2 : ip ++ ['.'] ++ fp = ip ++ ('.' :: fp) := by simp
    simp only [e2]
    rw [scanDigits_digits 10 ip is ('.' :: fp) hi (dot_noDigit fp)]
    simp only [Nat.zero_mul, Nat.zero_add]
    have := scanDigits_digits 10 fp fs [] hf trivial (value 10 is) 0
    rw [List.append_nil] at this
    rw [this]
    simp only [Nat.zero_add]
    rw [if_neg]
    · rw [value_append]
    · rintro ⟨h1, h2⟩
      rcases hne with h | h
      · exact h (List.length_eq_zero_iff.mp (li.trans h1))
      · exact h (List.length_eq_zero_iff.mp (lf.trans h2))
  · have hfs : fs = [] := by
      cases fs with
      | nil => rfl
      | cons a b => simp at hf
    subst hfs
    unfold strtodSyntax
    rw [hbody _ (Or.inr ⟨rfl, rfl⟩)]
    have := scanDigits_digits 10 ip is [] hi trivial 0 0
    rw [List.append_nil] at this
    simp only [this, Nat.zero_mul, Nat.zero_add]
    rw [if_neg]
    · simp
    · intro h
      rcases hne with h' | h'
      · exact h' (List.length_eq_zero_iff.mp (li.trans h))
      · exact h' rfl

theorem strtodSyntax_some {s : Str} {d : Decimal} (h : strtodSyntax s = some (d, [])) : DecimalNumeral s d := by
  unfold strtodSyntax at h
  obtain ⟨sign, e2, hsign⟩ := scanSign_split s
  generalize scanSign s = q at h e2 hsign
  obtain ⟨n, r2⟩ := q
  simp only at h e2 hsign
  obtain ⟨ip, is, r3, e3, hi, hnd⟩ := scanDigits_split 10 r2
  rw [e3, scanDigits_digits 10 ip is r3 hi hnd] at h
  simp only [Nat.zero_mul, Nat.zero_add] at h
  have li := map_length hi
  split at h
  · rename_i v n' rest heq
    simp only [Prod.mk.injEq] at heq
    obtain ⟨rfl, rfl, rfl⟩ := heq
    obtain ⟨fp, fs, r4, e4, hf, hnd4⟩ := scanDigits_split 10 rest
    rw [e4, scanDigits_digits 10 fp fs r4 hf hnd4] at h
    have lf := map_length hf
    simp only [Nat.zero_add] at h
    split at h
    · cases h
    · rename_i hne
      simp only [Option.some.injEq, Prod.mk.injEq] at h
      obtain ⟨rfl, rfl⟩ := h
      refine ⟨sign, ip, fp, is, fs, Or.inl ?_, hsign, hi, hf, ?_, ?_, rfl⟩
      · rw [e2, e3, e4]; simp
      · cases ip with
        | cons _ _ => left; simp
        | nil =>
          right
          rintro rfl
          simp at li lf
          exact hne ⟨li.symm, lf.symm⟩
      · rw [value_append]
  · rename_i v n' rest _ heq
    simp only [Prod.mk.injEq] at heq
    obtain ⟨rfl, rfl, rfl⟩ := heq
    split at h
    · cases h
    · rename_i hne
      simp only [Option.some.injEq, Prod.mk.injEq] at h
      obtain ⟨rfl, rfl⟩ := h
      refine ⟨sign, ip, [], is, [], Or.inr ⟨?_, rfl⟩, hsign, hi, rfl, Or.inl ?_, by simp, rfl⟩
      · rw [e2, e3]; simp
      · rintro rfl
        simp at li
        exact hne li.symm

theorem numeral_chars {s : Str} {d : Decimal} (h : DecimalNumeral s d) :
    s.all (fun c => isDigit c || c = '+' || c = '-' || c = '.') = true := by
  obtain ⟨sign, ip, fp, is, fs, hs, hsign, hi, hf, _, _, _⟩ := h
  have digits : ∀ (x : Str) (xs : List Nat), x.map (digitVal 10) = xs.map some → ∀ c ∈ x, isDigit c = true := by
    intro x
    induction x with
    | nil => intro _ _ c hc; simp at hc
    | cons a x ih =>
      intro xs hx c hc
      cases xs with
      | nil => simp at hx
      | cons b xs =>
        simp only [List.map_cons, List.cons.injEq] at hx
        rcases List.mem_cons.mp hc with rfl | hc
        · rw [isDigit_digitVal, hx.1]; rfl
        · exact ih xs hx.2 c hc
  have hsg : ∀ c ∈ sign, c = '+' ∨ c = '-' := by
    intro c hc
    rcases hsign with ⟨rfl, _⟩ | ⟨rfl, _⟩ | ⟨rfl, _⟩ <;> simp at hc <;> simp [hc]
  rw [List.all_eq_true]
  intro c hc
  simp only [Bool.or_eq_true, decide_eq_true_eq]
  have key : c ∈ sign ∨ c ∈ ip ∨ c = '.' ∨ c ∈ fp := by
    rcases hs with rfl | ⟨rfl, rfl⟩
    · simp only [List.mem_append, List.mem_singleton] at hc
      rcases hc with ((h | h) | h) | h <;> simp [h]
    · simp only [List.mem_append] at hc
      rcases hc with h | h <;> simp [h]
  rcases key with h | h | h | h
  · rcases hsg c h with h | h <;> simp [h]
  · simp [digits ip is hi c h]
  · simp [h]
  · simp [digits fp fs hf c h]

/-- **C21, doubles.**  Parsing succeeds exactly on decimal numerals (optional sign, digits, optional
fraction; no exponent, no hex, no white space, no inf/nan) which convert to zero or a normal double,
and then yields the conversion of that numeral. -/
theorem atod_accepts_exactly_decimals {F : Type} (round : Decimal → Option F) (s : Str) (v : F) :
    safeAtod round s = some v ↔ ∃ d, DecimalNumeral s d ∧ round d = some v := by
  unfold safeAtod
  constructor
  · intro h
    split at h
    · cases hs : strtodSyntax s with
      | none => rw [hs] at h; cases h
      | some q =>
        obtain ⟨d, rest⟩ := q
        rw [hs] at h
        simp only at h
        split at h
        · cases h
        · rename_i hr
          have : rest = [] := by simpa using hr
          subst this
          exact ⟨d, strtodSyntax_some hs, h⟩
    · cases h
  · rintro ⟨d, hd, hr⟩
    rw [if_pos (numeral_chars hd), strtodSyntax_numeral hd]
    simpa using hr

example : safeAtod (fun d => some d) "-12.50".toList = some ⟨true, 1250, 2⟩ ∧
    safeAtod (fun d => some d) ".5".toList = some ⟨false, 5, 1⟩ ∧
    safeAtod (fun d => some d) "1e5".toList = none ∧ safeAtod (fun d => some d) "1.2.3".toList = none ∧
    safeAtod (fun d => some d) " 1".toList = none := by decide +kernel

/-! ### Tokenizer -/

/-- **C22.**  Splitting returns exactly the maximal non-empty separator-free words in order; it returns
NULL exactly if there are none. -/
theorem split_returns_exactly_words (s separators : Str) :
    (∀ ws, strvFromString s separators = some ws ↔ ws ≠ [] ∧ Splits (fun c => separators.contains c) s ws) ∧
    (strvFromString s separators = none ↔ ∀ c ∈ s, separators.contains c = true) := by
  have hsp := words_splits (sepOf separators) s.length s (Nat.le_refl _)
  constructor
  · intro ws
    unfold strvFromString
    constructor
    · intro h
      cases hw : words (sepOf separators) s with
      | nil => rw [hw] at h; cases h
      | cons w l =>
        rw [hw] at h hsp
        simp only [Option.some.injEq] at h
        subst h
        exact ⟨by simp, hsp⟩
    · rintro ⟨hne, hs⟩
      have : words (sepOf separators) s = ws := splits_words hs
      rw [this]
      cases ws with
      | nil => exact absurd rfl hne
      | cons _ _ => rfl
  · unfold strvFromString
    constructor
    · intro h
      cases hw : words (sepOf separators) s with
      | cons w l => rw [hw] at h; cases h
      | nil =>
        rw [words_eq] at hw
        cases hn : nextWord (sepOf separators) s with
        | none => exact nextWord_none hn
        | some q => rw [hn] at hw; cases hw
    · intro h
      rw [words_eq, nextWord_all_sep (sep := sepOf separators) h]

theorem joinLoop_splits (sep : Char → Bool) (j : Char) (hj : sep j = true) (ws : List Str)
    (hw : ∀ w ∈ ws, w ≠ [] ∧ ∀ c ∈ w, sep c = false) :
    Splits sep (joinLoop [j] ws) ws := by
  -- joined strings starting after a joiner
  have key : ∀ ws : List Str, (∀ w ∈ ws, w ≠ [] ∧ ∀ c ∈ w, sep c = false) → ∀ gap : Str,
      (∀ c ∈ gap, sep c = true) → Splits sep (gap ++ joinLoop [j] ws) ws := by
    intro ws
    induction ws with
    | nil => intro _ gap hg; simpa [joinLoop] using Splits.nil gap hg
    | cons w ws ih =>
      intro hw gap hg
      obtain ⟨h1, h2⟩ := hw w (by simp)
      cases ws with
      | nil =>
        have := Splits.cons gap w [] [] hg h1 h2 (Or.inl rfl) (Splits.nil [] (by simp))
        simpa [joinLoop] using this
      | cons w2 ws2 =>
        have hrec := ih (fun x hx => hw x (by simp [hx])) [j] (by simpa using hj)
        have := Splits.cons gap w ([j] ++ joinLoop [j] (w2 :: ws2)) (w2 :: ws2) hg h1 h2
          (Or.inr ⟨j, _, rfl, hj⟩) hrec
        simpa [joinLoop] using this
  simpa using key ws hw [] (by simp)

/-- **C22, round trip.**  Joining words with a single separator character and splitting again returns the
same words (for a list the join function accepts: under 100 words and 1000 bytes). -/
theorem join_split_round_trip (ws : List Str) (separators : Str) (j : Char) (s : Str)
    (hj : separators.contains j = true) (hw : ∀ w ∈ ws, w ≠ [] ∧ ∀ c ∈ w, separators.contains c = false)
    (hjoin : strvJoin ws [j] = .str s) : strvFromString s separators = some ws := by
  unfold strvJoin at hjoin
  split at hjoin
  · cases hjoin
  · rename_i hne
    simp only at hjoin
    split at hjoin
    · simp only [Join.str.injEq] at hjoin
      subst hjoin
      exact ((split_returns_exactly_words _ separators).1 ws).mpr
        ⟨hne, joinLoop_splits (fun c => separators.contains c) j hj ws hw⟩
    · cases hjoin

/-- Joining succeeds for every list of at least one and under 100 words with under 1000 bytes in total. -/
theorem join_defined (ws : List Str) (joiner : Str) (h1 : ws ≠ []) (h2 : ws.length < 100)
    (h3 : (ws.map List.length).sum < 1000) (h4 : joiner.length < 1000) :
    ∃ s, strvJoin ws joiner = .str s := by
  unfold strvJoin
  rw [if_neg h1]
  simp only
  rw [if_pos ⟨h3, h4, h2⟩]
  exact ⟨_, rfl⟩

example : strvFromString "one two\tthree".toList " \t".toList = some ["one".toList, "two".toList, "three".toList] := by
  have : Splits (fun c => (" \t".toList).contains c) "one two\tthree".toList
      ["one".toList, "two".toList, "three".toList] := by
    refine Splits.cons [] "one".toList " two\tthree".toList _ (by simp) (by decide) (by decide)
      (Or.inr ⟨' ', _, rfl, by decide⟩) ?_
    refine Splits.cons [' '] "two".toList "\tthree".toList _ (by decide) (by decide) (by decide)
      (Or.inr ⟨'\t', _, rfl, by decide⟩) ?_
    exact Splits.cons ['\t'] "three".toList [] _ (by decide) (by decide) (by decide) (Or.inl rfl)
      (Splits.nil [] (by simp))
  exact ((split_returns_exactly_words _ _).1 _).mpr ⟨by simp, this⟩

/-! ### Stripping, prefixes, suffixes, file names -/

theorem lastLoop_eq (what : Char → Bool) (s : Str) : ∀ i last,
    lastLoop what i last s = match s.reverse.dropWhile what with
      | [] => last
      | r => i + r.length := by
  induction s with
  | nil => intro i last; rfl
  | cons c s ih =>
    intro i last
    rw [lastLoop, ih]
    rw [List.reverse_cons]
    have happ : (s.reverse ++ [c]).dropWhile what =
        match s.reverse.dropWhile what with
        | [] => if what c then [] else [c]
        | r => r ++ [c] := by
      have hgen : ∀ l : Str, (l ++ [c]).dropWhile what = match l.dropWhile what with
          | [] => if what c then [] else [c]
          | r => r ++ [c] := by
        intro l
        induction l with
        | nil => simp [List.dropWhile]; split <;> simp_all
        | cons a l ihl =>
          simp only [List.cons_append, List.dropWhile_cons]
          split
          · exact ihl
          · rfl
      exact hgen s.reverse
    rw [happ]
    cases h : s.reverse.dropWhile what with
    | nil => cases hc : what c <;> simp
    | cons a r =>
      show i + 1 + (a :: r).length = i + (a :: r ++ [c]).length
      rw [List.length_append, List.length_singleton]
      omega

/-- **C35, strip.**  Stripping removes exactly the leading and trailing characters of the set: what is left
neither starts nor ends with one of them. -/
theorem strip_spec (s what : Str) : ∃ a b, s = a ++ strstrip s what ++ b ∧
    (∀ c ∈ a, what.contains c = true) ∧ (∀ c ∈ b, what.contains c = true) ∧
    (∀ c, (strstrip s what).head? = some c → what.contains c = false) ∧
    (∀ c, (strstrip s what).getLast? = some c → what.contains c = false) := by
  obtain ⟨a, r, h1, h2, h3, h4⟩ := dropWhile_split (p := sepOf what) s
  obtain ⟨b, q, e1, e2, e3, e4⟩ := dropWhile_split (p := sepOf what) r.reverse
  have hr : r = q.reverse ++ b.reverse := by
    have := congrArg List.reverse e1
    simpa using this
  have hlast : lastLoop (sepOf what) 0 0 r = q.length := by
    rw [lastLoop_eq, e3]
    cases q with
    | nil => rfl
    | cons _ _ => simp
  have hres : strstrip s what = q.reverse := by
    unfold strstrip
    simp only [h3, hlast]
    rw [hr]
    have : q.length = q.reverse.length := by simp
    rw [this, List.take_left]
  refine ⟨a, b.reverse, ?_, h2, ?_, ?_, ?_⟩
  · rw [hres, h1, hr]; simp
  · intro c hc; exact e2 c (by simpa using hc)
  · intro c hc
    rw [hres] at hc
    cases hq : q.reverse with
    | nil => rw [hq] at hc; cases hc
    | cons x t =>
      rw [hq] at hc
      simp only [List.head?_cons, Option.some.injEq] at hc
      subst hc
      exact h4 x (t ++ b.reverse) (by rw [hr, hq]; rfl)
  · intro c hc
    rw [hres] at hc
    cases q with
    | nil => simp at hc
    | cons x t =>
      simp at hc
      subst hc
      exact e4 x t rfl

theorem endswith_iff (s suffix : Str) : strendswith s suffix = true ↔ suffix ≠ [] ∧ ∃ a, s = a ++ suffix := by
  unfold strendswith
  constructor
  · intro h
    split at h
    · cases h
    · rename_i hn
      have hn1 : suffix.length ≤ s.length := by omega
      have hn2 : suffix.length ≠ 0 := by omega
      refine ⟨by intro h; rw [h] at hn2; exact hn2 rfl, s.take (s.length - suffix.length), ?_⟩
      have h' : (s.drop (s.length - suffix.length)).take suffix.length = suffix := by simpa using h
      have hl : (s.drop (s.length - suffix.length)).length = suffix.length := by simp; omega
      have h2 : s.drop (s.length - suffix.length) = suffix := by
        rw [List.take_of_length_le (by omega)] at h'
        exact h'
      conv => lhs; rw [← List.take_append_drop (s.length - suffix.length) s, h2]
  · rintro ⟨hne, a, rfl⟩
    have : suffix.length ≠ 0 := by
      intro h; exact hne (List.length_eq_zero_iff.mp h)
    rw [if_neg (by rw [List.length_append]; omega)]
    simp

theorem startswith_iff (s pre : Str) : strstartswith s pre = true ↔ pre ≠ [] ∧ ∃ b, s = pre ++ b := by
  unfold strstartswith
  constructor
  · intro h
    split at h
    · rename_i hp
      refine ⟨by intro h; rw [h] at hp; simp at hp, s.drop pre.length, ?_⟩
      have h' : s.take pre.length = pre := by simpa using h
      conv => lhs; rw [← List.take_append_drop pre.length s, h']
    · cases h
  · rintro ⟨hne, b, rfl⟩
    have : 0 < pre.length := List.length_pos_iff.mpr hne
    rw [if_pos this]
    simp

theorem splitLast_none (c : Char) (s : Str) : splitLast c s = none ↔ c ∉ s := by
  induction s with
  | nil => simp [splitLast]
  | cons d s ih =>
    unfold splitLast
    cases h : splitLast c s with
    | some q => simp only [reduceCtorEq, false_iff]; intro hn; rw [ih.mpr (fun hc => hn (by simp [hc]))] at h; cases h
    | none =>
      have := ih.mp h
      by_cases hd : d = c
      · subst hd; simp
      · simp [this, Ne.symm hd]; exact hd

theorem splitLast_some (c : Char) (s a b : Str) : splitLast c s = some (a, b) ↔ s = a ++ c :: b ∧ c ∉ b := by
  induction s generalizing a with
  | nil => simp [splitLast]
  | cons d s ih =>
    unfold splitLast
    cases h : splitLast c s with
    | some q =>
      obtain ⟨a', b'⟩ := q
      simp only [Option.some.injEq, Prod.mk.injEq]
      have hs := h
      constructor
      · rintro ⟨rfl, rfl⟩
        obtain ⟨e1, e2⟩ := (ih a').mp h
        exact ⟨by rw [e1]; rfl, e2⟩
      · rintro ⟨e1, e2⟩
        cases a with
        | nil =>
          simp only [List.nil_append, List.cons.injEq] at e1
          obtain ⟨rfl, rfl⟩ := e1
          rw [(splitLast_none _ _).mpr e2] at h; cases h
        | cons x a =>
          simp only [List.cons_append, List.cons.injEq] at e1
          obtain ⟨rfl, e1⟩ := e1
          have := (ih a).mpr ⟨e1, e2⟩
          rw [h] at this
          simp only [Option.some.injEq, Prod.mk.injEq] at this
          obtain ⟨rfl, rfl⟩ := this
          exact ⟨rfl, rfl⟩
    | none =>
      have hn := (splitLast_none c s).mp h
      by_cases hd : d = c
      · subst hd
        simp only [if_true, Option.some.injEq, Prod.mk.injEq]
        constructor
        · rintro ⟨rfl, rfl⟩; exact ⟨rfl, hn⟩
        · rintro ⟨e1, e2⟩
          cases a with
          | nil => simp only [List.nil_append, List.cons.injEq, true_and] at e1; exact ⟨rfl, e1⟩
          | cons x a =>
            simp only [List.cons_append, List.cons.injEq] at e1
            exfalso; apply hn; rw [e1.2]; simp
      · simp only [hd, if_false, reduceCtorEq, false_iff]
        rintro ⟨e1, e2⟩
        cases a with
        | nil => simp only [List.nil_append, List.cons.injEq] at e1; exact hd e1.1
        | cons x a =>
          simp only [List.cons_append, List.cons.injEq] at e1
          apply hn; rw [e1.2]; simp

/-- **C35, base name.**  The base name is the non-empty part after the last slash. -/
theorem basename_spec (s b : Str) : safeBasename s = some b ↔
    b ≠ [] ∧ '/' ∉ b ∧ (s = b ∨ ∃ dir, s = dir ++ '/' :: b) := by
  unfold safeBasename
  constructor
  · intro h
    split at h
    · cases h
    · rename_i hs
      cases hl : splitLast '/' s with
      | none =>
        rw [hl] at h
        simp only [Option.some.injEq] at h
        subst h
        exact ⟨hs, (splitLast_none _ _).mp hl, Or.inl rfl⟩
      | some q =>
        obtain ⟨a, b'⟩ := q
        rw [hl] at h
        simp only at h
        split at h
        · cases h
        · rename_i hb
          simp only [Option.some.injEq] at h
          subst h
          obtain ⟨e1, e2⟩ := (splitLast_some _ _ _ _).mp hl
          exact ⟨hb, e2, Or.inr ⟨a, e1⟩⟩
  · rintro ⟨hne, hns, rfl | ⟨dir, rfl⟩⟩
    · rw [if_neg hne, (splitLast_none _ _).mpr hns]
    · rw [if_neg (by simp), (splitLast_some _ _ dir b).mpr ⟨rfl, hns⟩]
      simp [hne]

/-- **C35, trunk name.**  The trunk name is the base name up to its last dot. -/
theorem trunkname_spec (s : Str) :
    (safeBasename s = none → trunkname s = []) ∧
    (∀ b, safeBasename s = some b → '.' ∉ b → trunkname s = b) ∧
    (∀ a suf, safeBasename s = some (a ++ '.' :: suf) → '.' ∉ suf → trunkname s = a) := by
  refine ⟨?_, ?_, ?_⟩
  · intro h; simp [trunkname, h]
  · intro b h hd; simp [trunkname, h, (splitLast_none _ _).mpr hd]
  · intro a suf h hd
    simp [trunkname, h, (splitLast_some _ _ a suf).mpr ⟨rfl, hd⟩]

example : strstrip " \"ab c\"\t".toList " \t\"".toList = "ab c".toList ∧
    safeBasename "/usr/share/foo.a.quirks".toList = some "foo.a.quirks".toList ∧
    trunkname "/usr/share/foo.a.quirks".toList = "foo.a".toList ∧ trunkname "dir/".toList = [] ∧
    strendswith "10-x.quirks".toList ".quirks".toList = true := by decide +kernel

end Libinput.Strings
