import Verif.Strings.Spec
namespace Libinput.Strings
open Spec

/-- The string does not continue with a digit. -/
def NoDigit (base : Nat) : Str → Prop
  | [] => True
  | c :: _ => digitVal base c = none

theorem scanDigits_digits (base : Nat) (digits : Str) (ds : List Nat) (rest : Str)
    (hd : digits.map (digitVal base) = ds.map some) (hr : NoDigit base rest) :
    ∀ acc n, scanDigits base acc n (digits ++ rest) = (acc * base ^ ds.length + value base ds, n + ds.length, rest) := by
  induction digits generalizing ds with
  | nil =>
    intro acc n
    cases ds with
    | cons d ds => simp at hd
    | nil =>
      cases rest with
      | nil => simp [scanDigits, value]
      | cons c r =>
        have : digitVal base c = none := hr
        simp [scanDigits, value, this]
  | cons c digits ih =>
    intro acc n
    cases ds with
    | nil => simp at hd
    | cons d ds =>
      simp only [List.map_cons, List.cons.injEq] at hd
      simp only [List.cons_append, scanDigits, hd.1]
      rw [ih ds hd.2]
      simp only [List.length_cons, value, Prod.mk.injEq, and_true]
      refine ⟨?_, by omega⟩
      rw [Nat.pow_succ', Nat.add_mul, Nat.mul_assoc]
      omega

theorem scanDigits_split (base : Nat) (s : Str) : ∃ (digits : Str) (ds : List Nat) (rest : Str), s = digits ++ rest ∧
    digits.map (digitVal base) = ds.map some ∧ NoDigit base rest := by
  induction s with
  | nil => exact ⟨[], [], [], rfl, rfl, trivial⟩
  | cons c s ih =>
    cases hc : digitVal base c with
    | none => exact ⟨[], [], c :: s, rfl, rfl, hc⟩
    | some d =>
      obtain ⟨digits, ds, rest, h1, h2, h3⟩ := ih
      exact ⟨c :: digits, d :: ds, rest, by rw [h1]; rfl, by simp [hc, h2], h3⟩

theorem dropWhile_split {p : Char → Bool} (s : Str) : ∃ ws rest, s = ws ++ rest ∧ (∀ c ∈ ws, p c = true) ∧
    s.dropWhile p = rest ∧ (∀ c t, rest = c :: t → p c = false) := by
  induction s with
  | nil => exact ⟨[], [], rfl, by simp, rfl, by simp⟩
  | cons c s ih =>
    cases hc : p c with
    | false =>
      refine ⟨[], c :: s, rfl, by simp, by simp [hc], ?_⟩
      rintro c' t h; injection h with h1 h2; subst h1; exact hc
    | true =>
      obtain ⟨ws, rest, h1, h2, h3, h4⟩ := ih
      refine ⟨c :: ws, rest, by rw [h1]; rfl, ?_, by simp [hc, h3], h4⟩
      intro x hx
      rcases List.mem_cons.mp hx with rfl | hx
      · exact hc
      · exact h2 x hx

theorem dropWhile_append_stop {p : Char → Bool} (ws rest : Str) (h1 : ∀ c ∈ ws, p c = true)
    (h2 : ∀ c t, rest = c :: t → p c = false) : (ws ++ rest).dropWhile p = rest := by
  induction ws with
  | nil =>
    cases rest with
    | nil => rfl
    | cons c t => simp [h2 c t rfl]
  | cons c ws ih =>
    have := h1 c (by simp)
    simp only [List.cons_append, List.dropWhile_cons, this, if_true]
    exact ih (fun x hx => h1 x (by simp [hx]))

theorem takeWhile_append_stop {p : Char → Bool} (ws rest : Str) (h1 : ∀ c ∈ ws, p c = true)
    (h2 : ∀ c t, rest = c :: t → p c = false) : (ws ++ rest).takeWhile p = ws := by
  induction ws with
  | nil =>
    cases rest with
    | nil => rfl
    | cons c t => simp [h2 c t rfl]
  | cons c ws ih =>
    have := h1 c (by simp)
    simp only [List.cons_append, List.takeWhile_cons, this, if_true]
    rw [ih (fun x hx => h1 x (by simp [hx]))]

/-- Characters that start a number are not white space. -/
theorem digit_not_space (base : Nat) (c : Char) (h : (digitVal base c).isSome = true) : isSpace c = false := by
  cases hs : isSpace c with
  | false => rfl
  | true =>
    exfalso
    simp only [isSpace, Bool.or_eq_true, decide_eq_true_eq] at hs
    rcases hs with ((((rfl | rfl) | rfl) | rfl) | rfl) | rfl <;>
      simp [digitVal, rawDigit] at h

theorem digit_not_sign (base : Nat) (c : Char) (h : (digitVal base c).isSome = true) : c ≠ '-' ∧ c ≠ '+' ∧ c ≠ '.' := by
  refine ⟨?_, ?_, ?_⟩ <;> (rintro rfl; simp [digitVal, rawDigit] at h)

theorem x_not_digit : digitVal 16 'x' = none ∧ digitVal 16 'X' = none := by decide

theorem head_digit {base : Nat} {digits : Str} {ds : List Nat} (h : digits.map (digitVal base) = ds.map some)
    (hne : digits ≠ []) : ∃ c t, digits = c :: t ∧ (digitVal base c).isSome = true := by
  cases digits with
  | nil => exact absurd rfl hne
  | cons c t =>
    cases ds with
    | nil => simp at h
    | cons d ds =>
      simp only [List.map_cons, List.cons.injEq] at h
      exact ⟨c, t, rfl, by simp [h.1]⟩

theorem map_length {base : Nat} {digits : Str} {ds : List Nat} (h : digits.map (digitVal base) = ds.map some) :
    digits.length = ds.length := by
  have := congrArg List.length h
  simpa using this

/-- `strto` on a string that is a number followed by `rest`. -/
theorem strto_eq (base : Nat) (hb : 1 < base) (ws sign pre digits rest : Str) (neg : Bool) (ds : List Nat)
    (hws : ∀ c ∈ ws, isSpace c = true)
    (hs : sign = ['-'] ∧ neg = true ∨ sign = ['+'] ∧ neg = false ∨ sign = [] ∧ neg = false)
    (hp : pre = [] ∨ base = 16 ∧ (pre = ['0', 'x'] ∨ pre = ['0', 'X']))
    (hne : digits ≠ []) (hd : digits.map (digitVal base) = ds.map some) (hr : NoDigit base rest)
    (hx : pre = [] → base = 16 → ∀ x d t, digits = ['0'] → rest = x :: d :: t → (x = 'x' ∨ x = 'X') → digitVal 16 d = none) :
    strto base (ws ++ sign ++ pre ++ digits ++ rest) = some (neg, value base ds, rest) := by
  obtain ⟨c0, t0, hc0, hdig0⟩ := head_digit hd hne
  have hlen := map_length hd
  have hds : ds.length ≠ 0 := by rw [← hlen, hc0]; simp
  -- the part after white space and sign starts with a digit
  have hbody : ∃ c t, pre ++ digits ++ rest = c :: t ∧ (digitVal base c).isSome = true := by
    rcases hp with rfl | ⟨rfl, rfl | rfl⟩
    · exact ⟨c0, t0 ++ rest, by rw [hc0]; rfl, hdig0⟩
    · exact ⟨'0', _, rfl, by decide⟩
    · exact ⟨'0', _, rfl, by decide⟩
  obtain ⟨c1, t1, hc1, hdig1⟩ := hbody
  have hstop : ∀ c t, sign ++ (pre ++ digits ++ rest) = c :: t → isSpace c = false := by
    intro c t h
    rcases hs with ⟨rfl, _⟩ | ⟨rfl, _⟩ | ⟨rfl, _⟩
    · simp only [List.cons_append, List.cons.injEq] at h; rw [← h.1]; decide
    · simp only [List.cons_append, List.cons.injEq] at h; rw [← h.1]; decide
    · rw [List.nil_append, hc1] at h
      injection h with h1 h2; subst h1
      exact digit_not_space base _ hdig1
  have h1 : (ws ++ sign ++ pre ++ digits ++ rest).dropWhile isSpace = sign ++ (pre ++ digits ++ rest) := by
    have : ws ++ sign ++ pre ++ digits ++ rest = ws ++ (sign ++ (pre ++ digits ++ rest)) := by simp
    rw [this]
    exact dropWhile_append_stop _ _ hws hstop
  have h2 : scanSign (sign ++ (pre ++ digits ++ rest)) = (neg, pre ++ digits ++ rest) := by
    rcases hs with ⟨rfl, rfl⟩ | ⟨rfl, rfl⟩ | ⟨rfl, rfl⟩
    · rfl
    · rfl
    · rw [List.nil_append, hc1]
      obtain ⟨n1, n2, _⟩ := digit_not_sign base c1 hdig1
      unfold scanSign
      split
      · rename_i h; injection h with h _; exact absurd h n1
      · rename_i h; injection h with h _; exact absurd h n2
      · rfl
  have h3 : scanPrefix base (pre ++ digits ++ rest) = digits ++ rest := by
    rcases hp with rfl | ⟨rfl, hp⟩
    · unfold scanPrefix
      rw [List.nil_append]
      split
      · rename_i hb16
        split
        · rename_i x d t heq
          split
          · rename_i hcond
            exfalso
            obtain ⟨hxx, hdd⟩ := hcond
            rw [hc0] at heq
            simp only [List.cons_append, List.cons.injEq] at heq
            obtain ⟨he0, heq⟩ := heq
            -- the second character is an x, so it is not a digit and starts `rest`
            cases t0 with
            | nil =>
              rw [List.nil_append] at heq
              have := hx rfl hb16 x d t (by rw [hc0, he0]) heq hxx
              rw [this] at hdd; cases hdd
            | cons c2 t2 =>
              simp only [List.cons_append, List.cons.injEq] at heq
              subst hb16
              rw [hc0] at hd
              cases ds with
              | nil => simp at hd
              | cons d1 ds =>
                cases ds with
                | nil => simp at hd
                | cons d2 ds =>
                  simp only [List.map_cons, List.cons.injEq] at hd
                  have hd2 := hd.2.1
                  rw [heq.1] at hd2
                  rcases hxx with rfl | rfl
                  · rw [x_not_digit.1] at hd2; cases hd2
                  · rw [x_not_digit.2] at hd2; cases hd2
          · rfl
        · rfl
      · rfl
    · unfold scanPrefix
      simp only [if_true]
      rw [hc0]
      rcases hp with rfl | rfl
      · simp [hdig0]
      · simp [hdig0]
  unfold strto
  rw [h1]
  simp only [h2, h3, scanDigits_digits base digits ds rest hd hr 0 0, Nat.zero_mul, Nat.zero_add, hds, if_false]

theorem scanSign_split (s : Str) : ∃ sign, s = sign ++ (scanSign s).2 ∧
    (sign = ['-'] ∧ (scanSign s).1 = true ∨ sign = ['+'] ∧ (scanSign s).1 = false ∨ sign = [] ∧ (scanSign s).1 = false) := by
  unfold scanSign
  split
  · exact ⟨['-'], rfl, by simp⟩
  · exact ⟨['+'], rfl, by simp⟩
  · exact ⟨[], rfl, by simp⟩

theorem scanPrefix_split (base : Nat) (s : Str) : ∃ pre, s = pre ++ scanPrefix base s ∧
    (pre = [] ∨ base = 16 ∧ (pre = ['0', 'x'] ∨ pre = ['0', 'X'])) := by
  unfold scanPrefix
  split
  · rename_i hb
    split
    · split
      · rename_i x d t hc
        rcases hc.1 with rfl | rfl
        · exact ⟨['0', 'x'], rfl, Or.inr ⟨hb, Or.inl rfl⟩⟩
        · exact ⟨['0', 'X'], rfl, Or.inr ⟨hb, Or.inr rfl⟩⟩
      · exact ⟨[], rfl, Or.inl rfl⟩
    · exact ⟨[], rfl, Or.inl rfl⟩
  · exact ⟨[], rfl, Or.inl rfl⟩

/-- What a successful `strto` has read. -/
theorem strto_some {base : Nat} {s : Str} {neg : Bool} {m : Nat} {rest : Str}
    (h : strto base s = some (neg, m, rest)) :
    ∃ front, s = front ++ rest ∧ Numeral base front neg m ∧ NoDigit base rest := by
  unfold strto at h
  obtain ⟨ws, r1, e1, hws, e1', _⟩ := dropWhile_split (p := isSpace) s
  rw [e1'] at h
  obtain ⟨sign, e2, hsign⟩ := scanSign_split r1
  generalize scanSign r1 = q at h e2 hsign
  obtain ⟨n, r2⟩ := q
  simp only at h e2 hsign
  obtain ⟨pre, e3, hpre⟩ := scanPrefix_split base r2
  generalize scanPrefix base r2 = r3 at h e3
  obtain ⟨digits, ds, r4, e4, hd, hnd⟩ := scanDigits_split base r3
  rw [e4, scanDigits_digits base digits ds r4 hd hnd] at h
  simp only [Nat.zero_mul, Nat.zero_add] at h
  split at h
  · cases h
  · rename_i hl
    simp only [Option.some.injEq, Prod.mk.injEq] at h
    obtain ⟨rfl, rfl, rfl⟩ := h
    refine ⟨ws ++ sign ++ pre ++ digits, by rw [e1, e2, e3, e4]; simp, ?_, hnd⟩
    refine ⟨ws, sign, pre, digits, ds, rfl, hws, hsign, hpre, ?_, hd, rfl⟩
    intro hnil
    have := map_length hd
    rw [hnil] at this
    simp at this
    omega

theorem numeral_strto {base : Nat} (hb : 1 < base) {s : Str} {neg : Bool} {m : Nat} (h : Numeral base s neg m) :
    strto base s = some (neg, m, []) := by
  obtain ⟨ws, sign, pre, digits, ds, rfl, h1, h2, h3, h4, h5, rfl⟩ := h
  have := strto_eq base hb ws sign pre digits [] neg ds h1 h2 h3 h4 h5 trivial (by simp)
  simpa using this

/-- A whole string is a numeral exactly if `strto` reads all of it. -/
theorem strto_whole_iff {base : Nat} (hb : 1 < base) (s : Str) (neg : Bool) (m : Nat) :
    strto base s = some (neg, m, []) ↔ Numeral base s neg m := by
  constructor
  · intro h
    obtain ⟨front, h1, h2, _⟩ := strto_some h
    rw [List.append_nil] at h1
    rwa [h1]
  · exact numeral_strto hb

/-! ### Tokenizer -/

theorem words_eq (sep : Char → Bool) (s : Str) :
    words sep s = match nextWord sep s with | none => [] | some (w, r) => w :: words sep r := by
  rw [words]
  split <;> rename_i h <;> rw [h]

theorem nextWord_none {sep : Char → Bool} {s : Str} (h : nextWord sep s = none) : ∀ c ∈ s, sep c = true := by
  obtain ⟨ws, rest, h1, h2, h3, h4⟩ := dropWhile_split (p := sep) s
  unfold nextWord at h
  rw [h3] at h
  cases rest with
  | nil => rw [h1, List.append_nil]; exact h2
  | cons c t => simp at h

theorem nextWord_some {sep : Char → Bool} {s w r : Str} (h : nextWord sep s = some (w, r)) :
    ∃ gap, s = gap ++ w ++ r ∧ (∀ c ∈ gap, sep c = true) ∧ w ≠ [] ∧ (∀ c ∈ w, sep c = false) ∧
      (r = [] ∨ ∃ c t, r = c :: t ∧ sep c = true) := by
  obtain ⟨ws, rest, h1, h2, h3, h4⟩ := dropWhile_split (p := sep) s
  unfold nextWord at h
  rw [h3] at h
  cases rest with
  | nil => simp at h
  | cons c t =>
    simp only [Option.some.injEq, Prod.mk.injEq] at h
    obtain ⟨w', r', e1, e2, e3, e4⟩ := dropWhile_split (p := fun c => !sep c) (c :: t)
    have ew : (c :: t).takeWhile (fun c => !sep c) = w' := by
      rw [e1]; exact takeWhile_append_stop _ _ e2 e4
    rw [ew, e3] at h
    obtain ⟨rfl, rfl⟩ := h
    refine ⟨ws, by rw [h1, e1]; simp, h2, ?_, ?_, ?_⟩
    · rintro rfl
      rw [List.nil_append] at e1
      have := e4 c t e1.symm
      rw [h4 c t rfl] at this
      simp at this
    · intro c hc; simpa using e2 c hc
    · cases hr : r' with
      | nil => left; rfl
      | cons c' t' =>
        right
        refine ⟨c', t', rfl, ?_⟩
        simpa using e4 c' t' hr

theorem nextWord_eq {sep : Char → Bool} {gap w r : Str} (hg : ∀ c ∈ gap, sep c = true) (hne : w ≠ [])
    (hw : ∀ c ∈ w, sep c = false) (hr : r = [] ∨ ∃ c t, r = c :: t ∧ sep c = true) :
    nextWord sep (gap ++ w ++ r) = some (w, r) := by
  have h1 : (gap ++ w ++ r).dropWhile sep = w ++ r := by
    rw [List.append_assoc]
    apply dropWhile_append_stop _ _ hg
    intro c t h
    cases w with
    | nil => exact absurd rfl hne
    | cons c' t' =>
      simp only [List.cons_append, List.cons.injEq] at h
      rw [← h.1]; exact hw c' (by simp)
  unfold nextWord
  rw [h1]
  have hr' : ∀ c t, r = c :: t → (!sep c) = false := by
    intro c t h
    rcases hr with rfl | ⟨c', t', rfl, hc⟩
    · cases h
    · injection h with h1 h2; subst h1; simp [hc]
  have h2 : (w ++ r).takeWhile (fun c => !sep c) = w :=
    takeWhile_append_stop _ _ (fun c hc => by simp [hw c hc]) hr'
  have h3 : (w ++ r).dropWhile (fun c => !sep c) = r :=
    dropWhile_append_stop _ _ (fun c hc => by simp [hw c hc]) hr'
  cases hwr : w ++ r with
  | nil => simp at hwr; exact absurd hwr.1 hne
  | cons c t => rw [hwr] at h2 h3; simp only [h2, h3]

theorem words_splits (sep : Char → Bool) : ∀ n (s : Str), s.length ≤ n → Splits sep s (words sep s) := by
  intro n
  induction n with
  | zero =>
    intro s hs
    have : s = [] := List.length_eq_zero_iff.mp (Nat.le_zero.mp hs)
    subst this
    rw [words_eq]
    exact Splits.nil [] (by simp)
  | succ n ih =>
    intro s hs
    rw [words_eq]
    cases h : nextWord sep s with
    | none => exact Splits.nil s (nextWord_none h)
    | some q =>
      obtain ⟨w, r⟩ := q
      have hlt := nextWord_length h
      obtain ⟨gap, h1, h2, h3, h4, h5⟩ := nextWord_some h
      simp only
      rw [h1]
      exact Splits.cons gap w r _ h2 h3 h4 h5 (ih r (by omega))

theorem nextWord_all_sep {sep : Char → Bool} {s : Str} (h : ∀ c ∈ s, sep c = true) : nextWord sep s = none := by
  unfold nextWord
  have : s.dropWhile sep = [] := by
    have := dropWhile_append_stop s [] h (by simp)
    simpa using this
  rw [this]

theorem splits_words {sep : Char → Bool} {s : Str} {ws : List Str} (h : Splits sep s ws) : words sep s = ws := by
  induction h with
  | nil gap hg => rw [words_eq, nextWord_all_sep hg]
  | cons gap w rest ws hg hne hw hmax _ ih =>
    rw [words_eq, nextWord_eq hg hne hw hmax]
    simp [ih]

end Libinput.Strings
