/-
Version sort, /repo/src/libinput-versionsort.h.  A string is the list of its bytes before the terminating NUL.
-/
namespace Libinput.Versionsort

abbrev Bytes := List Nat

/-- `isdigit`.  Models: ISO C. -/
def isDigit (c : Nat) : Bool := 48 ≤ c && c ≤ 57

/-- `s[0]`, which is NUL at the end. -/
def hd : Bytes → Nat
  | [] => 0
  | c :: _ => c

/-- The digit loop: `some 1` or `some (-1)` if one string has more digits.
Models: /repo/src/libinput-versionsort.h:52-54. -/
def digitLoop : Bytes → Bytes → Option Int
  | [], r => if isDigit (hd r) then some (-1) else none
  | c :: l, r =>
    if isDigit c then
      match r with
      | [] => some 1
      | d :: r => if !isDigit d then some 1 else digitLoop l r
    else if isDigit (hd r) then some (-1) else none

/-- `(unsigned char)(c - '0')`. -/
def uchar (c : Nat) : Int := (((c : Int) - 48) % 256)

/-- The comparison after the common prefix.  `run` is the first digit of the digit run the prefix ends with, if there is
one (`l[dp]` with `dp < i`), `z` tells whether that run is all zeros.
Models: /repo/src/libinput-versionsort.h:49-61. -/
def differ (run : Option Nat) (z : Bool) (l r : Bytes) : Int :=
  if run.getD (hd l) ≠ 48 ∧ run.getD (hd r) ≠ 48 then
    match digitLoop l r with
    | some v => v
    | none => (hd l : Int) - hd r
  else if z = true ∧ run.isSome = true ∧ (isDigit (hd l) = true ∨ isDigit (hd r) = true) then uchar (hd l) - uchar (hd r)
  else (hd l : Int) - hd r

/-- The prefix loop.  Models: /repo/src/libinput-versionsort.h:42-47. -/
def loop (run : Option Nat) (z : Bool) : Bytes → Bytes → Int
  | [], [] => 0
  | a :: l, b :: r =>
    if a = b then
      if !isDigit a then loop none true l r
      else loop (some (run.getD a)) (z && a == 48) l r
    else differ run z (a :: l) (b :: r)
  | l, r => differ run z l r

/-- `libinput_strverscmp`.  Models: /repo/src/libinput-versionsort.h:33-62. -/
def strverscmp (l r : Bytes) : Int := loop none true l r

/-! ### The order as a lexicographic order of keys -/

/-- What a prefix leaves behind. -/
inductive St where
  | none | int | zeros | frac
deriving DecidableEq

/-- Number of leading digits. -/
def ndigits (s : Bytes) : Nat := (s.takeWhile isDigit).length

def key : St → Bytes → List Nat
  | .zeros, [] => [256]
  | _, [] => [0]
  | .none, c :: t =>
    if !isDigit c then c :: key .none t else if c = 48 then 48 :: key .zeros t else (256 + ndigits (c :: t)) :: c :: key .int t
  | .int, c :: t => if !isDigit c then c :: key .none t else (256 + ndigits (c :: t)) :: c :: key .int t
  | .zeros, c :: t => if !isDigit c then (256 + c) :: key .none t else if c = 48 then 48 :: key .zeros t else c :: key .frac t
  | .frac, c :: t => if !isDigit c then c :: key .none t else c :: key .frac t

/-- The state of the prefix loop for each kind of prefix. -/
def rep : St → Option Nat × Bool → Prop
  | .none, (run, z) => run = none ∧ z = true
  | .int, (run, _) => ∃ f, run = some f ∧ f ≠ 48
  | .zeros, (run, z) => run = some 48 ∧ z = true
  | .frac, (run, z) => run = some 48 ∧ z = false

def Ok (s : Bytes) : Prop := ∀ c ∈ s, 0 < c ∧ c < 256

theorem ndigits_cons (c : Nat) (t : Bytes) (h : isDigit c = true) : ndigits (c :: t) = ndigits t + 1 := by
  simp [ndigits, h]

theorem ndigits_zero {s : Bytes} (h : isDigit (hd s) = false) : ndigits s = 0 := by
  cases s with
  | nil => rfl
  | cons c t => simp only [hd] at h; simp [ndigits, h]

theorem ndigits_pos {s : Bytes} (h : isDigit (hd s) = true) : 0 < ndigits s := by
  cases s with
  | nil => simp [hd, isDigit] at h
  | cons c t => simp only [hd] at h; rw [ndigits_cons c t h]; omega

theorem digitLoop_eq (l r : Bytes) :
    digitLoop l r = if ndigits r < ndigits l then some 1 else if ndigits l < ndigits r then some (-1) else none := by
  induction l generalizing r with
  | nil =>
    have e : ndigits ([] : Bytes) = 0 := rfl
    unfold digitLoop
    cases h : isDigit (hd r) with
    | true => have := ndigits_pos h; rw [if_pos rfl, e, if_neg (by omega), if_pos this]
    | false => have := ndigits_zero h; simp [this, e]
  | cons c l ih =>
    unfold digitLoop
    cases hc : isDigit c with
    | true =>
      simp only [if_true]
      rw [ndigits_cons c l hc]
      cases r with
      | nil =>
        have e : ndigits ([] : Bytes) = 0 := rfl
        simp only
        rw [e, if_pos (by omega)]
      | cons d r =>
        simp only
        cases hd' : isDigit d with
        | true => 
          simp only [Bool.not_true, Bool.false_eq_true, if_false]
          rw [ndigits_cons d r hd', ih]
          simp only [Nat.add_lt_add_iff_right]
        | false =>
          have := ndigits_zero (s := d :: r) hd'
          simp only [Bool.not_false, if_true]
          rw [this, if_pos (by omega)]
    | false =>
      have e := ndigits_zero (s := c :: l) hc
      simp only [Bool.false_eq_true, if_false]
      cases h : isDigit (hd r) with
      | true => have := ndigits_pos h; rw [if_pos rfl, e, if_neg (by omega), if_pos this]
      | false => have := ndigits_zero h; simp [this, e]

theorem digit_bounds {c : Nat} (h : isDigit c = true) : 48 ≤ c ∧ c ≤ 57 := by
  simpa [isDigit] using h
theorem not_digit_bounds {c : Nat} (h : isDigit c = false) : c < 48 ∨ 57 < c := by
  simp only [isDigit, Bool.and_eq_false_iff, decide_eq_false_iff_not] at h; omega

/-- Head and tail of a key. -/
def keyHd (st : St) (s : Bytes) : Nat := (key st s).headD 0

/-- `x` decides the order of `l` and `r`. -/
def Decides (x : Int) (l r : List Nat) : Prop := x < 0 ∧ l < r ∨ 0 < x ∧ r < l

theorem decides_hd {x : Int} {a b : Nat} {l r : List Nat} (h : x < 0 ∧ a < b ∨ 0 < x ∧ b < a) : Decides x (a :: l) (b :: r) := by
  rcases h with ⟨h1, h2⟩ | ⟨h1, h2⟩
  · exact Or.inl ⟨h1, List.Lex.rel h2⟩
  · exact Or.inr ⟨h1, List.Lex.rel h2⟩

theorem decides_cons {x : Int} (a : Nat) {l r : List Nat} (h : Decides x l r) : Decides x (a :: l) (a :: r) := by
  rcases h with ⟨h1, h2⟩ | ⟨h1, h2⟩
  · exact Or.inl ⟨h1, List.Lex.cons h2⟩
  · exact Or.inr ⟨h1, List.Lex.cons h2⟩

/-- A key, given what the first byte is. -/
theorem key_eq (st : St) (s : Bytes) : ∃ t, key st s = 
    (if isDigit (hd s) = false then [if st = .zeros then 256 + hd s else hd s]
     else if st = .int ∨ (st = .none ∧ hd s ≠ 48) then [256 + ndigits s, hd s] else [hd s]) ++ t := by
  cases s with
  | nil =>
    have : isDigit (hd []) = false := rfl
    rw [if_pos this]
    refine ⟨[], ?_⟩
    cases st <;> simp [key, hd]
  | cons c t =>
    have e : hd (c :: t) = c := rfl
    rw [e]
    rcases Bool.eq_false_or_eq_true (isDigit c) with h | h
    case inr => rw [if_pos h]; cases st <;> simp [key, h]
    case inl =>
      rw [if_neg (by simp [h])]
      cases st with
      | none =>
        by_cases h0 : c = 48
        · subst h0; simp [key, h]
        · rw [if_pos (Or.inr ⟨rfl, h0⟩)]; simp [key, h, h0]
      | int => rw [if_pos (Or.inl rfl)]; simp [key, h]
      | zeros =>
        rw [if_neg (by simp)]
        by_cases h0 : c = 48
        · subst h0; simp [key, h]
        · simp [key, h, h0]
      | frac => rw [if_neg (by simp)]; simp [key, h]

theorem differ_decides (st : St) (run : Option Nat) (z : Bool) (hr : rep st (run, z)) (l r : Bytes)
    (hl : hd l < 256) (hr' : hd r < 256) (hne : hd l ≠ hd r) : Decides (differ run z l r) (key st l) (key st r) := by
  obtain ⟨tl, el⟩ := key_eq st l
  obtain ⟨tr, er⟩ := key_eq st r
  rw [el, er]
  clear el er
  have dl := @ndigits_zero l
  have dr := @ndigits_zero r
  have pl := @ndigits_pos l
  have pr := @ndigits_pos r
  unfold differ
  rw [digitLoop_eq]
  generalize hd l = a at *
  generalize hd r = b at *
  generalize ndigits l = n at *
  generalize ndigits r = m at *
  have fin : ∀ x : Int, x = (a : Int) - b → ∀ tl tr : List Nat, Decides x (a :: tl) (b :: tr) := by
    intro x hx tl tr
    apply decides_hd
    omega
  cases ha : isDigit a with
  | false =>
    have hna := not_digit_bounds ha
    have hn := dl ha
    subst hn
    cases hb : isDigit b with
    | false =>
      have hnb := not_digit_bounds hb
      have hm := dr hb
      subst hm
      simp only [if_true, Nat.lt_irrefl, if_false, Bool.false_eq_true, or_self, and_false, ite_self, List.cons_append, List.nil_append]
      apply decides_hd
      split <;> omega
    | true =>
      have hbb := digit_bounds hb
      have hm := pr hb
      simp only [if_true, Bool.true_eq_false, if_false, or_true, and_true, hm, Nat.not_lt_zero]
      cases st with
      | none =>
        obtain ⟨rfl, rfl⟩ := hr
        simp only [Option.getD_none, Option.isSome_none, Bool.false_eq_true, and_false, if_false, reduceCtorEq, false_or, true_and]
        by_cases h0 : b = 48
        · subst h0
          simp only [ne_eq, not_true_eq_false, and_false, if_false]
          exact fin _ rfl _ _
        · rw [if_pos ⟨by omega, h0⟩, if_pos h0]
          apply decides_hd; omega
      | int =>
        obtain ⟨f, rfl, hf⟩ := hr
        simp only [Option.getD_some, ne_eq, hf, not_false_eq_true, and_self, if_true, true_or, reduceCtorEq, if_false]
        apply decides_hd; omega
      | zeros =>
        obtain ⟨rfl, rfl⟩ := hr
        simp only [Option.getD_some, ne_eq, not_true_eq_false, and_self, if_false, Option.isSome_some, if_true, reduceCtorEq, false_and, or_self,
          List.cons_append, List.nil_append]
        apply decides_hd
        unfold uchar
        omega
      | frac =>
        obtain ⟨rfl, rfl⟩ := hr
        simp only [Option.getD_some, ne_eq, not_true_eq_false, and_self, if_false, Bool.false_eq_true, false_and, reduceCtorEq, or_self,
          List.cons_append, List.nil_append]
        exact fin _ rfl _ _
  | true =>
    have hab := digit_bounds ha
    have hn := pl ha
    cases hb : isDigit b with
    | false =>
      have hnb := not_digit_bounds hb
      have hm := dr hb
      subst hm
      simp only [if_true, Bool.true_eq_false, if_false, true_or, and_true, hn]
      cases st with
      | none =>
        obtain ⟨rfl, rfl⟩ := hr
        simp only [Option.getD_none, Option.isSome_none, Bool.false_eq_true, and_false, if_false, reduceCtorEq, false_or, true_and]
        by_cases h0 : a = 48
        · subst h0
          simp only [ne_eq, not_true_eq_false, false_and, if_false]
          exact fin _ rfl _ _
        · rw [if_pos ⟨h0, by omega⟩, if_pos h0]
          apply decides_hd; omega
      | int =>
        obtain ⟨f, rfl, hf⟩ := hr
        simp only [Option.getD_some, ne_eq, hf, not_false_eq_true, and_self, if_true, true_or, reduceCtorEq, if_false]
        apply decides_hd; omega
      | zeros =>
        obtain ⟨rfl, rfl⟩ := hr
        simp only [Option.getD_some, ne_eq, not_true_eq_false, and_self, if_false, Option.isSome_some, if_true, reduceCtorEq, false_and, or_self,
          List.cons_append, List.nil_append]
        apply decides_hd
        unfold uchar
        omega
      | frac =>
        obtain ⟨rfl, rfl⟩ := hr
        simp only [Option.getD_some, ne_eq, not_true_eq_false, and_self, if_false, Bool.false_eq_true, false_and, reduceCtorEq, or_self,
          List.cons_append, List.nil_append]
        exact fin _ rfl _ _
    | true =>
      have hbb := digit_bounds hb
      have hm := pr hb
      simp only [Bool.true_eq_false, if_false, or_self, and_true]
      have num : ∀ tl tr, Decides (match if m < n then some (1 : Int) else if n < m then some (-1) else none with
          | some v => v
          | none => (a : Int) - b) ((256 + n) :: a :: tl) ((256 + m) :: b :: tr) := by
        intro tl tr
        by_cases h1 : m < n
        · rw [if_pos h1]; apply decides_hd; simp only; omega
        · rw [if_neg h1]
          by_cases h2 : n < m
          · rw [if_pos h2]; apply decides_hd; simp only; omega
          · rw [if_neg h2]
            have : n = m := by omega
            subst this
            exact decides_cons _ (fin _ rfl _ _)
      cases st with
      | none =>
        obtain ⟨rfl, rfl⟩ := hr
        simp only [Option.getD_none, Option.isSome_none, Bool.false_eq_true, false_and, and_false, if_false, reduceCtorEq, false_or, true_and]
        by_cases h0 : a = 48
        · subst h0
          have : b ≠ 48 := fun e => hne e.symm
          simp only [ne_eq, not_true_eq_false, false_and, if_false, this, not_false_eq_true, if_true, List.cons_append, List.nil_append]
          apply decides_hd; omega
        · by_cases h1 : b = 48
          · subst h1
            simp only [ne_eq, not_true_eq_false, and_false, if_false, h0, not_false_eq_true, if_true, List.cons_append, List.nil_append]
            apply decides_hd; omega
          · rw [if_pos ⟨h0, h1⟩, if_pos h0, if_pos h1]
            exact num _ _
      | int =>
        obtain ⟨f, rfl, hf⟩ := hr
        simp only [Option.getD_some, ne_eq, hf, not_false_eq_true, and_self, if_true, true_or]
        exact num _ _
      | zeros =>
        obtain ⟨rfl, rfl⟩ := hr
        simp only [Option.getD_some, ne_eq, not_true_eq_false, and_self, if_false, Option.isSome_some, if_true, reduceCtorEq, false_and, or_self,
          List.cons_append, List.nil_append]
        apply decides_hd
        unfold uchar
        omega
      | frac =>
        obtain ⟨rfl, rfl⟩ := hr
        simp only [Option.getD_some, ne_eq, not_true_eq_false, and_self, if_false, Bool.false_eq_true, false_and, reduceCtorEq, or_self,
          List.cons_append, List.nil_append]
        exact fin _ rfl _ _

theorem decides_head_ne {x : Int} {a b : Nat} {l r : List Nat} (h : Decides x (a :: l) (b :: r)) (hne : a ≠ b) :
    x < 0 ∧ a < b ∨ 0 < x ∧ b < a := by
  rcases h with ⟨h1, h2⟩ | ⟨h1, h2⟩
  · cases h2 with
    | rel h => exact Or.inl ⟨h1, h⟩
    | cons h => exact absurd rfl hne
  · cases h2 with
    | rel h => exact Or.inr ⟨h1, h⟩
    | cons h => exact absurd rfl hne

theorem int_heads {x : Int} {l r : Bytes} (h : Decides x (key .int l) (key .int r)) (hl : hd l < 256) (hr : hd r < 256)
    (hne : ndigits l ≠ ndigits r) : x < 0 ∧ ndigits l < ndigits r ∨ 0 < x ∧ ndigits r < ndigits l := by
  obtain ⟨tl, el⟩ := key_eq .int l
  obtain ⟨tr, er⟩ := key_eq .int r
  rw [el, er] at h
  rcases Bool.eq_false_or_eq_true (isDigit (hd l)) with h1 | h1
  · rw [if_neg (by simp [h1]), if_pos (Or.inl rfl)] at h
    rcases Bool.eq_false_or_eq_true (isDigit (hd r)) with h2 | h2
    · rw [if_neg (by simp [h2]), if_pos (Or.inl rfl)] at h
      have := decides_head_ne h (by omega)
      omega
    · rw [if_pos h2] at h
      have hz := ndigits_zero h2
      simp only [reduceCtorEq, if_false] at h
      have := decides_head_ne h (by omega)
      omega
  · rw [if_pos h1] at h
    have hz := ndigits_zero h1
    rcases Bool.eq_false_or_eq_true (isDigit (hd r)) with h2 | h2
    · simp only [reduceCtorEq, if_false, h2, Bool.true_eq_false, true_or, if_true] at h
      have := decides_head_ne h (by omega)
      omega
    · have hz' := ndigits_zero h2
      omega

theorem ok_hd {s : Bytes} (h : Ok s) : hd s < 256 := by
  cases s with
  | nil => simp [hd]
  | cons c t => exact (h c (by simp)).2

theorem loop_self : ∀ (l : Bytes) (run : Option Nat) (z : Bool), loop run z l l = 0 := by
  intro l
  induction l with
  | nil => intro run z; simp [loop]
  | cons a l ih =>
    intro run z
    rw [loop, if_pos rfl]
    split <;> exact ih _ _

theorem loop_decides : ∀ (l r : Bytes), Ok l → Ok r → l ≠ r → ∀ (st : St) (run : Option Nat) (z : Bool), rep st (run, z) →
    Decides (loop run z l r) (key st l) (key st r) := by
  intro l
  induction l with
  | nil =>
    intro r _ hor hne st run z hrep
    cases r with
    | nil => exact absurd rfl hne
    | cons b r =>
      have hb := hor b (by simp)
      have : loop run z [] (b :: r) = differ run z [] (b :: r) := by simp [loop]
      rw [this]
      exact differ_decides st run z hrep [] (b :: r) (by simp [hd]) (by simp only [hd]; omega) (by simp only [hd]; omega)
  | cons a l ih =>
    intro r hol hor hne st run z hrep
    have ha := hol a (by simp)
    cases r with
    | nil =>
      have : loop run z (a :: l) [] = differ run z (a :: l) [] := by simp [loop]
      rw [this]
      exact differ_decides st run z hrep (a :: l) [] (by simp only [hd]; omega) (by simp [hd]) (by simp only [hd]; omega)
    | cons b r =>
      have hb := hor b (by simp)
      by_cases hab : a = b
      · subst hab
        have hol' : Ok l := fun c hc => hol c (by simp [hc])
        have hor' : Ok r := fun c hc => hor c (by simp [hc])
        have hne' : l ≠ r := fun e => hne (by rw [e])
        have ih' := ih r hol' hor' hne'
        rw [loop, if_pos rfl]
        rcases Bool.eq_false_or_eq_true (isDigit a) with h | h
        · rw [if_neg (by simp [h])]
          -- continue in an integer
          have int : rep .int (some (run.getD a), z && a == 48) →
              Decides (loop (some (run.getD a)) (z && a == 48) l r) ((256 + ndigits (a :: l)) :: a :: key .int l)
                ((256 + ndigits (a :: r)) :: a :: key .int r) := by
            intro hrep'
            have d := ih' .int _ _ hrep'
            by_cases hn : ndigits l = ndigits r
            · rw [ndigits_cons a l h, ndigits_cons a r h, hn]
              exact decides_cons _ (decides_cons _ d)
            · apply decides_hd
              have := int_heads d (ok_hd hol') (ok_hd hor') hn
              rw [ndigits_cons a l h, ndigits_cons a r h]
              omega
          cases st with
          | none =>
            obtain ⟨rfl, rfl⟩ := hrep
            by_cases h0 : a = 48
            · subst h0
              have := ih' .zeros _ _ (show rep .zeros (some ((none : Option Nat).getD 48), true && 48 == 48) from ⟨rfl, rfl⟩)
              simp only [key, h, Bool.not_true, Bool.false_eq_true, if_false, if_true]
              exact decides_cons _ this
            · simp only [key, h, h0, Bool.not_true, Bool.false_eq_true, if_false]
              exact int ⟨a, rfl, h0⟩
          | int =>
            obtain ⟨f, rfl, hf⟩ := hrep
            simp only [key, h, Bool.not_true, Bool.false_eq_true, if_false]
            exact int ⟨f, rfl, hf⟩
          | zeros =>
            obtain ⟨rfl, rfl⟩ := hrep
            by_cases h0 : a = 48
            · subst h0
              have := ih' .zeros _ _ (show rep .zeros (some ((some 48 : Option Nat).getD 48), true && 48 == 48) from ⟨rfl, rfl⟩)
              simp only [key, h, Bool.not_true, Bool.false_eq_true, if_false, if_true]
              exact decides_cons _ this
            · have := ih' .frac _ _ (show rep .frac (some ((some 48 : Option Nat).getD a), true && a == 48) from ⟨rfl, by simp [h0]⟩)
              simp only [key, h, h0, Bool.not_true, Bool.false_eq_true, if_false]
              exact decides_cons _ this
          | frac =>
            obtain ⟨rfl, rfl⟩ := hrep
            have := ih' .frac _ _ (show rep .frac (some ((some 48 : Option Nat).getD a), false && a == 48) from ⟨rfl, rfl⟩)
            simp only [key, h, Bool.not_true, Bool.false_eq_true, if_false]
            exact decides_cons _ this
        · rw [if_pos (by simp [h])]
          have := ih' .none none true ⟨rfl, rfl⟩
          cases st <;> (simp only [key, h, Bool.not_false, if_true]; exact decides_cons _ this)
      · have : loop run z (a :: l) (b :: r) = differ run z (a :: l) (b :: r) := by simp [loop, hab]
        rw [this]
        exact differ_decides st run z hrep (a :: l) (b :: r) (by simp only [hd]; omega) (by simp only [hd]; omega) (by simpa [hd] using hab)

/-- The comparison decides by keys. -/
theorem cmp_decides (l r : Bytes) (hl : Ok l) (hr : Ok r) (hne : l ≠ r) :
    Decides (strverscmp l r) (key .none l) (key .none r) := loop_decides l r hl hr hne .none none true ⟨rfl, rfl⟩

theorem not_both {a b : List Nat} (h1 : a < b) (h2 : b < a) : False := List.lt_asymm h1 h2

/-- **C25, equality.**  Two names compare equal exactly if they are the same. -/
theorem cmp_zero_iff (l r : Bytes) (hl : Ok l) (hr : Ok r) : strverscmp l r = 0 ↔ l = r := by
  constructor
  · intro h
    by_cases hne : l = r
    · exact hne
    · rcases cmp_decides l r hl hr hne with ⟨h1, _⟩ | ⟨h1, _⟩ <;> omega
  · rintro rfl; exact loop_self l none true

/-- **C25, antisymmetry.**  Swapping the arguments reverses the sign. -/
theorem cmp_antisymm (l r : Bytes) (hl : Ok l) (hr : Ok r) : strverscmp l r < 0 ↔ 0 < strverscmp r l := by
  by_cases hne : l = r
  · subst hne
    rw [(cmp_zero_iff l l hl hl).mpr rfl]
  · rcases cmp_decides l r hl hr hne with ⟨h1, h2⟩ | ⟨h1, h2⟩ <;>
      rcases cmp_decides r l hr hl (fun e => hne e.symm) with ⟨h3, h4⟩ | ⟨h3, h4⟩
    · exact (not_both h2 h4).elim
    · omega
    · omega
    · exact (not_both h2 h4).elim

/-- **C25, transitivity.** -/
theorem cmp_trans (a b c : Bytes) (ha : Ok a) (hb : Ok b) (hc : Ok c) (h1 : strverscmp a b ≤ 0) (h2 : strverscmp b c ≤ 0) :
    strverscmp a c ≤ 0 := by
  by_cases hab : a = b
  · subst hab; exact h2
  by_cases hbc : b = c
  · subst hbc; exact h1
  rcases cmp_decides a b ha hb hab with ⟨_, k1⟩ | ⟨k, _⟩
  · rcases cmp_decides b c hb hc hbc with ⟨_, k2⟩ | ⟨k, _⟩
    · have k3 : key .none a < key .none c := List.lt_trans k1 k2
      by_cases hac : a = c
      · rw [(cmp_zero_iff a c ha hc).mpr hac]; omega
      · rcases cmp_decides a c ha hc hac with ⟨k4, _⟩ | ⟨_, k4⟩
        · omega
        · exact (not_both k3 k4).elim
    · omega
  · omega

/-- Any two names are ordered one way or the other. -/
theorem cmp_total (l r : Bytes) (hl : Ok l) (hr : Ok r) : strverscmp l r ≤ 0 ∨ strverscmp r l ≤ 0 := by
  have := cmp_antisymm r l hr hl
  have := cmp_antisymm l r hl hr
  omega

/-! ### Numbers in names -/

/-- The number spelled by a string of digits. -/
def value : Bytes → Nat
  | [] => 0
  | c :: t => (c - 48) * 10 ^ t.length + value t

theorem value_lt (d : Bytes) (h : ∀ c ∈ d, isDigit c = true) : value d < 10 ^ d.length := by
  induction d with
  | nil => simp [value]
  | cons c t ih =>
    have h1 := ih (fun c hc => h c (by simp [hc]))
    have h2 := digit_bounds (h c (by simp))
    simp only [value, List.length_cons, Nat.pow_succ]
    have : (c - 48) * 10 ^ t.length ≤ 9 * 10 ^ t.length := Nat.mul_le_mul_right _ (by omega)
    omega

theorem ndigits_append (d s : Bytes) (h : ∀ c ∈ d, isDigit c = true) (hs : isDigit (hd s) = false) :
    ndigits (d ++ s) = d.length := by
  induction d with
  | nil => exact ndigits_zero hs
  | cons c t ih =>
    rw [List.cons_append, ndigits_cons c _ (h c (by simp)), ih (fun c hc => h c (by simp [hc]))]
    rfl

theorem key_int_lt (d1 d2 s1 s2 : Bytes) (h1 : ∀ c ∈ d1, isDigit c = true) (h2 : ∀ c ∈ d2, isDigit c = true)
    (hs1 : isDigit (hd s1) = false) (hs2 : isDigit (hd s2) = false) (hl : d1.length = d2.length)
    (hv : value d1 < value d2) : key .int (d1 ++ s1) < key .int (d2 ++ s2) := by
  induction d1 generalizing d2 with
  | nil =>
    have : d2 = [] := List.length_eq_zero_iff.mp hl.symm
    subst this
    simp [value] at hv
  | cons a d1 ih =>
    cases d2 with
    | nil => simp at hl
    | cons b d2 =>
      have hl' : d1.length = d2.length := by simpa using hl
      have ha := h1 a (by simp)
      have hb := h2 b (by simp)
      have h1' : ∀ c ∈ d1, isDigit c = true := fun c hc => h1 c (by simp [hc])
      have h2' : ∀ c ∈ d2, isDigit c = true := fun c hc => h2 c (by simp [hc])
      have e1 : key .int (a :: d1 ++ s1) = (256 + ndigits (a :: d1 ++ s1)) :: a :: key .int (d1 ++ s1) := by
        simp [key, ha]
      have e2 : key .int (b :: d2 ++ s2) = (256 + ndigits (b :: d2 ++ s2)) :: b :: key .int (d2 ++ s2) := by
        simp [key, hb]
      rw [e1, e2, ndigits_append _ _ h1 hs1, ndigits_append _ _ h2 hs2, hl]
      apply List.Lex.cons
      have ba := digit_bounds ha
      have bb := digit_bounds hb
      have v1 := value_lt d1 h1'
      have v2 := value_lt d2 h2'
      simp only [value, hl'] at hv
      rw [hl'] at v1
      by_cases hab : a < b
      · exact List.Lex.rel hab
      · by_cases heq : a = b
        · subst heq
          apply List.Lex.cons
          exact ih d2 h1' h2' hl' (by omega)
        · exfalso
          have : (b - 48 + 1) * 10 ^ d2.length ≤ (a - 48) * 10 ^ d2.length := Nat.mul_le_mul_right _ (by omega)
          rw [Nat.add_mul] at this
          omega

theorem value_ge (d : Bytes) (h : ∀ c ∈ d, isDigit c = true) (hne : d ≠ []) (h0 : hd d ≠ 48) :
    10 ^ (d.length - 1) ≤ value d := by
  cases d with
  | nil => exact absurd rfl hne
  | cons c t =>
    have := digit_bounds (h c (by simp))
    simp only [hd] at h0
    simp only [value, List.length_cons, Nat.add_sub_cancel]
    have : 1 * 10 ^ t.length ≤ (c - 48) * 10 ^ t.length := Nat.mul_le_mul_right _ (by omega)
    omega

theorem loop_prefix (p : Bytes) (c : Nat) (hc : isDigit c = false) (x y : Bytes) :
    ∀ run z, loop run z (p ++ c :: x) (p ++ c :: y) = loop none true x y := by
  induction p with
  | nil => intro run z; simp [loop, hc]
  | cons a p ih =>
    intro run z
    rw [List.cons_append, List.cons_append, loop, if_pos rfl]
    split <;> exact ih _ _

/-- **C25, numbers.**  If two names agree up to a number without leading zeros (at the start, or after a non-digit), the one with
the smaller number comes first, whatever follows. -/
theorem numbers_in_order (p d1 d2 s1 s2 : Bytes) (hp : p = [] ∨ ∃ q c, p = q ++ [c] ∧ isDigit c = false)
    (h1 : ∀ c ∈ d1, isDigit c = true) (h2 : ∀ c ∈ d2, isDigit c = true) (hn1 : d1 ≠ []) (hn2 : d2 ≠ [])
    (hz1 : hd d1 ≠ 48) (hz2 : hd d2 ≠ 48) (hs1 : isDigit (hd s1) = false) (hs2 : isDigit (hd s2) = false)
    (hok1 : Ok s1) (hok2 : Ok s2) (hv : value d1 < value d2) : strverscmp (p ++ d1 ++ s1) (p ++ d2 ++ s2) < 0 := by
  have red : strverscmp (p ++ d1 ++ s1) (p ++ d2 ++ s2) = strverscmp (d1 ++ s1) (d2 ++ s2) := by
    rcases hp with rfl | ⟨q, c, rfl, hc⟩
    · rfl
    · have := loop_prefix q c hc (d1 ++ s1) (d2 ++ s2) none true
      simpa [strverscmp] using this
  rw [red]
  have okd : ∀ d s : Bytes, (∀ c ∈ d, isDigit c = true) → Ok s → Ok (d ++ s) := by
    intro d s hd hs c hc
    rcases List.mem_append.mp hc with h | h
    · have := digit_bounds (hd c h); omega
    · exact hs c h
  have klt : key .none (d1 ++ s1) < key .none (d2 ++ s2) := by
    have kd : ∀ d s : Bytes, (∀ c ∈ d, isDigit c = true) → d ≠ [] → hd d ≠ 48 → key .none (d ++ s) = key .int (d ++ s) := by
      intro d s hd' hne h0
      cases d with
      | nil => exact absurd rfl hne
      | cons c t =>
        have h0' : c ≠ 48 := h0
        simp [key, hd' c (by simp), h0']
    rw [kd d1 s1 h1 hn1 hz1, kd d2 s2 h2 hn2 hz2]
    by_cases hl : d1.length = d2.length
    · exact key_int_lt d1 d2 s1 s2 h1 h2 hs1 hs2 hl hv
    · have g1 := value_ge d1 h1 hn1 hz1
      have g2 := value_lt d2 h2
      have hlt : d1.length < d2.length := by
        by_cases hc : d2.length < d1.length
        · have : 10 ^ d2.length ≤ 10 ^ (d1.length - 1) := Nat.pow_le_pow_right (by omega) (by omega)
          omega
        · omega
      cases d1 with
      | nil => exact absurd rfl hn1
      | cons a d1 =>
        cases d2 with
        | nil => exact absurd rfl hn2
        | cons b d2 =>
          have e1 : key .int (a :: d1 ++ s1) = (256 + ndigits (a :: d1 ++ s1)) :: a :: key .int (d1 ++ s1) := by
            simp [key, h1 a (by simp)]
          have e2 : key .int (b :: d2 ++ s2) = (256 + ndigits (b :: d2 ++ s2)) :: b :: key .int (d2 ++ s2) := by
            simp [key, h2 b (by simp)]
          rw [e1, e2, ndigits_append _ _ h1 hs1, ndigits_append _ _ h2 hs2]
          exact List.Lex.rel (by omega)
  have hne : d1 ++ s1 ≠ d2 ++ s2 := by
    intro e; rw [e] at klt; exact List.lt_irrefl _ klt
  rcases cmp_decides _ _ (okd _ _ h1 hok1) (okd _ _ h2 hok2) hne with ⟨h, _⟩ | ⟨_, h⟩
  · exact h
  · exact (not_both klt h).elim

/-- Bytes of a literal. -/
def bytes (s : String) : Bytes := s.toList.map Char.toNat

example : strverscmp (bytes "9-a.quirks") (bytes "10-a.quirks") < 0 ∧ strverscmp (bytes "a10") (bytes "a9") > 0 ∧
    strverscmp (bytes "a001") (bytes "a01") < 0 ∧ strverscmp (bytes "a") (bytes "a") = 0 := by decide +kernel
example : Ok (bytes "10-a.quirks") := by unfold Ok; decide

end Libinput.Versionsort
