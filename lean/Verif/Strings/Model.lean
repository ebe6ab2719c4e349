/-
C string helpers: number parsing, tokenizing, joining and stripping.
/repo/src/util-strings.h, /repo/src/util-strings.c.

A C string is the list of its bytes up to, not including, the terminating NUL; a byte is
represented by the `Char` with the same number.
-/
namespace Libinput.Strings

abbrev Str := List Char

/-- `isspace` in the C locale.  Models: the use inside `strtol`/`sscanf`. -/
def isSpace (c : Char) : Bool :=
  c = ' ' || c = '\t' || c = '\n' || c = '\x0b' || c = '\x0c' || c = '\r'

/-- `isdigit`.  Models: ISO C `isdigit`, used at /repo/src/util-strings.h:216. -/
def isDigit (c : Char) : Bool := '0' ≤ c && c ≤ '9'

/-- Value of a digit or letter.  Models: ISO C `strtol`. -/
def rawDigit (c : Char) : Option Nat :=
  if '0' ≤ c ∧ c ≤ '9' then some (c.toNat - '0'.toNat)
  else if 'a' ≤ c ∧ c ≤ 'z' then some (c.toNat - 'a'.toNat + 10)
  else if 'A' ≤ c ∧ c ≤ 'Z' then some (c.toNat - 'A'.toNat + 10)
  else none

/-- Value of a digit in the given base.  Models: ISO C `strtol`. -/
def digitVal (base : Nat) (c : Char) : Option Nat :=
  match rawDigit c with
  | some d => if d < base then some d else none
  | none => none

/-- The longest run of digits: accumulated value, number of digits and what follows. -/
def scanDigits (base : Nat) (acc n : Nat) : Str → Nat × Nat × Str
  | [] => (acc, n, [])
  | c :: s =>
    match digitVal base c with
    | some d => scanDigits base (acc * base + d) (n + 1) s
    | none => (acc, n, c :: s)

/-- Optional sign. -/
def scanSign : Str → Bool × Str
  | '-' :: s => (true, s)
  | '+' :: s => (false, s)
  | s => (false, s)

/-- Optional `0x` of base 16; as in glibc it is a prefix only if a hex digit follows. -/
def scanPrefix (base : Nat) (s : Str) : Str :=
  if base = 16 then
    match s with
    | '0' :: x :: d :: t => if (x = 'x' ∨ x = 'X') ∧ (digitVal 16 d).isSome then d :: t else s
    | _ => s
  else s

/-- The syntactic part of `strtol`/`strtoul`/`%d`: sign, magnitude (unbounded) and the rest of the
string (`*endptr`); `none` if there is no number (`endptr == str`).
Models: ISO C 7.22.1.4 `strtol` as used at /repo/src/util-strings.h:150 and 180. -/
def strto (base : Nat) (s : Str) : Option (Bool × Nat × Str) :=
  let (neg, s) := scanSign (s.dropWhile isSpace)
  let s := scanPrefix base s
  match scanDigits base 0 0 s with
  | (v, n, rest) => if n = 0 then none else some (neg, v, rest)

def INT_MAX : Int := 2147483647
def INT_MIN : Int := -2147483648
def LONG_MAX : Int := 9223372036854775807
def LONG_MIN : Int := -9223372036854775808
def ULONG_MAX : Nat := 18446744073709551615

/-- Sign and magnitude as a number. -/
def signed (neg : Bool) (m : Nat) : Int := if neg then -(m : Int) else m

/-- `safe_atoi_base`: `none` is `false` with `*val` untouched.
Models: /repo/src/util-strings.h:141-163.  `long` is 64 bits. -/
def safeAtoiBase (base : Nat) (s : Str) : Option Int :=
  match strto base s with
  | none => none
  | some (neg, m, rest) =>
    let v := signed neg m
    if v > LONG_MAX ∨ v < LONG_MIN then none            -- errno == ERANGE
    else if rest ≠ [] then none
    else if v > INT_MAX ∨ v < INT_MIN then none
    else some v

/-- `safe_atoi`.  Models: /repo/src/util-strings.h:165-169. -/
def safeAtoi (s : Str) : Option Int := safeAtoiBase 10 s

/-- `safe_atou_base`.  `strtoul` negates modulo 2^64; the result is truncated to `unsigned int`.
Models: /repo/src/util-strings.h:171-193.  `long` is 64 bits. -/
def safeAtouBase (base : Nat) (s : Str) : Option Nat :=
  match strto base s with
  | none => none
  | some (neg, m, rest) =>
    if m > ULONG_MAX then none                           -- errno == ERANGE
    else
      let v := if neg then (2 ^ 64 - m) % 2 ^ 64 else m
      if rest ≠ [] then none
      else if v ≥ 2 ^ 63 then none
      else some (v % 2 ^ 32)

/-- `safe_atou`.  Models: /repo/src/util-strings.h:195-199. -/
def safeAtou (s : Str) : Option Nat := safeAtouBase 10 s

/-! ### Doubles -/

/-- A decimal numeral: value `mant / 10 ^ scale`, negated if `neg`. -/
structure Decimal where
  neg : Bool
  mant : Nat
  scale : Nat
deriving DecidableEq, Repr

/-- The decimal syntax of `strtod`, restricted to the characters `safe_atod` lets through.
Models: ISO C `strtod` (the decimal, non-exponent case). -/
def strtodSyntax (s : Str) : Option (Decimal × Str) :=
  let (neg, s) := scanSign s
  match scanDigits 10 0 0 s with
  | (v, n, '.' :: rest) =>
    match scanDigits 10 v 0 rest with
    | (v', k, rest') => if n = 0 ∧ k = 0 then none else some (⟨neg, v', k⟩, rest')
  | (v, n, rest) => if n = 0 then none else some (⟨neg, v, 0⟩, rest)

/-- `safe_atod`.  `round` is the conversion of a decimal to `double`, giving `none` where `strtod` sets
`errno` or the result is neither zero nor normal.
Models: /repo/src/util-strings.h:201-253.  Simplified: `newlocale` never fails; rounding is a
parameter. -/
def safeAtod {F : Type} (round : Decimal → Option F) (s : Str) : Option F :=
  if s.all (fun c => isDigit c || c = '+' || c = '-' || c = '.') then
    match strtodSyntax s with
    | none => none
    | some (d, rest) => if rest ≠ [] then none else round d
  else none

/-! ### Tokenizing -/

/-- Separator test: `strchr(separators, c)` for `c` not NUL.  Models: `strspn`/`strcspn`. -/
def sepOf (separators : Str) (c : Char) : Bool := separators.contains c

/-- `next_word`: the word, and the remaining string.  Models: /repo/src/util-strings.c:39-59. -/
def nextWord (sep : Char → Bool) (s : Str) : Option (Str × Str) :=
  match s.dropWhile sep with
  | [] => none
  | c :: t => some ((c :: t).takeWhile (fun c => !sep c), (c :: t).dropWhile (fun c => !sep c))

theorem nextWord_length {sep : Char → Bool} {s w r : Str} (h : nextWord sep s = some (w, r)) :
    r.length < s.length := by
  unfold nextWord at h
  have h0 : (s.dropWhile sep).length ≤ s.length := (List.dropWhile_sublist sep).length_le
  cases hd : s.dropWhile sep with
  | nil => rw [hd] at h; cases h
  | cons c t =>
    rw [hd] at h h0
    simp only [Option.some.injEq, Prod.mk.injEq] at h
    have hc : sep c = false := by
      have : (s.dropWhile sep).head? = some c := by rw [hd]; rfl
      have := List.head?_dropWhile_not (p := sep) s
      rw [hd] at this
      simpa using this
    rw [← h.2]
    have : ((c :: t).dropWhile fun c => !sep c) = t.dropWhile fun c => !sep c := by
      rw [List.dropWhile_cons]; simp [hc]
    rw [this]
    have h1 : (t.dropWhile fun c => !sep c).length ≤ t.length := (List.dropWhile_sublist _).length_le
    simp at h0
    omega

/-- The loop of `strv_from_string`.  Models: /repo/src/util-strings.c:113-134 (the counting pass makes the
same calls as the copying pass). -/
def words (sep : Char → Bool) (s : Str) : List Str :=
  match h : nextWord sep s with
  | none => []
  | some (w, r) => w :: words sep r
termination_by s.length
decreasing_by exact nextWord_length h

/-- `strv_from_string`; `none` is `NULL`.  Models: /repo/src/util-strings.c:103-137.
Simplified: allocation never fails (`zalloc` aborts). -/
def strvFromString (s separators : Str) : Option (List Str) :=
  match words (sepOf separators) s with
  | [] => none
  | ws => some ws

/-- Concatenation with a joiner between elements: the `strcat` loop at /repo/src/util-strings.c:179-184. -/
def joinLoop (joiner : Str) : List Str → Str
  | [] => []
  | [w] => w
  | w :: ws => w ++ joiner ++ joinLoop joiner ws

/-- Result of `strv_join`: a string, `NULL`, or a failed assertion. -/
inductive Join where
  | str (s : Str)
  | null
  | abort
deriving DecidableEq, Repr

/-- `strv_join`.  Models: /repo/src/util-strings.c:153-187. -/
def strvJoin (strv : List Str) (joiner : Str) : Join :=
  if strv = [] then .null
  else
    let slen := (strv.map List.length).sum
    if slen < 1000 ∧ joiner.length < 1000 ∧ strv.length < 100 then .str (joinLoop joiner strv) else .abort

/-! ### Stripping and file names -/

/-- The position after the last character not in `what`: the loop at /repo/src/util-strings.h:358-363. -/
def lastLoop (what : Char → Bool) (i last : Nat) : Str → Nat
  | [] => last
  | c :: s => lastLoop what (i + 1) (if what c then last else i + 1) s

/-- `strstrip`.  Models: /repo/src/util-strings.h:351-368. -/
def strstrip (s what : Str) : Str :=
  let str := s.dropWhile (sepOf what)
  str.take (lastLoop (sepOf what) 0 0 str)

/-- `strendswith`.  Models: /repo/src/util-strings.h:374-386. -/
def strendswith (s suffix : Str) : Bool :=
  if s.length = 0 ∨ suffix.length = 0 ∨ suffix.length > s.length then false
  else (s.drop (s.length - suffix.length)).take suffix.length = suffix

/-- `strstartswith`.  Models: /repo/src/util-strings.h:388-394. -/
def strstartswith (s pre : Str) : Bool :=
  if pre.length > 0 then s.take pre.length = pre else false

/-- `strrchr`: what follows the last occurrence of `c`, and what precedes it. -/
def splitLast (c : Char) : Str → Option (Str × Str)
  | [] => none
  | d :: s =>
    match splitLast c s with
    | some (a, b) => some (d :: a, b)
    | none => if d = c then some ([], s) else none

/-- `safe_basename`.  Models: /repo/src/util-strings.c:194-210. -/
def safeBasename (s : Str) : Option Str :=
  if s = [] then none
  else
    match splitLast '/' s with
    | none => some s
    | some (_, b) => if b = [] then none else some b

/-- `trunkname`.  Models: /repo/src/util-strings.c:224-238. -/
def trunkname (s : Str) : Str :=
  match safeBasename s with
  | none => []
  | some base =>
    match splitLast '.' base with
    | none => base
    | some (a, _) => a

end Libinput.Strings
