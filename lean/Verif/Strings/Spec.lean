import Verif.Strings.Model
/-
What the string helpers should compute, independently of how they do it.
-/
namespace Libinput.Strings.Spec

/-- Positional value of a digit string, most significant digit first. -/
def value (base : Nat) : List Nat → Nat
  | [] => 0
  | d :: ds => d * base ^ ds.length + value base ds

/-- `s` is one numeral: optional white space, optional sign, optional `0x` (base 16 only), and at least
one digit of the base; `neg` tells whether there is a minus sign, `m` is the value of the digits. -/
def Numeral (base : Nat) (s : Str) (neg : Bool) (m : Nat) : Prop :=
  ∃ (ws sign pre : Str) (digits : Str) (ds : List Nat),
    s = ws ++ sign ++ pre ++ digits ∧
    (∀ c ∈ ws, isSpace c = true) ∧
    (sign = ['-'] ∧ neg = true ∨ sign = ['+'] ∧ neg = false ∨ sign = [] ∧ neg = false) ∧
    (pre = [] ∨ base = 16 ∧ (pre = ['0', 'x'] ∨ pre = ['0', 'X'])) ∧
    digits ≠ [] ∧ digits.map (digitVal base) = ds.map some ∧ m = value base ds

/-- Splitting at separators: `ws` are, in order, the maximal non-empty separator-free runs of `s`. -/
inductive Splits (sep : Char → Bool) : Str → List Str → Prop
  | nil (gap : Str) (hg : ∀ c ∈ gap, sep c = true) : Splits sep gap []
  | cons (gap w rest : Str) (ws : List Str)
      (hg : ∀ c ∈ gap, sep c = true)
      (hne : w ≠ []) (hw : ∀ c ∈ w, sep c = false)
      (hmax : rest = [] ∨ ∃ c t, rest = c :: t ∧ sep c = true)
      (hr : Splits sep rest ws) : Splits sep (gap ++ w ++ rest) (w :: ws)

/-- Decimal numerals without exponent: optional sign, digits with an optional dot, at least one digit. -/
def DecimalNumeral (s : Str) (d : Decimal) : Prop :=
  ∃ (sign ip fp : Str) (is fs : List Nat),
    (s = sign ++ ip ++ ['.'] ++ fp ∨ s = sign ++ ip ∧ fp = []) ∧
    (sign = ['-'] ∧ d.neg = true ∨ sign = ['+'] ∧ d.neg = false ∨ sign = [] ∧ d.neg = false) ∧
    ip.map (digitVal 10) = is.map some ∧ fp.map (digitVal 10) = fs.map some ∧
    (ip ≠ [] ∨ fp ≠ []) ∧
    d.mant = value 10 (is ++ fs) ∧ d.scale = fs.length

end Libinput.Strings.Spec
