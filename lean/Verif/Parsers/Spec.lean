import Verif.Parsers.Model
/-
The formats of the properties, independently of the parsers.
-/
namespace Libinput.Parsers.Spec
open Libinput.Strings Libinput.Strings.Spec

/-- A non-empty string of decimal digits and its value. -/
def Digits (s : Str) (v : Nat) : Prop :=
  s ≠ [] ∧ ∃ ds : List Nat, s.map (digitVal 10) = ds.map some ∧ v = value 10 ds

/-- One entry of a DPI list: `*` marks the default; the rate is optional. -/
structure Entry where
  star : Bool
  dpi : Nat
  rate : Option Nat

/-- `400`, `400@125`, `*400`, `*400@125`. -/
inductive EntryText : Entry → Str → Prop
  | plain (d : Str) (v : Nat) (h : Digits d v) : EntryText ⟨false, v, none⟩ d
  | rate (d r : Str) (v w : Nat) (h : Digits d v) (h' : Digits r w) : EntryText ⟨false, v, some w⟩ (d ++ '@' :: r)
  | star (e : Entry) (t : Str) (h : EntryText e t) (hs : e.star = false) : EntryText ⟨true, e.dpi, e.rate⟩ ('*' :: t)

/-- Entries separated by one or more spaces. -/
inductive DpiText : List Entry → Str → Prop
  | nil (gap : Str) (h : ∀ c ∈ gap, c = ' ') : DpiText [] gap
  | cons (gap t rest : Str) (e : Entry) (es : List Entry) (hg : ∀ c ∈ gap, c = ' ') (ht : EntryText e t)
      (hsep : rest = [] ∨ ∃ r, rest = ' ' :: r) (hr : DpiText es rest) : DpiText (e :: es) (gap ++ t ++ rest)

/-- The entries up to and including the first default; all entries if there is none. -/
def upToDefault (es : List Entry) : List Entry :=
  es.takeWhile (fun e => !e.star) ++ (es.find? (·.star)).toList

/-- DPI and, if given, rate are positive. -/
def Entry.positive (e : Entry) : Prop := e.dpi ≠ 0 ∧ e.rate ≠ some 0

/-- DPI and rate fit `int`. -/
def Entry.fits (e : Entry) : Prop := e.dpi ≤ 2147483647 ∧ ∀ r, e.rate = some r → r ≤ 2147483647

/-- Two numbers around a separator, then anything that does not continue the second number. -/
def Pair (sep : Char) (s : Str) (x y : Int) : Prop :=
  ∃ (a b rest : Str) (na nb : Bool) (ma mb : Nat), s = a ++ sep :: b ++ rest ∧ Numeral 10 a na ma ∧ Numeral 10 b nb mb ∧
    (∀ c t, rest = c :: t → digitVal 10 c = none) ∧ x = signed na ma ∧ y = signed nb mb

/-- Colon-separated fields, empty ones included. -/
inductive Fields : Str → List Str → Prop
  | last (f : Str) (h : ':' ∉ f) : Fields f [f]
  | cons (f rest : Str) (fs : List Str) (h : ':' ∉ f) (hr : Fields rest fs) : Fields (f ++ ':' :: rest) (f :: fs)

/-- `f` is a decimal numeral for `v`, in the range of `int`. -/
def IntText (f : Str) (v : Int) : Prop :=
  ∃ n m, Numeral 10 f n m ∧ v = signed n m ∧ -2147483648 ≤ v ∧ v ≤ 2147483647

/-- Element by element. -/
def Each {α β : Type} (R : α → β → Prop) : List α → List β → Prop
  | [], [] => True
  | a :: as, b :: bs => R a b ∧ Each R as bs
  | _, _ => False

/-- Names and hexadecimal tuples for event codes. -/
def Evcode (N : Names) (C : Conv) (w : Str) (tc : Nat × Nat) : Prop :=
  (':' ∉ w ∧ (∃ r, w = 'E' :: 'V' :: '_' :: r) ∧ N.type w = some tc.1 ∧ tc.2 = 0xffff) ∨
  (':' ∉ w ∧ N.code tc.1 w = some tc.2 ∧
    ((∃ r, w = 'K' :: 'E' :: 'Y' :: '_' :: r) ∧ tc.1 = 1 ∨ (∃ r, w = 'B' :: 'T' :: 'N' :: '_' :: r) ∧ tc.1 = 1 ∨
     (∃ r, w = 'A' :: 'B' :: 'S' :: '_' :: r) ∧ tc.1 = 3 ∨ (∃ r, w = 'R' :: 'E' :: 'L' :: '_' :: r) ∧ tc.1 = 2 ∨
     (∃ r, w = 'S' :: 'W' :: '_' :: r) ∧ tc.1 = 5)) ∨
  (∃ (name hex : Str) (neg : Bool) (m : Nat), w = name ++ ':' :: hex ∧ name ≠ [] ∧ name.length ≤ 12 ∧
    (∀ c ∈ name, ('A' ≤ c ∧ c ≤ 'Z') ∨ c = '_') ∧ Numeral 16 hex neg m ∧ N.type name = some tc.1 ∧
    (tc.2 : Int) = C.conv (signed neg m) ∧ (tc.2 : Int) ≤ N.maxCode tc.1)

/-- A hexadecimal number as the unsigned parser takes it (C21). -/
def Hex (w : Str) (v : Nat) : Prop :=
  ∃ neg m, Numeral 16 w neg m ∧ m < 18446744073709551616 ∧
    signed neg m % 18446744073709551616 < 9223372036854775808 ∧ (v : Int) = signed neg m % 4294967296

/-- A hexadecimal number up to 0x1f or the name of an input property. -/
def InputProp (N : Names) (w : Str) (p : Nat) : Prop :=
  Hex w p ∧ p ≤ 0x1f ∨ (¬ ∃ v, Hex w v) ∧ N.prop w = some p

end Libinput.Parsers.Spec
