import Verif.Strings.Lemmas
/-
Parsers for udev properties and quirk values, /repo/src/util-prop-parsers.c.
-/
namespace Libinput.Parsers
open Libinput.Strings

/-- The rest left by a number is shorter than the input. -/
theorem strto_rest_lt {base : Nat} {s : Str} {n : Bool} {m : Nat} {rest : Str}
    (h : strto base s = some (n, m, rest)) : rest.length < s.length := by
  obtain ⟨front, h1, ⟨ws, sign, pre, digits, ds, h2, _, _, _, hne, _⟩, _⟩ := strto_some h
  have : digits.length ≠ 0 := fun h => hne (List.length_eq_zero_iff.mp h)
  rw [h1, h2]
  simp only [List.length_append]
  omega

/-- The stored value of a `%d` conversion: `conv` is what the C library stores for the number read.  For
numbers in the range of `int` it is the number itself; outside, the result is up to the C library (glibc
saturates to `long` and truncates).
Models: ISO C `sscanf` conversion `%d`. -/
structure Conv where
  conv : Int → Int
  exact : ∀ v, INT_MIN ≤ v → v ≤ INT_MAX → conv v = v

/-- The `@%d` part of a DPI entry. -/
def dpiRate (C : Conv) : Str → Option (Int × Str)
  | [] => none
  | c :: r =>
    if c = '@' then
      match strto 10 r with
      | some (n, m, rest) => some (C.conv (signed n m), rest)
      | none => none
    else none

/-- One DPI entry, `sscanf(prop, "%d@%d%n")` and, failing that, `sscanf(prop, "%d%n")`: dpi, rate and
`prop + nread`.  Models: /repo/src/util-prop-parsers.c:76-80. -/
def dpiEntry (C : Conv) (s : Str) : Option (Int × Int × Str) :=
  match strto 10 s with
  | none => none
  | some (n, m, rest) =>
    match dpiRate C rest with
    | some (rate, rest') => some (C.conv (signed n m), rate, rest')
    | none => some (C.conv (signed n m), 1, rest)

theorem dpiRate_lt {C : Conv} {s : Str} {r : Int} {rest : Str} (h : dpiRate C s = some (r, rest)) :
    rest.length < s.length := by
  cases s with
  | nil => cases h
  | cons c t =>
    simp only [dpiRate] at h
    split at h
    · cases hs : strto 10 t with
      | none => rw [hs] at h; cases h
      | some q =>
        obtain ⟨n, m, r0⟩ := q
        have h0 := strto_rest_lt hs
        rw [hs] at h
        cases h
        simp only [List.length_cons]; omega
    · cases h

theorem dpiEntry_lt {C : Conv} {s : Str} {d r : Int} {rest : Str} (h : dpiEntry C s = some (d, r, rest)) :
    rest.length < s.length := by
  unfold dpiEntry at h
  cases hs : strto 10 s with
  | none => rw [hs] at h; cases h
  | some q =>
    obtain ⟨n, m, r0⟩ := q
    have h0 := strto_rest_lt hs
    rw [hs] at h
    simp only at h
    cases hr : dpiRate C r0 with
    | none => rw [hr] at h; cases h; exact h0
    | some q => 
      obtain ⟨rate, r'⟩ := q
      have := dpiRate_lt hr
      rw [hr] at h; cases h; omega

/-- A `*` not followed by a digit.  Models: /repo/src/util-prop-parsers.c:65-70.
Note: `isdigit` is called with a plain `char` there; for bytes above 127 that is undefined behaviour
where `char` is signed.  The model treats such bytes as non-digits. -/
def starBad (c : Char) : Str → Bool
  | [] => c = '*'
  | d :: _ => c = '*' && !isDigit d

/-- `prop` after skipping a `*`. -/
def unstar (c : Char) (s : Str) : Str := if c = '*' then s else c :: s

theorem unstar_length (c : Char) (s : Str) : (unstar c s).length ≤ s.length + 1 := by
  unfold unstar
  split <;> simp

/-- The loop of `parse_mouse_dpi_property`.  Models: /repo/src/util-prop-parsers.c:60-88. -/
def dpiLoop (C : Conv) (dpi : Int) : Str → Int
  | [] => dpi
  | c :: s =>
    if c = ' ' then dpiLoop C dpi s
    else if starBad c s then 0
    else
      match _h : dpiEntry C (unstar c s) with
      | none => 0
      | some (d, rate, rest) =>
        if d ≤ 0 ∨ rate ≤ 0 ∨ rest.head? = some '@' then 0
        else if c = '*' then d
        else dpiLoop C d rest
termination_by s => s.length
decreasing_by
  · simp
  · have := dpiEntry_lt _h
    have := unstar_length c s
    simp only [List.length_cons]
    omega

/-- `parse_mouse_dpi_property`; `none` as argument is a NULL pointer.
Models: /repo/src/util-prop-parsers.c:51-89. -/
def parseDpi (C : Conv) : Option Str → Int
  | none => 0
  | some s => dpiLoop C 0 s

/-- Result of an expression that may be undefined. -/
inductive UB (α : Type) where
  | val (a : α)
  | ub
deriving DecidableEq, Repr

/-- `parse_mouse_wheel_click_count_property` and, identically, `parse_mouse_wheel_click_angle_property`.
`abs(INT_MIN)` is undefined.  Models: /repo/src/util-prop-parsers.c:101-113 and 125-137. -/
def parseWheelClick : Option Str → UB Int
  | none => .val 0
  | some s =>
    match safeAtoi s with
    | none => .val 0
    | some v => if v = INT_MIN then .ub else if (v.natAbs : Int) > 360 then .val 0 else .val v

/-- `sscanf(prop, "%d<sep>%d", &x, &y) == 2`.  Models: /repo/src/util-prop-parsers.c:158 and 274. -/
def scanPair (C : Conv) (sep : Char) (s : Str) : Option (Int × Int) :=
  match strto 10 s with
  | some (n, m, c :: r) =>
    if c = sep then
      match strto 10 r with
      | some (n', m', _) => some (C.conv (signed n m), C.conv (signed n' m'))
      | none => none
    else none
  | _ => none

/-- `parse_dimension_property`; `none` is `false` with `*w`, `*h` untouched.
Models: /repo/src/util-prop-parsers.c:150-167. -/
def parseDimension (C : Conv) : Option Str → Option (Int × Int)
  | none => none
  | some s =>
    match scanPair C 'x' s with
    | none => none
    | some (x, y) => if x ≤ 0 ∨ y ≤ 0 then none else some (x, y)

/-- `parse_range_property`.  Models: /repo/src/util-prop-parsers.c:260-284. -/
def parseRange (C : Conv) : Option Str → Option (Int × Int)
  | none => none
  | some s =>
    if s = ['n', 'o', 'n', 'e'] then some (0, 0)
    else
      match scanPair C ':' s with
      | none => none
      | some (first, second) => if second ≥ first then none else some (first, second)

/-! ### EVDEV_ABS -/

/-- `index(s, ':')`: the text before the first colon, and the text after it if there is one. -/
def splitColon : Str → Str × Option Str
  | [] => ([], none)
  | c :: s =>
    if c = ':' then ([], some s)
    else
      match splitColon s with
      | (a, r) => (c :: a, r)

theorem splitColon_lt {s r : Str} (h : (splitColon s).2 = some r) : r.length < s.length := by
  induction s with
  | nil => simp [splitColon] at h
  | cons c s ih =>
    unfold splitColon at h
    split at h
    · simp only [Option.some.injEq] at h
      rw [h]; simp
    · have := ih h
      simp only [List.length_cons]; omega

/-- The values written so far: `mask` and `values[0..4]`. -/
structure AbsVals where
  mask : Nat
  values : Nat → Int

/-- The loop of `parse_evdev_abs_prop`; `i` counts fields (`bit = 1 << i`, `val = values + i`).
Models: /repo/src/util-prop-parsers.c:489-510. -/
def absLoop (i : Nat) (v : AbsVals) (s : Str) : Option AbsVals :=
  match s with
  | [] => some v
  | c :: t =>
    if 4 < i then some v
    else if c = ':' then absLoop (i + 1) v t
    else
      match safeAtoi (splitColon (c :: t)).1 with
      | none => none
      | some x =>
        let v' : AbsVals := { mask := v.mask ||| 2 ^ i, values := fun j => if j = i then x else v.values j }
        match h : (splitColon (c :: t)).2 with
        | none => some v'
        | some r => absLoop (i + 1) v' r
termination_by s.length
decreasing_by
  · simp
  · exact splitColon_lt h

/-- `parse_evdev_abs_prop`: the mask returned and the values stored for its bits.
Models: /repo/src/util-prop-parsers.c:474-527. -/
def parseAbs (s : Str) : AbsVals :=
  if s.length > 24 then { mask := 0, values := fun _ => 0 }
  else
    match absLoop 0 { mask := 0, values := fun _ => 0 } s with
    | none => { mask := 0, values := fun _ => 0 }
    | some v => v

/-! ### Lists of numbers and codes -/

/-- `parse_calibration_property`.  `round` converts a decimal to `double` (and then `float`).
Models: /repo/src/util-prop-parsers.c:176-205. -/
def parseCalibration {F : Type} (round : Decimal → Option F) : Option Str → Option (List F)
  | none => none
  | some s =>
    match strvFromString s [' '] with
    | none => none
    | some ws => if ws.length < 6 then none else (ws.take 6).mapM (safeAtod round)

/-- One `key<sep>value` pair.  Models: /repo/src/util-strings.h:314-330. -/
def parseKv {F : Type} (round : Decimal → Option F) (kvSep : Str) (p : Str) : Option (F × F) :=
  match strvFromString p kvSep with
  | some [k, v] =>
    match safeAtod round k, safeAtod round v with
    | some a, some b => some (a, b)
    | _, _ => none
  | _ => none

/-- `kv_double_from_string`; `none` is -1.  Models: /repo/src/util-strings.h:285-342. -/
def kvDoubles {F : Type} (round : Decimal → Option F) (s pairSep kvSep : Str) : Option (List (F × F)) :=
  if pairSep = [] ∨ kvSep = [] then none
  else
    match strvFromString s pairSep with
    | none => none
    | some ps => ps.mapM (parseKv round kvSep)

/-- The libevdev tables used by the parsers below: type and code numbers by name (`none` is -1), the
largest code of a type, input property by name.
Models: `libevdev_event_type_from_name`, `libevdev_event_code_from_name`,
`libevdev_event_type_get_max`, `libevdev_property_from_name`. -/
structure Names where
  type : Str → Option Nat
  code : Nat → Str → Option Nat
  maxCode : Nat → Int
  prop : Str → Option Nat

def EVENT_CODE_UNDEFINED : Nat := 0xffff

/-- The prefix table of `parse_evcode_string`: EV_KEY is 1, EV_REL 2, EV_ABS 3, EV_SW 5.
Models: /repo/src/util-prop-parsers.c:298-307. -/
def evMap : List (Str × Nat) :=
  [("KEY_".toList, 1), ("BTN_".toList, 1), ("ABS_".toList, 3), ("REL_".toList, 2), ("SW_".toList, 5)]

/-- `parse_evcode_string`.  Models: /repo/src/util-prop-parsers.c:286-331. -/
def evcodeString (N : Names) (s : Str) : Option (Nat × Nat) :=
  if s.take 3 = "EV_".toList then
    match N.type s with
    | none => none
    | some t => some (t, EVENT_CODE_UNDEFINED)
  else
    match evMap.find? (fun m => strstartswith s m.1) with
    | none => none
    | some (_, t) =>
      match N.code t s with
      | none => none
      | some c => some (t, c)

/-- `sscanf(s, "%12[A-Z_]:%x%n", ...) == 2` with everything consumed: type name and code.
Models: /repo/src/util-prop-parsers.c:385-386. -/
def scanTypeCode (C : Conv) (s : Str) : Option (Str × Int) :=
  let up := fun c : Char => ('A' ≤ c ∧ c ≤ 'Z') ∨ c = '_'
  let name := (s.takeWhile (fun c => decide (up c))).take 12
  if name = [] then none
  else
    match s.drop name.length with
    | ':' :: r =>
      match strto 16 r with
      | some (n, m, []) => some (name, C.conv (signed n m))
      | _ => none
    | _ => none

/-- One element of an event code list.  Models: /repo/src/util-prop-parsers.c:374-393. -/
def evcodeElement (N : Names) (C : Conv) (s : Str) : Option (Nat × Nat) :=
  if !s.contains ':' then evcodeString N s
  else
    match scanTypeCode C s with
    | none => none
    | some (name, code) =>
      match N.type name with
      | none => none
      | some t => if code < 0 ∨ code > N.maxCode t then none else some (t, code.toNat)

/-- `parse_evcode_property` with room for `n` events.  Models: /repo/src/util-prop-parsers.c:350-403. -/
def parseEvcodes (N : Names) (C : Conv) (s : Str) (n : Nat) : Option (List (Nat × Nat)) :=
  match strvFromString s [';'] with
  | none => none
  | some ws =>
    if ws.length > 32 then none
    else
      match ws.mapM (evcodeElement N C) with
      | none => none
      | some evs => some (evs.take (min n ws.length))

/-- `INPUT_PROP_MAX`.  Models: /repo/include/linux/linux/input-event-codes.h. -/
def INPUT_PROP_MAX : Nat := 0x1f

/-- One element of an input property list.  Models: /repo/src/util-prop-parsers.c:437-451. -/
def inputProp (N : Names) (s : Str) : Option Nat :=
  match safeAtouBase 16 s with
  | some p => if p > INPUT_PROP_MAX then none else some p
  | none => N.prop s

/-- `parse_input_prop_property` with room for `n` entries.  Models: /repo/src/util-prop-parsers.c:417-460. -/
def parseInputProps (N : Names) (s : Str) (n : Nat) : Option (List Nat) :=
  match strvFromString s [';'] with
  | none => none
  | some ws =>
    if ws.length > INPUT_PROP_MAX + 1 then none
    else
      match ws.mapM (inputProp N) with
      | none => none
      | some ps => some (ps.take (min n ws.length))

/-- `parse_switch_reliability_property`.  Models: /repo/src/util-prop-parsers.c:207-224. -/
inductive Reliability where
  | unknown | reliable | writeOpen
deriving DecidableEq, Repr

def parseReliability : Option Str → Option Reliability
  | none => some .unknown
  | some s =>
    if s = "reliable".toList then some .reliable
    else if s = "write_open".toList then some .writeOpen
    else none

end Libinput.Parsers
