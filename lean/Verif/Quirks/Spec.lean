import Verif.Quirks.Model
import Verif.Parsers.Spec
/-
What data files of quirks look like and what they mean, independently of the parser and of the matching.
-/
namespace Libinput.Quirks.Spec
open Libinput.Strings Libinput.Strings.Spec Libinput.Parsers Libinput.Parsers.Spec

/-! ### Lines -/

/-- The lines of a file; the last one may lack its newline. -/
inductive LinesOf : Str → List Str → Prop
  | nil : LinesOf [] []
  | last (l : Str) (hl : l ≠ []) (h : '\n' ∉ l) : LinesOf l [l]
  | cons (l rest : Str) (ls : List Str) (h : '\n' ∉ l) (hr : LinesOf rest ls) : LinesOf (l ++ '\n' :: rest) (l :: ls)

/-- Space or tab. -/
def Blank (c : Char) : Prop := c = ' ' ∨ c = '\t'

/-- A line without its comment, which starts at the first `#`, and the blanks before that. -/
inductive Stripped : Str → Str → Prop
  | plain (l : Str) (h : '#' ∉ l) : Stripped l l
  | comment (t gap c : Str) (ht : '#' ∉ t) (hg : ∀ x ∈ gap, Blank x) (hl : ∀ x, t.getLast? = some x → ¬ Blank x) :
      Stripped (t ++ gap ++ '#' :: c) t

/-- What is left of the lines, without the empty ones. -/
def Content (s : Str) (ts : List Str) : Prop :=
  ∃ ls all, LinesOf s ls ∧ Each Stripped ls all ∧ ts = all.filter (fun t => !t.isEmpty)

/-- A file of text whose lines fit the buffer: no NUL, at most 510 characters before a newline. -/
def Readable (s : Str) : Prop := '\x00' ∉ s ∧ ∀ ls, LinesOf s ls → ∀ l ∈ ls, l.length ≤ 510

/-- `[title]`. -/
def Title (t : Str) : Prop := ∃ name, t = '[' :: name ++ [']']

/-- `Key=value`: an upper case letter first, no blank last, no quote before the value.  More than one `=` may stand between them, and after the value. -/
def Assign (t key value : Str) : Prop :=
  ∃ eq1 eq2, t = key ++ eq1 ++ value ++ eq2 ∧ eq1 ≠ [] ∧ (∀ c ∈ eq1, c = '=') ∧ (∀ c ∈ eq2, c = '=') ∧
    value ≠ [] ∧ '=' ∉ key ∧ '=' ∉ value ∧ (∃ c, key.head? = some c ∧ 'A' ≤ c ∧ c ≤ 'Z') ∧
    (∀ c, t.getLast? = some c → ¬ Blank c) ∧ value.head? ≠ some '"' ∧ value.head? ≠ some '\''

/-! ### Matches -/

/-- A condition on the device. -/
inductive Cond where
  | name (pattern : Str)
  | bus (b : Bus)
  | vendor (v : Nat)
  | product (v : Nat)
  | version (v : Nat)
  | dmi (pattern : Str)
  | udevType (t : UdevType)
  | deviceTree (pattern : Str)

/-- Its key. -/
def Cond.key : Cond → String
  | .name _ => "MatchName"
  | .bus _ => "MatchBus"
  | .vendor _ => "MatchVendor"
  | .product _ => "MatchProduct"
  | .version _ => "MatchVersion"
  | .dmi _ => "MatchDMIModalias"
  | .udevType _ => "MatchUdevType"
  | .deviceTree _ => "MatchDeviceTree"

/-- The names of the buses. -/
def buses : List (String × Bus) := [("usb", .usb), ("bluetooth", .bluetooth), ("ps2", .ps2), ("rmi", .rmi), ("i2c", .i2c), ("spi", .spi)]

/-- The names of the device types. -/
def types : List (String × UdevType) :=
  [("mouse", .mouse), ("pointingstick", .pointingstick), ("touchpad", .touchpad), ("tablet", .tablet), ("tablet-pad", .tabletPad),
   ("joystick", .joystick), ("keyboard", .keyboard)]

/-- `0x` and upper case hexadecimal digits.  The number is below 2^63 and is taken modulo 2^32; what remains fits 16 bits. -/
def HexId (s : Str) (v : Nat) : Prop :=
  ∃ (digits : Str) (ds : List Nat), s = '0' :: 'x' :: digits ∧ digits ≠ [] ∧
    (∀ c ∈ digits, '0' ≤ c ∧ c ≤ '9' ∨ 'A' ≤ c ∧ c ≤ 'F') ∧ digits.map (digitVal 16) = ds.map some ∧
    value 16 ds < 9223372036854775808 ∧ v = value 16 ds % 4294967296 ∧ v ≤ 0xFFFF

/-- What the value says. -/
def Cond.text (value : Str) : Cond → Prop
  | .name p => p = value
  | .bus b => ∃ n, (n, b) ∈ buses ∧ value = n.toList
  | .vendor v => HexId value v
  | .product v => HexId value v
  | .version v => HexId value v
  | .dmi p => p = value ∧ ∃ r, value = 'd' :: 'm' :: 'i' :: ':' :: r
  | .udevType t => ∃ n, (n, t) ∈ types ∧ value = n.toList
  | .deviceTree p => p = value

/-- A line that states a condition. -/
def CondLine (t : Str) (c : Cond) : Prop := ∃ value, Assign t c.key.toList value ∧ c.text value

/-! ### Values -/

/-- The kinds of values. -/
inductive Kind where
  | flag | count | dimension | range | number | word (l : List String) | codes | props
deriving DecidableEq

/-- All keys, with the quirk and the kind of value. -/
def keys : List (String × Quirk × Kind) :=
  [("ModelALPSSerialTouchpad", .modelAlpsSerialTouchpad, .flag),
   ("ModelAppleTouchpad", .modelAppleTouchpad, .flag),
   ("ModelAppleTouchpadOneButton", .modelAppleTouchpadOnebutton, .flag),
   ("ModelBouncingKeys", .modelBouncingKeys, .flag),
   ("ModelChromebook", .modelChromebook, .flag),
   ("ModelClevoW740SU", .modelClevoW740su, .flag),
   ("ModelHPPavilionDM4Touchpad", .modelHpPavilionDm4Touchpad, .flag),
   ("ModelHPStream11Touchpad", .modelHpStream11Touchpad, .flag),
   ("ModelHPZBookStudioG3", .modelHpZbookStudioG3, .flag),
   ("ModelInvertHorizontalScrolling", .modelInvertHorizontalScrolling, .flag),
   ("ModelLenovoScrollPoint", .modelLenovoScrollpoint, .flag),
   ("ModelLenovoT450Touchpad", .modelLenovoT450Touchpad, .flag),
   ("ModelLenovoX1Gen6Touchpad", .modelLenovoX1gen6Touchpad, .flag),
   ("ModelLenovoX230", .modelLenovoX230, .flag),
   ("ModelSynapticsSerialTouchpad", .modelSynapticsSerialTouchpad, .flag),
   ("ModelSystem76Bonobo", .modelSystem76Bonobo, .flag),
   ("ModelSystem76Galago", .modelSystem76Galago, .flag),
   ("ModelSystem76Kudu", .modelSystem76Kudu, .flag),
   ("ModelTabletModeNoSuspend", .modelTabletModeNoSuspend, .flag),
   ("ModelTabletModeSwitchUnreliable", .modelTabletModeSwitchUnreliable, .flag),
   ("ModelTouchpadVisibleMarker", .modelTouchpadVisibleMarker, .flag),
   ("ModelTrackball", .modelTrackball, .flag),
   ("ModelWacomTouchpad", .modelWacomTouchpad, .flag),
   ("ModelDellCanvasTotem", .modelDellCanvasTotem, .flag),
   ("AttrSizeHint", .attrSizeHint, .dimension),
   ("AttrTouchSizeRange", .attrTouchSizeRange, .range),
   ("AttrPalmSizeThreshold", .attrPalmSizeThreshold, .count),
   ("AttrLidSwitchReliability", .attrLidSwitchReliability, .word ["reliable", "write_open"]),
   ("AttrKeyboardIntegration", .attrKeyboardIntegration, .word ["internal", "external"]),
   ("AttrPointingStickIntegration", .attrTrackpointIntegration, .word ["internal", "external"]),
   ("AttrTPKComboLayout", .attrTpkbcomboLayout, .word ["below"]),
   ("AttrPressureRange", .attrPressureRange, .range),
   ("AttrPalmPressureThreshold", .attrPalmPressureThreshold, .count),
   ("AttrResolutionHint", .attrResolutionHint, .dimension),
   ("AttrTrackpointMultiplier", .attrTrackpointMultiplier, .number),
   ("AttrThumbPressureThreshold", .attrThumbPressureThreshold, .count),
   ("AttrUseVelocityAveraging", .attrUseVelocityAveraging, .flag),
   ("AttrThumbSizeThreshold", .attrThumbSizeThreshold, .count),
   ("AttrMscTimestamp", .attrMscTimestamp, .word ["watch"]),
   ("AttrEventCodeDisable", .attrEventCodeDisable, .codes),
   ("AttrEventCodeEnable", .attrEventCodeEnable, .codes),
   ("AttrInputPropDisable", .attrInputPropDisable, .props),
   ("AttrInputPropEnable", .attrInputPropEnable, .props)]

/-- An unsigned decimal number as the parser takes it (C21). -/
def Count (w : Str) (v : Nat) : Prop :=
  ∃ neg m, Numeral 10 w neg m ∧ m < 18446744073709551616 ∧
    signed neg m % 18446744073709551616 < 9223372036854775808 ∧ (v : Int) = signed neg m % 4294967296

/-- At most 32 words between semicolons, at least one. -/
def Words (s : Str) (ws : List Str) : Prop := ws ≠ [] ∧ Splits (fun c => c == ';') s ws ∧ ws.length ≤ 32

/-- The text of a value.  The first number of a range is the upper limit. -/
def ValueText {F : Type} (E : Env F) (s : Str) : Kind → Value F → Prop
  | .flag, .bool b => s = "1".toList ∧ b = true ∨ s = "0".toList ∧ b = false
  | .count, .uint v => Count s v
  | .dimension, .dimension x y => 0 < x ∧ 0 < y ∧ ∃ u v, Pair 'x' s u v ∧ x = E.conv.conv u ∧ y = E.conv.conv v
  | .range, .range lower upper => s = "none".toList ∧ upper = 0 ∧ lower = 0 ∨
      lower < upper ∧ ∃ u v, Pair ':' s u v ∧ upper = E.conv.conv u ∧ lower = E.conv.conv v
  | .number, .double x => ∃ d, DecimalNumeral s d ∧ E.round d = some x
  | .word l, .string w => w = s ∧ ∃ x ∈ l, s = x.toList
  | .codes, .tuples l => ∃ ws, Words s ws ∧ Each (Evcode E.names E.conv) ws l
  | .props, .uintArray l => ∃ ws, Words s ws ∧ Each (InputProp E.names) ws l
  | _, _ => False

/-- A line that states a value. -/
def ValueLine {F : Type} (E : Env F) (t : Str) (p : Property F) : Prop :=
  ∃ key value kind, (key, p.id, kind) ∈ keys ∧ Assign t key.toList value ∧ ValueText E value kind p.value

/-! ### Sections -/

/-- A section: conditions and values. -/
structure Sect (F : Type) where
  conds : List Cond
  props : List (Property F)

/-- A title, one or more conditions with different keys, one or more values. -/
def IsSection {F : Type} (E : Env F) (ts : List Str) (s : Sect F) : Prop :=
  ∃ title ms vs, ts = title :: ms ++ vs ∧ Title title ∧ ms ≠ [] ∧ vs ≠ [] ∧
    Each CondLine ms s.conds ∧ (s.conds.map Cond.key).Nodup ∧ Each (ValueLine E) vs s.props

/-- A file of one or more sections. -/
def IsFile {F : Type} (E : Env F) (s : Str) (ss : List (Sect F)) : Prop :=
  ss ≠ [] ∧ ∃ ts parts, Content s ts ∧ ts = parts.flatten ∧ Each (IsSection E) parts ss

/-! ### Devices -/

/-- A property of the device, or of the nearest parent that has it. -/
def Nearest (dev : Udev) (prop : String) (v : Str) : Prop :=
  ∃ before d after, dev = before ++ d :: after ∧ (∀ x ∈ before, x prop.toList = none) ∧ d prop.toList = some v

/-- Without a quote at the beginning; and without a quote at the end, unless nothing would be left. -/
def Unquoted (s n : Str) : Prop :=
  ∃ body, (s = '"' :: body ∨ s = body ∧ body.head? ≠ some '"') ∧
    (n ≠ [] ∧ body = n ++ ['"'] ∨ body = n ∧ ¬ ∃ r, r ≠ [] ∧ body = r ++ ['"'])

/-- The longest hexadecimal number at the beginning of `s`, and the rest. -/
def Longest (s : Str) (v : Int) (rest : Str) : Prop :=
  ∃ a neg m, s = a ++ rest ∧ Numeral 16 a neg m ∧ v = signed neg m ∧
    ∀ p q, rest = p ++ q → p ≠ [] → ¬ ∃ neg' m', Numeral 16 (a ++ p) neg' m'

/-- `PRODUCT`: bus, vendor, product and version. -/
def Ids {F : Type} (E : Env F) (s : Str) (bus vendor product version : Nat) : Prop :=
  ∃ a b c d r1 r2 r3 r4, Longest s a ('/' :: r1) ∧ Longest r1 b ('/' :: r2) ∧ Longest r2 c ('/' :: r3) ∧ Longest r3 d r4 ∧
    bus = E.hex a ∧ vendor = E.hex b ∧ product = E.hex c ∧ version = E.hex d

/-- The numbers of the buses. -/
def busIds : List (Nat × Bus) := [(0x03, .usb), (0x05, .bluetooth), (0x11, .ps2), (0x1d, .rmi), (0x18, .i2c), (0x1c, .spi)]

/-- The properties of the device types. -/
def typeProps : List (UdevType × String) :=
  [(.mouse, "ID_INPUT_MOUSE"), (.pointingstick, "ID_INPUT_POINTINGSTICK"), (.touchpad, "ID_INPUT_TOUCHPAD"), (.tablet, "ID_INPUT_TABLET"),
   (.tabletPad, "ID_INPUT_TABLET_PAD"), (.joystick, "ID_INPUT_JOYSTICK"), (.keyboard, "ID_INPUT_KEYBOARD"), (.keyboard, "ID_INPUT_KEY")]

/-- The condition holds for the device, in a machine with these identities. -/
def Cond.Holds {F : Type} (E : Env F) (dmi dt : Option Str) (dev : Udev) : Cond → Prop
  | .name p => ∃ s n, Nearest dev "NAME" s ∧ Unquoted s n ∧ E.glob p n = true
  | .bus b => ∃ s n v p r, Nearest dev "PRODUCT" s ∧ Ids E s n v p r ∧ (n, b) ∈ busIds
  | .vendor v => ∃ s b p r, Nearest dev "PRODUCT" s ∧ Ids E s b v p r
  | .product p => ∃ s b v r, Nearest dev "PRODUCT" s ∧ Ids E s b v p r
  | .version r => ∃ s b v p, Nearest dev "PRODUCT" s ∧ Ids E s b v p r
  | .dmi p => ∃ s, dmi = some s ∧ E.glob p s = true
  | .udevType t => ∃ prop v, (t, prop) ∈ typeProps ∧ Nearest dev prop v
  | .deviceTree p => ∃ s, dt = some s ∧ E.glob p s = true

/-- All conditions hold. -/
def Sect.Applies {F : Type} (E : Env F) (dmi dt : Option Str) (dev : Udev) (s : Sect F) : Prop := ∀ c ∈ s.conds, c.Holds E dmi dt dev

/-- `v` is the last value for `q` in the sections that apply. -/
def LastValue {F : Type} (E : Env F) (dmi dt : Option Str) (dev : Udev) (ss : List (Sect F)) (q : Quirk) (v : Value F) : Prop :=
  ∃ before s after earlier later, ss = before ++ s :: after ∧ s.Applies E dmi dt dev ∧ s.props = earlier ++ ⟨q, v⟩ :: later ∧
    (∀ p ∈ later, p.id ≠ q) ∧ ∀ s' ∈ after, s'.Applies E dmi dt dev → ∀ p ∈ s'.props, p.id ≠ q

/-- A file that is not there has no sections. -/
def IsPart {F : Type} (E : Env F) : File → List (Sect F) → Prop
  | .missing, ss => ss = []
  | .unreadable, _ => False
  | .content s, ss => IsFile E s ss

/-- The text of the file, if any, is readable. -/
def FileReadable : File → Prop
  | .content s => Readable s
  | _ => True

/-- A directory: different names, made of bytes other than NUL, and the data files are readable. -/
structure Directory (dir : List (Str × File)) : Prop where
  distinct : (dir.map Prod.fst).Nodup
  bytes : ∀ f ∈ dir, ∀ c ∈ f.1, 0 < c.toNat ∧ c.toNat < 256
  readable : ∀ f ∈ dir, FileReadable f.2

/-- The type of the values of each kind. -/
def Kind.type : Kind → PropType
  | .flag => .bool
  | .count => .uint
  | .dimension => .dimension
  | .range => .range
  | .number => .double
  | .word _ => .string
  | .codes => .tuples
  | .props => .uintArray

/-- The data: at least one data file, whose names are in the order of versions (C25), and then the override file. -/
def IsData {F : Type} (E : Env F) (dir : List (Str × File)) (override : Option File) (ss : List (Sect F)) : Prop :=
  ∃ files parts last, files.Perm (dir.filter fun f => ".quirks".toList.isSuffixOf f.1) ∧
    files.Pairwise (fun a b => Versionsort.strverscmp (a.1.map Char.toNat) (b.1.map Char.toNat) ≤ 0) ∧
    files ≠ [] ∧ Each (fun f ss => IsPart E f.2 ss) files parts ∧
    (match override with | none => last = [] | some f => IsPart E f last) ∧ ss = parts.flatten ++ last

end Libinput.Quirks.Spec
