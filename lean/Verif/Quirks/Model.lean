import Verif.Parsers.Model
import Verif.Util.Versionsort
/-
Model of the device quirks, quirks.c: parsing the data files, matching devices, and looking values up.

Simplified: allocations succeed; messages are left out, and with them the path in the name of a section; `fnmatch`, the tables of libevdev, `%d`, `%x` and the
rounding of decimals are parameters.  A bit of `match.bits` and the field that belongs to it are one `Option`.
The reference counts are in `Verif.Quirks.Life`.
-/
namespace Libinput.Quirks
open Libinput.Strings Libinput.Parsers

/-- What comes from libraries.  `F`: doubles.  `glob pattern string`: `fnmatch` returns 0.  `hex`: what `%x` stores for a number. -/
structure Env (F : Type) where
  names : Names
  conv : Conv
  round : Decimal → Option F
  glob : Str → Str → Bool
  hex : Int → Nat
  hex_exact : ∀ v : Nat, v < 4294967296 → hex v = v

/-- The result of a function that may return `false`, or crash: a failed assertion, `abort` or a null pointer. -/
inductive Res (α : Type) where
  | ok (a : α)
  | fail
  | crash
deriving DecidableEq, Repr

/-- Goes on after success. -/
def Res.bind {α β : Type} (r : Res α) (f : α → Res β) : Res β :=
  match r with
  | .ok a => f a
  | .fail => .fail
  | .crash => .crash

/-- `false` if nothing was parsed. -/
def Res.ofOption {α : Type} : Option α → Res α
  | some a => .ok a
  | none => .fail

/-- `enum quirk`.  Models: /repo/src/quirks.h:64-114. -/
inductive Quirk where
  | modelAlpsSerialTouchpad
  | modelAppleTouchpad
  | modelAppleTouchpadOnebutton
  | modelBouncingKeys
  | modelChromebook
  | modelClevoW740su
  | modelHpPavilionDm4Touchpad
  | modelHpStream11Touchpad
  | modelHpZbookStudioG3
  | modelInvertHorizontalScrolling
  | modelLenovoScrollpoint
  | modelLenovoT450Touchpad
  | modelLenovoX1gen6Touchpad
  | modelLenovoX230
  | modelSynapticsSerialTouchpad
  | modelSystem76Bonobo
  | modelSystem76Galago
  | modelSystem76Kudu
  | modelTabletModeNoSuspend
  | modelTabletModeSwitchUnreliable
  | modelTouchpadVisibleMarker
  | modelTrackball
  | modelWacomTouchpad
  | modelDellCanvasTotem
  | attrSizeHint
  | attrTouchSizeRange
  | attrPalmSizeThreshold
  | attrLidSwitchReliability
  | attrKeyboardIntegration
  | attrTrackpointIntegration
  | attrTpkbcomboLayout
  | attrPressureRange
  | attrPalmPressureThreshold
  | attrResolutionHint
  | attrTrackpointMultiplier
  | attrThumbPressureThreshold
  | attrUseVelocityAveraging
  | attrThumbSizeThreshold
  | attrMscTimestamp
  | attrEventCodeDisable
  | attrEventCodeEnable
  | attrInputPropDisable
  | attrInputPropEnable
deriving DecidableEq, Repr

/-- The name of a quirk.  Models: /repo/src/quirks.c:241-292. -/
def Quirk.name : Quirk → Str
  | .modelAlpsSerialTouchpad => "ModelALPSSerialTouchpad".toList
  | .modelAppleTouchpad => "ModelAppleTouchpad".toList
  | .modelAppleTouchpadOnebutton => "ModelAppleTouchpadOneButton".toList
  | .modelBouncingKeys => "ModelBouncingKeys".toList
  | .modelChromebook => "ModelChromebook".toList
  | .modelClevoW740su => "ModelClevoW740SU".toList
  | .modelHpPavilionDm4Touchpad => "ModelHPPavilionDM4Touchpad".toList
  | .modelHpStream11Touchpad => "ModelHPStream11Touchpad".toList
  | .modelHpZbookStudioG3 => "ModelHPZBookStudioG3".toList
  | .modelInvertHorizontalScrolling => "ModelInvertHorizontalScrolling".toList
  | .modelLenovoScrollpoint => "ModelLenovoScrollPoint".toList
  | .modelLenovoT450Touchpad => "ModelLenovoT450Touchpad".toList
  | .modelLenovoX1gen6Touchpad => "ModelLenovoX1Gen6Touchpad".toList
  | .modelLenovoX230 => "ModelLenovoX230".toList
  | .modelSynapticsSerialTouchpad => "ModelSynapticsSerialTouchpad".toList
  | .modelSystem76Bonobo => "ModelSystem76Bonobo".toList
  | .modelSystem76Galago => "ModelSystem76Galago".toList
  | .modelSystem76Kudu => "ModelSystem76Kudu".toList
  | .modelTabletModeNoSuspend => "ModelTabletModeNoSuspend".toList
  | .modelTabletModeSwitchUnreliable => "ModelTabletModeSwitchUnreliable".toList
  | .modelTouchpadVisibleMarker => "ModelTouchpadVisibleMarker".toList
  | .modelTrackball => "ModelTrackball".toList
  | .modelWacomTouchpad => "ModelWacomTouchpad".toList
  | .modelDellCanvasTotem => "ModelDellCanvasTotem".toList
  | .attrSizeHint => "AttrSizeHint".toList
  | .attrTouchSizeRange => "AttrTouchSizeRange".toList
  | .attrPalmSizeThreshold => "AttrPalmSizeThreshold".toList
  | .attrLidSwitchReliability => "AttrLidSwitchReliability".toList
  | .attrKeyboardIntegration => "AttrKeyboardIntegration".toList
  | .attrTrackpointIntegration => "AttrPointingStickIntegration".toList
  | .attrTpkbcomboLayout => "AttrTPKComboLayout".toList
  | .attrPressureRange => "AttrPressureRange".toList
  | .attrPalmPressureThreshold => "AttrPalmPressureThreshold".toList
  | .attrResolutionHint => "AttrResolutionHint".toList
  | .attrTrackpointMultiplier => "AttrTrackpointMultiplier".toList
  | .attrThumbPressureThreshold => "AttrThumbPressureThreshold".toList
  | .attrUseVelocityAveraging => "AttrUseVelocityAveraging".toList
  | .attrThumbSizeThreshold => "AttrThumbSizeThreshold".toList
  | .attrMscTimestamp => "AttrMscTimestamp".toList
  | .attrEventCodeDisable => "AttrEventCodeDisable".toList
  | .attrEventCodeEnable => "AttrEventCodeEnable".toList
  | .attrInputPropDisable => "AttrInputPropDisable".toList
  | .attrInputPropEnable => "AttrInputPropEnable".toList

/-- The quirks before `_QUIRK_LAST_MODEL_QUIRK_`, in order.  Models: /repo/src/quirks.h:64-114. -/
def models : List Quirk :=
  [.modelAlpsSerialTouchpad, .modelAppleTouchpad, .modelAppleTouchpadOnebutton, .modelBouncingKeys, .modelChromebook, .modelClevoW740su, .modelHpPavilionDm4Touchpad, .modelHpStream11Touchpad, .modelHpZbookStudioG3, .modelInvertHorizontalScrolling, .modelLenovoScrollpoint, .modelLenovoT450Touchpad, .modelLenovoX1gen6Touchpad, .modelLenovoX230, .modelSynapticsSerialTouchpad, .modelSystem76Bonobo, .modelSystem76Galago, .modelSystem76Kudu, .modelTabletModeNoSuspend, .modelTabletModeSwitchUnreliable, .modelTouchpadVisibleMarker, .modelTrackball, .modelWacomTouchpad, .modelDellCanvasTotem]

/-- `enum property_type`; `PT_INT` is never set.  Models: /repo/src/quirks.c:54-64. -/
inductive PropType where
  | uint | int | string | bool | dimension | range | double | tuples | uintArray
deriving DecidableEq, Repr

/-- The value of a property.  Models: /repo/src/quirks.c:78-95 and /repo/src/quirks.h:45-57. -/
inductive Value (F : Type) where
  | uint (v : Nat)
  | string (s : Str)
  | bool (b : Bool)
  | dimension (x y : Int)
  | range (lower upper : Int)
  | double (d : F)
  | tuples (l : List (Nat × Nat))
  | uintArray (l : List Nat)
deriving DecidableEq

/-- `property.type`. -/
def Value.type {F : Type} : Value F → PropType
  | .uint _ => .uint
  | .string _ => .string
  | .bool _ => .bool
  | .dimension _ _ => .dimension
  | .range _ _ => .range
  | .double _ => .double
  | .tuples _ => .tuples
  | .uintArray _ => .uintArray

/-- `struct property`.  Models: /repo/src/quirks.c:78-95. -/
structure Property (F : Type) where
  id : Quirk
  value : Value F
deriving DecidableEq

/-- `enum match_flags`, in order.  Models: /repo/src/quirks.c:97-108. -/
inductive Flag where
  | name | bus | vid | pid | dmi | udevType | dt | version
deriving DecidableEq, Repr

/-- The loop `for (flag = 0x1; flag <= M_LAST; flag <<= 1)`. -/
def flags : List Flag := [.name, .bus, .vid, .pid, .dmi, .udevType, .dt, .version]

/-- `enum bustype`.  Models: /repo/src/quirks.c:110-118. -/
inductive Bus where
  | usb | bluetooth | ps2 | rmi | i2c | spi
deriving DecidableEq, Repr

/-- `enum udev_type`.  Models: /repo/src/quirks.c:120-128. -/
inductive UdevType where
  | mouse | pointingstick | touchpad | tablet | tabletPad | joystick | keyboard
deriving DecidableEq, Repr

/-- `struct match`.  Models: /repo/src/quirks.c:136-151. -/
structure Match where
  name : Option Str := none
  bus : Option Bus := none
  vendor : Option Nat := none
  product : Option Nat := none
  version : Option Nat := none
  dmi : Option Str := none
  udevType : Option (List UdevType) := none
  dt : Option Str := none
deriving DecidableEq

/-- `bits & flag`. -/
def Match.has (m : Match) : Flag → Bool
  | .name => m.name.isSome
  | .bus => m.bus.isSome
  | .vid => m.vendor.isSome
  | .pid => m.product.isSome
  | .dmi => m.dmi.isSome
  | .udevType => m.udevType.isSome
  | .dt => m.dt.isSome
  | .version => m.version.isSome

/-- `struct section`.  Models: /repo/src/quirks.c:156-165. -/
structure Section (F : Type) where
  hasMatch : Bool
  hasProperty : Bool
  name : Str
  mtch : Match
  properties : List (Property F)
deriving DecidableEq

/-- Models: /repo/src/quirks.c:490-502. -/
def Section.new {F : Type} (name : Str) : Section F := ⟨false, false, name, {}, []⟩

/-! ### Parsing -/

/-- Models: /repo/src/quirks.c:523-530. -/
def parseHex (value : Str) : Option Nat :=
  if value.take 2 = "0x".toList then
    match safeAtouBase 16 value with
    | some v => if value.all (sepOf "0123456789xABCDEF".toList) ∧ v ≤ 0xFFFF then some v else none
    | none => none
  else none

/-- Models: /repo/src/quirks.c:560-574. -/
def busOf (value : Str) : Option Bus :=
  if value = "usb".toList then some .usb
  else if value = "bluetooth".toList then some .bluetooth
  else if value = "ps2".toList then some .ps2
  else if value = "rmi".toList then some .rmi
  else if value = "i2c".toList then some .i2c
  else if value = "spi".toList then some .spi
  else none

/-- Models: /repo/src/quirks.c:609-625. -/
def udevTypeOf (value : Str) : Option UdevType :=
  if value = "touchpad".toList then some .touchpad
  else if value = "mouse".toList then some .mouse
  else if value = "pointingstick".toList then some .pointingstick
  else if value = "keyboard".toList then some .keyboard
  else if value = "joystick".toList then some .joystick
  else if value = "tablet".toList then some .tablet
  else if value = "tablet-pad".toList then some .tabletPad
  else none

/-- The part of `parse_match` after its assertion, without `has_match`.  Models: /repo/src/quirks.c:541-639. -/
def parseMatchKey (m : Match) (key value : Str) : Option Match :=
  if key = "MatchName".toList then
    if m.name.isSome then none else some { m with name := some value }
  else if key = "MatchBus".toList then
    if m.bus.isSome then none else (busOf value).map fun b => { m with bus := some b }
  else if key = "MatchVendor".toList then
    if m.vendor.isSome then none else (parseHex value).map fun v => { m with vendor := some v }
  else if key = "MatchProduct".toList then
    if m.product.isSome then none else (parseHex value).map fun v => { m with product := some v }
  else if key = "MatchVersion".toList then
    if m.version.isSome then none else (parseHex value).map fun v => { m with version := some v }
  else if key = "MatchDMIModalias".toList then
    if m.dmi.isSome then none else if value.take 4 ≠ "dmi:".toList then none else some { m with dmi := some value }
  else if key = "MatchUdevType".toList then
    if m.udevType.isSome then none else (udevTypeOf value).map fun t => { m with udevType := some [t] }
  else if key = "MatchDeviceTree".toList then
    if m.dt.isSome then none else some { m with dt := some value }
  else none

/-- Models: /repo/src/quirks.c:541-639. -/
def parseMatch {F : Type} (s : Section F) (key value : Str) : Res (Section F) :=
  if value.length < 1 then .crash
  else
    match parseMatchKey s.mtch key value with
    | some m => .ok { s with mtch := m, hasMatch := true }
    | none => .fail

/-- `1` or `0`. -/
def parseFlag (value : Str) : Option Bool :=
  if value = "1".toList then some true else if value = "0".toList then some false else none

/-- Models: /repo/src/quirks.c:650-683. -/
def parseModel {F : Type} (s : Section F) (key value : Str) : Res (Section F) :=
  if key.take 5 ≠ "Model".toList then .crash
  else
    match parseFlag value with
    | none => .fail
    | some b =>
      match models.find? (fun q => key = q.name) with
      | some q => .ok { s with properties := s.properties ++ [⟨q, .bool b⟩], hasProperty := true }
      | none => .fail

/-- A word out of a list. -/
def parseWord (allowed : List String) (value : Str) : Option Str :=
  if allowed.any (fun w => value = w.toList) then some value else none

/-- The property of an `Attr` line.  Models: /repo/src/quirks.c:696-870. -/
def parseAttrKey {F : Type} (E : Env F) (key value : Str) : Option (Property F) :=
  if key = Quirk.attrSizeHint.name then
    (parseDimension E.conv (some value)).map fun d => ⟨.attrSizeHint, .dimension d.1 d.2⟩
  else if key = Quirk.attrTouchSizeRange.name then
    (parseRange E.conv (some value)).map fun r => ⟨.attrTouchSizeRange, .range r.2 r.1⟩
  else if key = Quirk.attrPalmSizeThreshold.name then
    (safeAtou value).map fun v => ⟨.attrPalmSizeThreshold, .uint v⟩
  else if key = Quirk.attrLidSwitchReliability.name then
    (parseWord ["reliable", "write_open"] value).map fun w => ⟨.attrLidSwitchReliability, .string w⟩
  else if key = Quirk.attrKeyboardIntegration.name then
    (parseWord ["internal", "external"] value).map fun w => ⟨.attrKeyboardIntegration, .string w⟩
  else if key = Quirk.attrTrackpointIntegration.name then
    (parseWord ["internal", "external"] value).map fun w => ⟨.attrTrackpointIntegration, .string w⟩
  else if key = Quirk.attrTpkbcomboLayout.name then
    (parseWord ["below"] value).map fun w => ⟨.attrTpkbcomboLayout, .string w⟩
  else if key = Quirk.attrPressureRange.name then
    (parseRange E.conv (some value)).map fun r => ⟨.attrPressureRange, .range r.2 r.1⟩
  else if key = Quirk.attrPalmPressureThreshold.name then
    (safeAtou value).map fun v => ⟨.attrPalmPressureThreshold, .uint v⟩
  else if key = Quirk.attrResolutionHint.name then
    (parseDimension E.conv (some value)).map fun d => ⟨.attrResolutionHint, .dimension d.1 d.2⟩
  else if key = Quirk.attrTrackpointMultiplier.name then
    (safeAtod E.round value).map fun d => ⟨.attrTrackpointMultiplier, .double d⟩
  else if key = Quirk.attrUseVelocityAveraging.name then
    (parseFlag value).map fun b => ⟨.attrUseVelocityAveraging, .bool b⟩
  else if key = Quirk.attrThumbPressureThreshold.name then
    (safeAtou value).map fun v => ⟨.attrThumbPressureThreshold, .uint v⟩
  else if key = Quirk.attrThumbSizeThreshold.name then
    (safeAtou value).map fun v => ⟨.attrThumbSizeThreshold, .uint v⟩
  else if key = Quirk.attrMscTimestamp.name then
    (parseWord ["watch"] value).map fun w => ⟨.attrMscTimestamp, .string w⟩
  else if key = Quirk.attrEventCodeDisable.name ∨ key = Quirk.attrEventCodeEnable.name then
    match parseEvcodes E.names E.conv value 32 with
    | some l => if l.length = 0 then none else some ⟨if key = Quirk.attrEventCodeDisable.name then .attrEventCodeDisable else .attrEventCodeEnable, .tuples l⟩
    | none => none
  else if key = Quirk.attrInputPropDisable.name ∨ key = Quirk.attrInputPropEnable.name then
    match parseInputProps E.names value 32 with
    | some l => if l.length = 0 then none else some ⟨if key = Quirk.attrInputPropDisable.name then .attrInputPropDisable else .attrInputPropEnable, .uintArray l⟩
    | none => none
  else none

/-- Models: /repo/src/quirks.c:696-870. -/
def parseAttr {F : Type} (E : Env F) (s : Section F) (key value : Str) : Res (Section F) :=
  match parseAttrKey E key value with
  | some p => .ok { s with properties := s.properties ++ [p], hasProperty := true }
  | none => .fail

/-- Models: /repo/src/quirks.c:879-912. -/
def parseValueLine {F : Type} (E : Env F) (s : Section F) (line : Str) : Res (Section F) :=
  match strvFromString line "=".toList with
  | none => .crash
  | some [key, value] =>
    if key.length = 0 ∨ value.length = 0 then .fail
    else if value.head? = some '"' ∨ value.head? = some '\'' then .fail
    else if key.take 5 = "Match".toList then parseMatch s key value
    else if key.take 5 = "Model".toList then parseModel s key value
    else if key.take 4 = "Attr".toList then parseAttr E s key value
    else .fail
  | some _ => .fail

/-- At most `n` characters, up to a newline; and the rest. -/
def readLine : Nat → Str → Str × Str
  | 0, s => ([], s)
  | _ + 1, [] => ([], [])
  | n + 1, c :: s => if c = '\n' then ([c], s) else (c :: (readLine n s).1, (readLine n s).2)

theorem readLine_rest (n : Nat) (c : Char) (s : Str) : (readLine (n + 1) (c :: s)).2.length < (c :: s).length := by
  induction n generalizing c s with
  | zero =>
    unfold readLine
    split <;> simp [readLine]
  | succ n ih =>
    unfold readLine
    split
    · simp
    · cases s with
      | nil => simp [readLine]
      | cons d t =>
        have := ih d t
        simp only [List.length_cons] at *
        omega

/-- The strings `fgets(line, 512, fp)` gives for a file, one after another; a C string ends at a NUL.
Models: /repo/src/quirks.c:949. -/
def chunks : Str → List Str
  | [] => []
  | c :: s => (readLine 511 (c :: s)).1.takeWhile (· ≠ '\x00') :: chunks (readLine 511 (c :: s)).2
termination_by s => s.length
decreasing_by exact readLine_rest 510 c s

/-- A blank: space or tab. -/
def isBlank (c : Char) : Bool := c = ' ' || c = '\t'

/-- A line without its comment and the blanks before it, or without its newline.
Models: /repo/src/quirks.c:954-970. -/
def clean (line : Str) : Str :=
  if line.contains '#' then ((line.takeWhile (· ≠ '#')).reverse.dropWhile isBlank).reverse
  else line.takeWhile (· ≠ '\n')

/-- `enum state`, without `STATE_ANY`, which is never entered.  Models: /repo/src/quirks.c:917-923. -/
inductive PState where
  | sect | mtch | matchOrValue | valueOrSection
deriving DecidableEq, Repr

/-- The variables of `parse_file`, and the sections it has appended; the last one is `section`. -/
structure Parser (F : Type) where
  st : PState
  done : List (Section F)
  cur : Option (Section F)

/-- `!section->has_match || !section->has_property`. -/
def isEmpty {F : Type} (s : Section F) : Bool := !s.hasMatch || !s.hasProperty

/-- One turn of the loop, after the comment is gone.  Models: /repo/src/quirks.c:970-1062. -/
def parseLine {F : Type} (E : Env F) (p : Parser F) (line : Str) : Res (Parser F) :=
  match line.head?, line.getLast? with
  | some first, some last =>
    if isBlank last then .fail
    else if isBlank first then .fail
    else if first = '[' then
      if last ≠ ']' then .fail
      else if p.st ≠ .sect ∧ p.st ≠ .valueOrSection then .fail
      else if p.cur.any isEmpty then .fail
      else .ok { st := .mtch, done := p.done ++ p.cur.toList, cur := some (Section.new line) }
    else if first < 'A' ∨ first > 'Z' then .fail
    else
      let isMatch : Bool := line.take 5 = "Match".toList
      let next : Option PState :=
        match p.st with
        | .sect => none
        | .mtch => if isMatch then some .matchOrValue else none
        | .matchOrValue => if isMatch then some .matchOrValue else some .valueOrSection
        | .valueOrSection => if isMatch then none else some .valueOrSection
      match next with
      | none => .fail
      | some st =>
        match p.cur with
        | none => .crash
        | some s => (parseValueLine E s line).bind fun s => .ok { p with st := st, cur := some s }
  | _, _ => .ok p

/-- The loop over the lines.  Models: /repo/src/quirks.c:949-1062. -/
def parseLines {F : Type} (E : Env F) : Parser F → List Str → Res (Parser F)
  | p, [] => .ok p
  | p, l :: ls => (parseLine E p (clean l)).bind fun p => parseLines E p ls

/-- What `fopen` finds. -/
inductive File where
  | missing
  | unreadable
  | content (s : Str)

/-- The sections a file adds.  Models: /repo/src/quirks.c:914-1081. -/
def parseFile {F : Type} (E : Env F) : File → Res (List (Section F))
  | .missing => .ok []
  | .unreadable => .fail
  | .content s =>
    (parseLines E ⟨.sect, [], none⟩ (chunks s)).bind fun p =>
      match p.cur with
      | none => .fail
      | some cur => if isEmpty cur then .fail else .ok (p.done ++ [cur])

/-- Models: /repo/src/quirks.c:1083-1086. -/
def isDataFile (name : Str) : Bool := strendswith name ".quirks".toList

/-- `scandir` with `is_data_file` and `versionsort`: the data files, each not after the next.  `qsort` may be any sorting algorithm.
Models: /repo/src/quirks.c:1088-1121. -/
structure Scandir (dir files : List (Str × File)) : Prop where
  perm : files.Perm (dir.filter fun f => isDataFile f.1)
  sorted : files.Pairwise fun a b => Versionsort.strverscmp (a.1.map Char.toNat) (b.1.map Char.toNat) ≤ 0

/-- The files one after another, up to the first that fails. -/
def parseEach {F : Type} (E : Env F) : List (Str × File) → Res (List (Section F))
  | [] => .ok []
  | f :: fs => (parseFile E f.2).bind fun a => (parseEach E fs).bind fun b => .ok (a ++ b)

/-- `files`: what `scandir` found.  Models: /repo/src/quirks.c:1088-1121. -/
def parseFiles {F : Type} (E : Env F) (files : List (Str × File)) : Res (List (Section F)) :=
  match files with
  | [] => .fail
  | fs => parseEach E fs

/-- `struct quirks_context`.  Models: /repo/src/quirks.c:183-197. -/
structure Context (F : Type) where
  dmi : Option Str
  dt : Option Str
  sections : List (Section F)
deriving DecidableEq

/-- Models: /repo/src/quirks.c:1123-1159. -/
def Context.init {F : Type} (E : Env F) (dmi dt : Option Str) (files : List (Str × File)) (override : Option File) : Res (Context F) :=
  if dmi.isNone ∧ dt.isNone then .fail
  else
    (parseFiles E files).bind fun a =>
      match override with
      | none => .ok ⟨dmi, dt, a⟩
      | some f => (parseFile E f).bind fun b => .ok ⟨dmi, dt, a ++ b⟩

/-! ### Matching -/

/-- A device of udev: its properties and those of its parents, nearest first. -/
abbrev Udev := List (Str → Option Str)

/-- Models: /repo/src/quirks.c:1237-1249. -/
def udevProp : Udev → Str → Option Str
  | [], _ => none
  | d :: parents, prop =>
    match d prop with
    | some v => some v
    | none => udevProp parents prop

/-- Models: /repo/src/quirks.c:1251-1272. -/
def fillName (m : Match) (dev : Udev) : Match :=
  match udevProp dev "NAME".toList with
  | none => m
  | some str =>
    let name := if str.head? = some '"' then str.tail else str
    let name := if name.length > 1 ∧ name.getLast? = some '"' then name.dropLast else name
    { m with name := some name }

/-- `%x` and what follows. -/
def scanHex {F : Type} (E : Env F) (s : Str) : Option (Nat × Str) :=
  match strto 16 s with
  | some (n, m, rest) => some (E.hex (signed n m), rest)
  | none => none

/-- `/%x` and what follows. -/
def scanSlashHex {F : Type} (E : Env F) : Str → Option (Nat × Str)
  | '/' :: s => scanHex E s
  | _ => none

/-- `sscanf(str, "%x/%x/%x/%x", ...) == 4`. -/
def scanProduct {F : Type} (E : Env F) (s : Str) : Option (Nat × Nat × Nat × Nat) :=
  match scanHex E s with
  | none => none
  | some (bus, s) =>
    match scanSlashHex E s with
    | none => none
    | some (vendor, s) =>
      match scanSlashHex E s with
      | none => none
      | some (product, s) =>
        match scanSlashHex E s with
        | none => none
        | some (version, _) => some (bus, vendor, product, version)

/-- Models: /repo/src/quirks.c:1294-1319. -/
def busNumber (bus : Nat) : Option Bus :=
  if bus = 0x03 then some .usb
  else if bus = 0x05 then some .bluetooth
  else if bus = 0x11 then some .ps2
  else if bus = 0x1D then some .rmi
  else if bus = 0x18 then some .i2c
  else if bus = 0x1C then some .spi
  else none

/-- Models: /repo/src/quirks.c:1274-1322. -/
def fillIds {F : Type} (E : Env F) (m : Match) (dev : Udev) : Match :=
  match udevProp dev "PRODUCT".toList with
  | none => m
  | some str =>
    match scanProduct E str with
    | none => m
    | some (bus, vendor, product, version) =>
      { m with product := some product, vendor := some vendor, version := some version, bus := busNumber bus }

/-- Models: /repo/src/quirks.c:1331-1340. -/
def mappings : List (String × UdevType) :=
  [("ID_INPUT_MOUSE", .mouse), ("ID_INPUT_POINTINGSTICK", .pointingstick), ("ID_INPUT_TOUCHPAD", .touchpad), ("ID_INPUT_TABLET", .tablet),
   ("ID_INPUT_TABLET_PAD", .tabletPad), ("ID_INPUT_JOYSTICK", .joystick), ("ID_INPUT_KEYBOARD", .keyboard), ("ID_INPUT_KEY", .keyboard)]

/-- Models: /repo/src/quirks.c:1324-1348. -/
def fillUdevType (m : Match) (dev : Udev) : Match :=
  { m with udevType := some ((mappings.filter fun x => (udevProp dev x.1.toList).isSome).map Prod.snd) }

/-- Models: /repo/src/quirks.c:1350-1362. -/
def fillDmiDt (m : Match) (dmi dt : Option Str) : Match :=
  let m := match dmi with
    | some s => { m with dmi := some s }
    | none => m
  match dt with
  | some s => { m with dt := some s }
  | none => m

/-- Models: /repo/src/quirks.c:1364-1375. -/
def Match.new {F : Type} (E : Env F) (dev : Udev) (dmi dt : Option Str) : Match :=
  fillUdevType (fillDmiDt (fillIds E (fillName {} dev) dev) dmi dt) dev

/-- The comparison of one flag both have.  Models: /repo/src/quirks.c:1437-1471. -/
def compareFlag {F : Type} (E : Env F) (s m : Match) : Flag → Bool
  | .name => match s.name, m.name with | some a, some b => E.glob a b | _, _ => false
  | .bus => match s.bus, m.bus with | some a, some b => b = a | _, _ => false
  | .vid => match s.vendor, m.vendor with | some a, some b => b = a | _, _ => false
  | .pid => match s.product, m.product with | some a, some b => b = a | _, _ => false
  | .version => match s.version, m.version with | some a, some b => b = a | _, _ => false
  | .dmi => match s.dmi, m.dmi with | some a, some b => E.glob a b | _, _ => false
  | .dt => match s.dt, m.dt with | some a, some b => E.glob a b | _, _ => false
  | .udevType => match s.udevType, m.udevType with | some a, some b => a.any fun t => b.contains t | _, _ => false

/-- `matched_flags`.  Models: /repo/src/quirks.c:1412-1488. -/
def matchedFlags {F : Type} (E : Env F) (s m : Match) : List Flag :=
  flags.filter fun f => if s.has f = false then false else if m.has f = false then false else compareFlag E s m f

/-- The section is applied.  Models: /repo/src/quirks.c:1412-1488. -/
def fullMatch {F : Type} (E : Env F) (s m : Match) : Bool := flags.filter s.has = matchedFlags E s m

/-- Models: /repo/src/quirks.c:1412-1488 and /repo/src/quirks.c:1385-1410. -/
def matchSection {F : Type} (E : Env F) (m : Match) (q : List (Property F)) (s : Section F) : List (Property F) :=
  if fullMatch E s.mtch m then q ++ s.properties else q

/-- Models: /repo/src/quirks.c:1490-1522. -/
def Context.fetch {F : Type} (E : Env F) (ctx : Option (Context F)) (dev : Udev) : Option (List (Property F)) :=
  match ctx with
  | none => none
  | some ctx =>
    let m := Match.new E dev ctx.dmi ctx.dt
    let q := ctx.sections.foldl (matchSection E m) []
    if q.length = 0 then none else some q

/-- Models: /repo/src/quirks.c:1525-1536. -/
def findProp {F : Type} (q : List (Property F)) (which : Quirk) : Option (Property F) :=
  q.reverse.find? fun p => p.id = which

/-- The getters: `crash` if the property has another type than the one asked for.
Models: /repo/src/quirks.c:1544-1560, /repo/src/quirks.c:1562-1578, /repo/src/quirks.c:1580-1596, /repo/src/quirks.c:1598-1614,
/repo/src/quirks.c:1616-1632, /repo/src/quirks.c:1634-1652, /repo/src/quirks.c:1654-1672, /repo/src/quirks.c:1674-1692 and
/repo/src/quirks.c:1694-1714. -/
def get {F : Type} (type : PropType) (q : Option (List (Property F))) (which : Quirk) : Res (Value F) :=
  match q with
  | none => .fail
  | some q =>
    match findProp q which with
    | none => .fail
    | some p => if p.value.type = type then .ok p.value else .crash

/-- Models: /repo/src/quirks.c:1538-1542. -/
def hasQuirk {F : Type} (q : Option (List (Property F))) (which : Quirk) : Res Bool :=
  match q with
  | none => .crash
  | some q => .ok (findProp q which).isSome

/-- Which getter libinput uses for which attribute; `evdev_device_has_model_quirk` and `evdev_read_model_flags` use `quirks_get_bool` for the models.
Models: the calls at /repo/src/evdev-mt-touchpad-thumb.c:424 and 433, /repo/src/evdev-mt-touchpad.c:3212 and 3294, 3330, 3521, 3577, /repo/src/evdev-tablet.c:1100, /repo/src/evdev.c:436 and 488, 920, 1324, 1353, 1428, 1490, 1516, 2074, 2079, 2105, 2126, 2140, /repo/src/evdev.h:398. -/
def callSites : List (Quirk × PropType) :=
  [(.attrThumbPressureThreshold, .uint), (.attrThumbSizeThreshold, .uint), (.attrTpkbcomboLayout, .string), (.attrPalmPressureThreshold, .uint),
   (.attrPalmSizeThreshold, .uint), (.attrPressureRange, .range), (.attrTouchSizeRange, .range), (.attrTrackpointIntegration, .string),
   (.attrKeyboardIntegration, .string), (.attrLidSwitchReliability, .string), (.attrTrackpointMultiplier, .double),
   (.attrUseVelocityAveraging, .bool), (.attrResolutionHint, .dimension), (.attrSizeHint, .dimension), (.attrMscTimestamp, .string),
   (.attrEventCodeEnable, .tuples), (.attrEventCodeDisable, .tuples), (.attrInputPropEnable, .uintArray), (.attrInputPropDisable, .uintArray)] ++
  models.map fun q => (q, .bool)

end Libinput.Quirks
