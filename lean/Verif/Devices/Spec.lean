import Verif.Devices.Model
/-
What a device is to become, told from its properties, its quirks and what the kernel says of it.
-/
namespace Libinput.Devices.Spec
open Libinput.Strings Libinput.Parsers Libinput.Parsers.Spec

/-- The udev properties behind each tag. -/
def names : Tag → List String
  | .input => ["ID_INPUT"]
  | .keyboard => ["ID_INPUT_KEYBOARD", "ID_INPUT_KEY"]
  | .mouse => ["ID_INPUT_MOUSE"]
  | .touchpad => ["ID_INPUT_TOUCHPAD"]
  | .touchscreen => ["ID_INPUT_TOUCHSCREEN"]
  | .tablet => ["ID_INPUT_TABLET"]
  | .joystick => ["ID_INPUT_JOYSTICK"]
  | .accelerometer => ["ID_INPUT_ACCELEROMETER"]
  | .tabletPad => ["ID_INPUT_TABLET_PAD"]
  | .pointingstick => ["ID_INPUT_POINTINGSTICK"]
  | .trackball => ["ID_INPUT_TRACKBALL"]
  | .switch => ["ID_INPUT_SWITCH"]

/-- The device or its parent carries one of the tag's properties, with the value 1. -/
def Tagged (i : In) (t : Tag) : Prop :=
  ∃ n ∈ names t, i.props n = some ['1'] ∨ ∃ p, i.parent = some p ∧ p n = some ['1']

/-- Only `ID_INPUT` and the tag. -/
def Only (i : In) (a : Tag) : Prop := ∀ t, Tagged i t ↔ t = .input ∨ t = a

/-- What there is to see of a device: its event types and codes, axes, properties and slots. -/
structure View where
  has : Nat → Nat → Bool
  abs : Nat → Abs
  prop : Nat → Bool
  slots : Int

/-- The kernel lists the code or a quirk adds it, and no quirk takes it away; a quirk with the code 0xffff
is for all of the type.  Times in events are taken away unless they are to be watched. -/
def Listed (q : Quirks) (k : Kern) (t c : Nat) : Prop :=
  (k.type t = true ∨ ∃ c', (t, c') ∈ q.enableCodes) ∧
  (k.bit t c = true ∧ ¬ (t = 4 ∧ c = 5 ∧ q.mscTimestamp ≠ some ['w', 'a', 't', 'c', 'h']) ∨ c ≠ 0xffff ∧ (t, c) ∈ q.enableCodes) ∧
  (t = 0 ∨ (t, 0xffff) ∉ q.disableCodes ∧ (t, c) ∉ q.disableCodes)

/-- An axis added by a quirk goes from 0 to 1; one model's number of slots is wrong. -/
def listedAbs (q : Quirks) (k : Kern) (c : Nat) : Abs :=
  if c ≠ 0xffff ∧ (3, c) ∈ q.enableCodes then ⟨0, 1, 0, 0⟩
  else if c = 0x2f ∧ q.hpZbookStudioG3 = true ∧ k.has 3 0x2f = true then { k.abs c with max := 1 }
  else k.abs c

/-- The kernel's description, changed by quirks, is `k`: the absolute x, y and z axes of what is an
accelerometer too are not looked at. -/
structure Sees (i : In) (k : View) : Prop where
  hidden : Tagged i .accelerometer → k.has 3 0 = false ∧ k.has 3 1 = false ∧ k.has 3 2 = false
  codes : ∀ t c, ¬ (Tagged i .accelerometer ∧ t = 3 ∧ c ≤ 2) → (k.has t c = true ↔ Listed i.quirks i.kern t c)
  abs : ∀ c, k.abs c = listedAbs i.quirks i.kern c
  prop : ∀ p, k.prop p = true ↔ (i.kern.prop p = true ∨ p ∈ i.quirks.enableProps) ∧ p ∉ i.quirks.disableProps
  slots : k.slots = i.kern.slots

/-- The device claims slots it does not have: it has so many axes that the numbers run into those of
multitouch. -/
def Fake (k : View) : Prop := k.has 3 0x2f = true ∧ k.slots = -1

/-- It has multitouch positions. -/
def Multitouch (k : View) : Prop := ¬ Fake k ∧ k.has 3 0x35 = true ∧ k.has 3 0x36 = true

/-- It has a position: that of one finger or those of several. -/
def HasPosition (k : View) : Prop := k.has 3 0 = true ∨ Multitouch k

/-- The axes make sense: x comes with y, a resolution of x with one of y, and no axis has an empty range.
Left out are `ABS_MISC`, the slots and the tool type, and axes of unknown meaning may go from 0 to 0. -/
structure Usable (k : View) : Prop where
  abs : k.has 3 0 = k.has 3 1
  rel : k.has 2 0 = k.has 2 1
  mt : ¬ Fake k → k.has 3 0x35 = k.has 3 0x36
  absRes : k.has 3 0 = true → ((k.abs 0).res = 0 ↔ (k.abs 1).res = 0)
  mtRes : ¬ Fake k → k.has 3 0x35 = true → ((k.abs 0x35).res = 0 ↔ (k.abs 0x36).res = 0)
  ranges : ∀ c, c < 0x40 → c ≠ 0x28 → c ≠ 0x2f → c ≠ 0x37 → k.has 3 c = true → (k.abs c).min = (k.abs c).max →
    (k.abs c).min = 0 ∧ 0x28 < c ∧ c < 0x2f

/-- The position of one finger, as the kernel has it: that of the multitouch axes if there is no other. -/
def posX (k : View) : Abs := if k.has 3 0 then k.abs 0 else k.abs 0x35
/-- Likewise. -/
def posY (k : View) : Abs := if k.has 3 0 then k.abs 1 else k.abs 0x36

/-- The resolutions of a pair of axes: those of the kernel, else those of the quirk with resolutions, else
those that follow from the quirk with sizes, else 1. -/
def res (q : Quirks) (x y : Abs) : Int × Int :=
  if x.res ≠ 0 ∨ y.res ≠ 0 then (x.res, y.res)
  else
    match q.resHint, q.sizeHint with
    | some r, _ => (toInt r.1, toInt r.2)
    | none, some s => (toInt (toSize (x.max - x.min) / s.1), toInt (toSize (y.max - y.min) / s.2))
    | none, none => (1, 1)

/-- The resolution is made up: the kernel has none, and what quirks give for x is 1 or there are none. -/
def MadeUp (q : Quirks) (x y : Abs) : Prop :=
  x.res = 0 ∧ y.res = 0 ∧
    match q.resHint, q.sizeHint with
    | some r, _ => r.1 = 1
    | none, some s => toSize (x.max - x.min) / s.1 = 1
    | none, none => True

/-- Some resolution of the device is made up. -/
def AnyMadeUp (q : Quirks) (k : View) : Prop :=
  HasPosition k ∧ MadeUp q (posX k) (posY k) ∨ Multitouch k ∧ MadeUp q (k.abs 0x35) (k.abs 0x36)

/-- The size of the device is known. -/
def SizeKnown (q : Quirks) (k : View) : Prop :=
  HasPosition k ∧ ¬ AnyMadeUp q k ∧ (res q (posX k) (posY k)).1 ≠ 0 ∧ (res q (posX k) (posY k)).2 ≠ 0

/-- A touch screen that is one. -/
def Touchscreen (i : In) (k : View) : Prop := Tagged i .touchscreen ∧ ¬ (Fake k ∧ k.has 3 0 = true)

/-- What is to handle the device. -/
def Role (i : In) (k : View) : Kind → Prop
  | .totem => i.quirks.totem = true
  | .tabletPad => i.quirks.totem = false ∧ Tagged i .tabletPad
  | .tablet => i.quirks.totem = false ∧ ¬ Tagged i .tabletPad ∧ Tagged i .tablet ∧ ¬ Tagged i .touchpad ∧
      ¬ Touchscreen i k
  | .touchpad => i.quirks.totem = false ∧ ¬ Tagged i .tabletPad ∧ Tagged i .touchpad
  | .fallback => i.quirks.totem = false ∧ ¬ Tagged i .tabletPad ∧ ¬ Tagged i .touchpad ∧
      (Tagged i .tablet → Touchscreen i k)

/-- The capabilities of a device handled so. -/
def Can (i : In) (k : View) : Kind → Cap → Prop
  | .totem, c => c = .tabletTool
  | .tabletPad, c => c = .tabletPad
  | .tablet, c => c = .tabletTool
  | .touchpad, .pointer => True
  | .touchpad, .gesture => k.has 3 0x2f = true ∧ 1 ≤ (k.abs 0x2f).max ∧ k.prop 3 = false ∧ i.quirks.hpPavilionDm4 = false
  | .touchpad, _ => False
  | .fallback, .pointer => Tagged i .mouse ∨ Tagged i .pointingstick ∨
      Tagged i .keyboard ∧ (k.has 2 8 = true ∨ k.has 2 6 = true)
  | .fallback, .keyboard => Tagged i .keyboard
  | .fallback, .touch => Touchscreen i k
  | .fallback, .switch => Tagged i .switch ∧ (k.has 5 0 = true ∨ k.has 5 1 = true ∧ i.quirks.tabletModeUnreliable = false)
  | .fallback, _ => False

/-- What a device handled so must have. -/
def Works (i : In) (k : View) : Kind → Prop
  | .totem => k.has 3 0x35 = true ∧ k.has 3 0x36 = true ∧ k.has 3 0x2f = true ∧ 0 < k.slots ∧
      k.has 3 0x37 = true ∧ 10 ≤ (k.abs 0x37).max ∧ SizeKnown i.quirks k ∧
      (k.has 3 0x30 = true ∧ 0 < (k.abs 0x30).res ∨ k.has 3 0x31 = true ∧ 0 < (k.abs 0x31).res)
  | .tabletPad => i.padLeds = true
  | .tablet => (k.has 1 0x140 = true ∨ k.has 1 0x14b = true) ∧ SizeKnown i.quirks k
  | .touchpad => HasPosition k ∧ k.has 1 0x14a = true ∧ k.has 1 0x145 = true
  | .fallback => (k.has 3 0x35 = true → k.has 3 0x36 = true → k.has 3 0x2f = false → i.mtdevOpens = true) ∧
      ∃ c, Can i k .fallback c

/-- The device is one for libinput. -/
structure Accepted (i : In) (k : View) : Prop where
  node : i.devnode = true
  wanted : i.props "LIBINPUT_IGNORE_DEVICE" = none ∨ i.props "LIBINPUT_IGNORE_DEVICE" = some ['0']
  opens : i.opens = true ∧ i.sameSyspath = true ∧ i.evdev = true ∧ i.watched = true
  input : Tagged i .input ∧ ∃ t, t ≠ .input ∧ Tagged i t
  kind : ¬ Only i .accelerometer ∧ ¬ Only i .joystick
  usable : Usable k
  works : ∃ r, Role i k r ∧ Works i k r

/-- An axis that goes from 0 to 0 and whose meaning is not known; it is not looked at. -/
def Vacant (k : View) (c : Nat) : Prop := (k.abs c).min = 0 ∧ (k.abs c).max = 0 ∧ 0x28 < c ∧ c < 0x2f

/-- The property has a fuzz. -/
def FuzzText (p : Props) (name : String) (v : Int) : Prop := ∃ s, p name = some s ∧ IntText s v ∧ 0 ≤ v

/-- The fuzz of an axis: what the property says, 0 if it says nothing or the kernel's fuzz has not been taken
away. -/
def FuzzIs (p : Props) (name : String) (kernel v : Int) : Prop :=
  kernel = 0 ∧ FuzzText p name v ∨ v = 0 ∧ (kernel ≠ 0 ∨ ¬ ∃ w, FuzzText p name w)

/-- A number for the angle between two clicks of a wheel. -/
def Angle (p : Props) (name : String) (v : Int) : Prop :=
  ∃ s, p name = some s ∧ IntText s v ∧ v ≠ 0 ∧ -360 ≤ v ∧ v ≤ 360

/-- There is none. -/
def NoAngle (p : Props) (name : String) : Prop := ∀ v, ¬ Angle p name v

/-- The range touches move over. -/
def Span (k : View) (x y : Abs) : Prop :=
  Multitouch k ∧ x = k.abs 0x35 ∧ y = k.abs 0x36 ∨ ¬ Multitouch k ∧ x = posX k ∧ y = posY k

/-- The axes of a device: which there are, their ranges, resolutions and fuzz.  A touchpad whose resolution is
made up is taken to be 69 mm wide and 50 mm high. -/
structure Axes (i : In) (k : View) (kind : Kind) (d : Dev) : Prop where
  x : d.k.has 3 0 = true ↔ HasPosition k
  y : d.k.has 3 1 = true ↔ HasPosition k
  touch : Multitouch k → d.axes = some (0x35, 0x36)
  single : ¬ Multitouch k → HasPosition k → d.axes = some (0, 1)
  none : ¬ HasPosition k → d.axes = none
  range : HasPosition k → (d.k.abs 0).min = (posX k).min ∧ (d.k.abs 0).max = (posX k).max ∧
    (d.k.abs 1).min = (posY k).min ∧ (d.k.abs 1).max = (posY k).max
  mtRange : ∀ c, c ≠ 0 → c ≠ 1 → (d.k.abs c).min = (k.abs c).min ∧ (d.k.abs c).max = (k.abs c).max
  nonempty : ∀ c, c < 0x40 → c ≠ 0x28 → c ≠ 0x2f → c ≠ 0x37 → d.k.has 3 c = true → (d.k.abs c).min ≠ (d.k.abs c).max
  res : ¬ (kind = .touchpad ∧ AnyMadeUp i.quirks k) → HasPosition k →
    ((d.k.abs 0).res, (d.k.abs 1).res) = Spec.res i.quirks (posX k) (posY k)
  mtRes : ¬ (kind = .touchpad ∧ AnyMadeUp i.quirks k) → Multitouch k →
    ((d.k.abs 0x35).res, (d.k.abs 0x36).res) = Spec.res i.quirks (k.abs 0x35) (k.abs 0x36)
  made : kind = .touchpad → AnyMadeUp i.quirks k → ∀ x y, Span k x y →
    (d.k.abs 0).res = ((x.max - x.min).natAbs / 69 : Nat) ∧ (d.k.abs 1).res = ((y.max - y.min).natAbs / 50 : Nat) ∧
    (Multitouch k → (d.k.abs 0x35).res = ((x.max - x.min).natAbs / 69 : Nat) ∧
      (d.k.abs 0x36).res = ((y.max - y.min).natAbs / 50 : Nat))
  fuzz : Tagged i .touchpad ∨ Tagged i .touchscreen → HasPosition k →
    FuzzIs i.props "LIBINPUT_FUZZ_00" (posX k).fuzz (d.k.abs 0).fuzz ∧
    FuzzIs i.props "LIBINPUT_FUZZ_01" (posY k).fuzz (d.k.abs 1).fuzz
  noFuzz : ¬ (Tagged i .touchpad ∨ Tagged i .touchscreen) → HasPosition k →
    (d.k.abs 0).fuzz = (posX k).fuzz ∧ (d.k.abs 1).fuzz = (posY k).fuzz
  mtFuzz : Multitouch k →
    (∃ w, FuzzIs i.props "LIBINPUT_FUZZ_35" (k.abs 0x35).fuzz w ∧ (d.k.abs 0x35).fuzz = if w = 0 then (k.abs 0x35).fuzz else w) ∧
    (∃ w, FuzzIs i.props "LIBINPUT_FUZZ_36" (k.abs 0x36).fuzz w ∧ (d.k.abs 0x36).fuzz = if w = 0 then (k.abs 0x36).fuzz else w)

/-- Trackpoints: the kernel says so, or the device's own properties. -/
def Stick (i : In) (k : View) : Prop := k.prop 5 = true ∨ i.props "ID_INPUT_POINTINGSTICK" = some ['1']

/-- The device moves a pointer without being a touchpad. -/
def Mousy (i : In) : Prop := Tagged i .mouse ∨ Tagged i .pointingstick

/-- The keys from Q to P: the device is for typing. -/
def Letters (k : View) : Prop := ∀ c, 16 ≤ c → c ≤ 25 → k.has 1 c = true

/-- The touchpad is not part of the machine: the property says so, or there is none and it is on bluetooth or
USB, or from a maker of touchpads to plug in. -/
def Outside (i : In) : Prop :=
  i.props "ID_INPUT_TOUCHPAD_INTEGRATION" = some "external".toList ∨
  i.props "ID_INPUT_TOUCHPAD_INTEGRATION" ≠ some "internal".toList ∧
    (i.kern.bus = 5 ∨ i.kern.bus = 3 ∧ i.quirks.appleTouchpad = false ∨ i.kern.vendor = 0x46d ∨ i.quirks.wacomTouchpad = true)

/-- What a device is marked as; the marks decide which devices are told of which. -/
def Marked (i : In) (k : View) : Kind → DTag → Prop
  | .touchpad, .externalTouchpad => Outside i
  | .touchpad, .internalTouchpad => ¬ Outside i
  | .touchpad, .tabletTouchpad => Tagged i .tablet
  | .fallback, .trackpoint => Mousy i ∧ Stick i k
  | .fallback, .externalMouse => Mousy i ∧ (i.kern.bus = 3 ∨ i.kern.bus = 5 ∨
      Stick i k ∧ i.quirks.trackpointIntegration = some "external".toList)
  | .fallback, .keyboard => Tagged i .keyboard ∧ Letters k
  | .fallback, .internalKeyboard => Tagged i .keyboard ∧ Letters k ∧ i.quirks.keyboardIntegration = some "internal".toList
  | .fallback, .externalKeyboard => Tagged i .keyboard ∧ Letters k ∧ i.quirks.keyboardIntegration = some "external".toList
  | .fallback, .lidSwitch => Tagged i .switch ∧ k.has 5 0 = true
  | .fallback, .tabletModeSwitch => Tagged i .switch ∧ k.has 5 1 = true ∧ i.quirks.tabletModeUnreliable = false
  | _, _ => False

end Libinput.Devices.Spec
