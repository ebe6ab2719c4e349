import Verif.Parsers.Props
/-
What a kernel device becomes: /repo/src/evdev.c, with the checks of the parts that drive tablets, totems,
touchpads and everything else.

The kernel's description of a device is held by libevdev: which event types and codes the device has, the
ranges of its axes, its properties and the number of its slots.  The quirks of the device (C53) and its udev
properties are inputs.
-/
namespace Libinput.Devices
open Libinput.Strings Libinput.Parsers

/-! ### The device as libevdev describes it -/

/-- `struct input_absinfo` without the value and the flatness. -/
structure Abs where
  min : Int
  max : Int
  res : Int
  fuzz : Int
deriving DecidableEq, Repr

/-- The description.  Models: libevdev, `struct libevdev`.  `slots` is `libevdev_get_num_slots`, which is -1
for devices that are not multitouch devices; it is found once, when the device is opened. -/
structure Kern where
  type : Nat → Bool
  bit : Nat → Nat → Bool
  abs : Nat → Abs
  prop : Nat → Bool
  slots : Int
  bus : Nat
  vendor : Nat

/-- Models: libevdev, `libevdev_has_event_code`. -/
def Kern.has (k : Kern) (t c : Nat) : Bool := k.type t && k.bit t c

/-- Models: libevdev, `libevdev_get_abs_info`. -/
def Kern.info (k : Kern) (c : Nat) : Option Abs := if k.has 3 c then some (k.abs c) else none

/-- Models: libevdev, `libevdev_enable_event_type`. -/
def Kern.enableType (k : Kern) (t : Nat) : Kern := { k with type := fun t' => t' == t || k.type t' }

/-- Models: libevdev, `libevdev_disable_event_type`; `EV_SYN` stays. -/
def Kern.disableType (k : Kern) (t : Nat) : Kern :=
  if t = 0 then k else { k with type := fun t' => !(t' == t) && k.type t' }

/-- Models: libevdev, `libevdev_enable_event_code` for anything but an axis. -/
def Kern.enable (k : Kern) (t c : Nat) : Kern :=
  { k.enableType t with bit := fun t' c' => t' == t && c' == c || k.bit t' c' }

/-- Models: libevdev, `libevdev_enable_event_code` for an axis. -/
def Kern.enableAbs (k : Kern) (c : Nat) (a : Abs) : Kern :=
  { k.enable 3 c with abs := fun c' => if c' = c then a else k.abs c' }

/-- Models: libevdev, `libevdev_disable_event_code`; `EV_SYN` stays. -/
def Kern.disable (k : Kern) (t c : Nat) : Kern :=
  if t = 0 then k else { k with bit := fun t' c' => !(t' == t && c' == c) && k.bit t' c' }

/-- Models: libevdev, `libevdev_set_abs_resolution`. -/
def Kern.setRes (k : Kern) (c : Nat) (v : Int) : Kern :=
  if k.has 3 c then { k with abs := fun c' => if c' = c then { k.abs c with res := v } else k.abs c' } else k

/-- Models: libevdev, `libevdev_set_abs_fuzz`. -/
def Kern.setFuzz (k : Kern) (c : Nat) (v : Int) : Kern :=
  if k.has 3 c then { k with abs := fun c' => if c' = c then { k.abs c with fuzz := v } else k.abs c' } else k

/-- Models: libevdev, `libevdev_set_abs_maximum`. -/
def Kern.setMax (k : Kern) (c : Nat) (v : Int) : Kern :=
  if k.has 3 c then { k with abs := fun c' => if c' = c then { k.abs c with max := v } else k.abs c' } else k

/-! ### Tags -/

/-- `enum evdev_device_udev_tags`.  Models: /repo/src/evdev.c:55-68. -/
inductive Tag where
  | input | keyboard | mouse | touchpad | touchscreen | tablet | joystick | accelerometer | tabletPad
  | pointingstick | trackball | switch
deriving DecidableEq, Repr

/-- All of them. -/
def Tag.all : List Tag :=
  [.input, .keyboard, .mouse, .touchpad, .touchscreen, .tablet, .joystick, .accelerometer, .tabletPad,
   .pointingstick, .trackball, .switch]

/-- `evdev_udev_tag_matches`.
Models: /repo/src/evdev.c:75-89. -/
def tagMatches : List (String × Tag) :=
  [("ID_INPUT", .input), ("ID_INPUT_KEYBOARD", .keyboard), ("ID_INPUT_KEY", .keyboard),
   ("ID_INPUT_MOUSE", .mouse), ("ID_INPUT_TOUCHPAD", .touchpad), ("ID_INPUT_TOUCHSCREEN", .touchscreen),
   ("ID_INPUT_TABLET", .tablet), ("ID_INPUT_TABLET_PAD", .tabletPad), ("ID_INPUT_JOYSTICK", .joystick),
   ("ID_INPUT_ACCELEROMETER", .accelerometer), ("ID_INPUT_POINTINGSTICK", .pointingstick),
   ("ID_INPUT_TRACKBALL", .trackball), ("ID_INPUT_SWITCH", .switch)]

/-- The properties of a device in udev's database. -/
abbrev Props := String → Option Str

/-- `parse_udev_flag`.  Models: /repo/src/evdev.c:91-110. -/
def flag (p : Props) (name : String) : Bool := p name == some ['1']

/-- One round of `evdev_device_get_udev_tags`.  Models: /repo/src/evdev.c:1573-1593. -/
def ownTags (p : Props) (t : Tag) : Bool := tagMatches.any fun m => flag p m.1 && m.2 == t

/-- `evdev_device_get_udev_tags`: the device's tags and those of its parent.
Models: /repo/src/evdev.c:1573-1593. -/
def udevTags (p : Props) (parent : Option Props) (t : Tag) : Bool :=
  ownTags p t || (match parent with | some q => ownTags q t | none => false)

/-- `udev_tags == (INPUT|a)`. -/
def isPure (ts : Tag → Bool) (a : Tag) : Bool := Tag.all.all fun t => ts t == (t == .input || t == a)

/-! ### Quirks -/

/-- The quirks that are looked at; `none` where the quirk is not set.  Numbers are exact. -/
structure Quirks where
  hpZbookStudioG3 : Bool
  totem : Bool
  hpPavilionDm4 : Bool
  appleTouchpad : Bool
  wacomTouchpad : Bool
  tabletModeUnreliable : Bool
  invertHorizontal : Bool
  mscTimestamp : Option Str
  enableCodes : List (Nat × Nat)
  disableCodes : List (Nat × Nat)
  enableProps : List Nat
  disableProps : List Nat
  resHint : Option (Nat × Nat)
  sizeHint : Option (Nat × Nat)
  trackpointIntegration : Option Str
  keyboardIntegration : Option Str
  multiplier : Option Rat
  velocityAveraging : Option Bool

/-- `EVENT_CODE_UNDEFINED`.  Models: /repo/src/util-prop-parsers.h:31. -/
def codeUndefined : Nat := 0xffff

/-- One tuple of `AttrEventCodeEnable`.  Models: /repo/src/evdev.c:2079-2105. -/
def enableTuple (k : Kern) (tc : Nat × Nat) : Kern :=
  if tc.2 = codeUndefined then k.enableType tc.1
  else if tc.1 = 3 then k.enableAbs tc.2 ⟨0, 1, 0, 0⟩
  else k.enable tc.1 tc.2

/-- One tuple of `AttrEventCodeDisable`.  Models: /repo/src/evdev.c:2105-2127. -/
def disableTuple (k : Kern) (tc : Nat × Nat) : Kern :=
  if tc.2 = codeUndefined then k.disableType tc.1 else k.disable tc.1 tc.2

/-- `evdev_pre_configure_model_quirks`; `HAVE_LIBEVDEV_DISABLE_PROPERTY` is set.
Models: /repo/src/evdev.c:2053-2160. -/
def preConfigure (q : Quirks) (k : Kern) : Kern :=
  let k := if q.hpZbookStudioG3 then k.setMax 0x2f 1 else k
  let k := if q.mscTimestamp = some "watch".toList then k else k.disable 4 5
  let k := q.enableCodes.foldl enableTuple k
  let k := q.disableCodes.foldl disableTuple k
  let k := { k with prop := fun p => q.enableProps.contains p || k.prop p }
  { k with prop := fun p => !q.disableProps.contains p && k.prop p }

/-! ### The device -/

/-- `enum evdev_device_seat_capability`, in the order of `enum libinput_device_capability`.
Models: /repo/src/evdev.h:56-64. -/
inductive Cap where
  | keyboard | pointer | touch | tabletTool | tabletPad | gesture | switch
deriving DecidableEq, Repr

/-- `enum evdev_device_tags`.  Models: /repo/src/evdev.h:66-77. -/
inductive DTag where
  | externalMouse | internalTouchpad | externalTouchpad | trackpoint | keyboard | lidSwitch
  | internalKeyboard | externalKeyboard | tabletModeSwitch | tabletTouchpad
deriving DecidableEq, Repr

/-- `enum evdev_dispatch_type`: what handles the device's events. -/
inductive Kind where
  | fallback | touchpad | tablet | tabletPad | totem
deriving DecidableEq, Repr

/-- The parts of `struct evdev_device` that are set up here.  `axes` are the axes `absinfo_x` and `absinfo_y`
point to. -/
structure Dev where
  k : Kern
  caps : Cap → Bool := fun _ => false
  tags : DTag → Bool := fun _ => false
  axes : Option (Nat × Nat) := none
  dims : Int × Int := (0, 0)
  fake : Bool := false
  isMt : Bool := false
  dpi : Int := 1000
  multiplier : Rat := 0
  averaging : Bool := false
  leftHanded : Bool := false
  natural : Bool := false
  buttonScroll : Bool := false
  invertH : Bool := false
  middle : Option (Bool × Bool) := none
  mtdev : Bool := false

/-- `device->seat_caps |= c`. -/
def Dev.cap (d : Dev) (c : Cap) : Dev := { d with caps := fun c' => c' == c || d.caps c' }
/-- `device->tags |= t`. -/
def Dev.tag (d : Dev) (t : DTag) : Dev := { d with tags := fun t' => t' == t || d.tags t' }
/-- `device->tags &= ~t`. -/
def Dev.untag (d : Dev) (t : DTag) : Dev := { d with tags := fun t' => !(t' == t) && d.tags t' }

/-- `evdev_need_mtdev`.  Models: /repo/src/evdev.c:888-896. -/
def needMtdev (k : Kern) : Bool := k.has 3 0x35 && k.has 3 0x36 && !k.has 3 0x2f

/-- `evdev_is_fake_mt_device`.  Models: /repo/src/evdev.c:901-908. -/
def fakeMt (k : Kern) : Bool := k.has 3 0x2f && k.slots == -1

/-- `evdev_disable_accelerometer_axes`; the last three calls name relative axes and, being made for
absolute ones, repeat the first three.  Models: /repo/src/evdev.c:1760-1772. -/
def disableAccelerometer (k : Kern) : Kern :=
  (((((k.disable 3 0).disable 3 1).disable 3 2).disable 3 0).disable 3 1).disable 3 2

/-- `evdev_check_min_max`; `none` is `false`.  Models: /repo/src/evdev.c:1615-1648. -/
def checkMinMax (k : Kern) (c : Nat) : Option Kern :=
  match k.info c with
  | none => some k
  | some a =>
    if a.min = a.max then
      if a.min = 0 ∧ 0x28 ≤ c ∧ c < 0x2f then some (k.disable 3 c) else none
    else some k

/-- The loop of `evdev_reject_device`.  Models: /repo/src/evdev.c:1650-1706. -/
def checkAxes : List Nat → Kern → Option Kern
  | [], k => some k
  | c :: cs, k =>
    if c = 0x28 ∨ c = 0x2f ∨ c = 0x37 then checkAxes cs k
    else
      match checkMinMax k c with
      | none => none
      | some k' => checkAxes cs k'

/-- Only one of two axes has a resolution. -/
def oneRes (x y : Abs) : Bool := x.res == 0 && y.res != 0 || x.res != 0 && y.res == 0

/-- `evdev_reject_device`; `none` is `true`.  Models: /repo/src/evdev.c:1650-1706. -/
def reject (k : Kern) : Option Kern :=
  if k.has 3 0 ^^ k.has 3 1 then none
  else if k.has 2 0 ^^ k.has 2 1 then none
  else if !fakeMt k && (k.has 3 0x35 ^^ k.has 3 0x36) then none
  else if k.has 3 0 && oneRes (k.abs 0) (k.abs 1) then none
  else if !fakeMt k && k.has 3 0x35 && oneRes (k.abs 0x35) (k.abs 0x36) then none
  else checkAxes (List.range 0x40) k

/-- `evdev_fix_android_mt`.  Models: /repo/src/evdev.c:1595-1613. -/
def fixAndroid (k : Kern) : Kern :=
  if k.has 3 0 || k.has 3 1 then k
  else if !k.has 3 0x35 || !k.has 3 0x36 || fakeMt k then k
  else (k.enableAbs 0 (k.abs 0x35)).enableAbs 1 (k.abs 0x36)

/-- Conversion of an `int` to `size_t`. -/
def toSize (v : Int) : Nat := (v % 18446744073709551616).toNat

/-- Conversion of a `size_t` to `int`. -/
def toInt (n : Nat) : Int :=
  let r := n % 4294967296
  if r < 2147483648 then (r : Int) else (r : Int) - 4294967296

/-- `evdev_fix_abs_resolution`, with `evdev_read_attr_res_prop` and `evdev_read_attr_size_prop`: the device
and whether the resolution is made up.  The difference of the axes' ends is exact.
Models: /repo/src/evdev.c:1528-1571, /repo/src/evdev.c:1475-1499,
/repo/src/evdev.c:1501-1525. -/
def fixRes (q : Quirks) (k : Kern) (x y : Nat) : Kern × Bool :=
  if (k.abs x).res ≠ 0 ∨ (k.abs y).res ≠ 0 then (k, false)
  else
    let r : Nat × Nat :=
      match q.resHint with
      | some r => r
      | none =>
        match q.sizeHint with
        | some s => (toSize ((k.abs x).max - (k.abs x).min) / s.1, toSize ((k.abs y).max - (k.abs y).min) / s.2)
        | none => (1, 1)
    ((k.setRes x (toInt r.1)).setRes y (toInt r.2), r.1 == 1)

/-- The name of the property with the fuzz of an axis, `"LIBINPUT_FUZZ_%02x"`, for the codes it is asked of.
Models: /repo/src/evdev.c:2453-2498. -/
def fuzzName : Nat → String
  | 0 => "LIBINPUT_FUZZ_00"
  | 1 => "LIBINPUT_FUZZ_01"
  | 0x35 => "LIBINPUT_FUZZ_35"
  | _ => "LIBINPUT_FUZZ_36"

/-- `evdev_read_fuzz_prop`.  Models: /repo/src/evdev.c:2453-2498. -/
def readFuzz (p : Props) (k : Kern) (c : Nat) : Int :=
  let fuzz : Option Int :=
    match p (fuzzName c) with
    | none => some 0
    | some s =>
      match safeAtoi s with
      | none => none
      | some v => if v < 0 then none else some v
  match fuzz with
  | none => 0
  | some v =>
    match k.info c with
    | none => v
    | some a => if a.fuzz = 0 then v else 0

/-- The range of the axes.  Models: /repo/src/evdev.c:1708-1758. -/
def dimsOf (k : Kern) (x y : Nat) : Int × Int :=
  (((k.abs x).max - (k.abs x).min).natAbs, ((k.abs y).max - (k.abs y).min).natAbs)

/-- `evdev_extract_abs_axes`, the single-touch axes.  Models: /repo/src/evdev.c:1708-1758. -/
def extractSingle (q : Quirks) (p : Props) (ts : Tag → Bool) (d : Dev) : Dev :=
  let r := fixRes q d.k 0 1
  let k := r.1
  let k :=
    if ts .touchpad || ts .touchscreen then
      let k := k.setFuzz 0 (readFuzz p k 0)
      k.setFuzz 1 (readFuzz p k 1)
    else k
  { d with k := k, fake := d.fake || r.2, axes := some (0, 1), dims := dimsOf k 0 1 }

/-- `evdev_extract_abs_axes`, the multitouch axes.  Models: /repo/src/evdev.c:1708-1758. -/
def extractMt (q : Quirks) (p : Props) (d : Dev) : Dev :=
  let r := fixRes q d.k 0x35 0x36
  let k := r.1
  let k := if readFuzz p k 0x35 = 0 then k else k.setFuzz 0x35 (readFuzz p k 0x35)
  let k := if readFuzz p k 0x36 = 0 then k else k.setFuzz 0x36 (readFuzz p k 0x36)
  { d with k := k, fake := d.fake || r.2, axes := some (0x35, 0x36), dims := dimsOf k 0x35 0x36, isMt := true }

/-- `evdev_extract_abs_axes`.  Models: /repo/src/evdev.c:1708-1758. -/
def extractAxes (q : Quirks) (p : Props) (ts : Tag → Bool) (d : Dev) : Dev :=
  if !d.k.has 3 0 || !d.k.has 3 1 then d
  else
    let d := extractSingle q p ts d
    if fakeMt d.k || !d.k.has 3 0x35 || !d.k.has 3 0x36 then d else extractMt q p d

/-- `evdev_device_get_size`; `none` is -1.  Models: /repo/src/evdev.c:2524-2542. -/
def getSize (d : Dev) : Option (Rat × Rat) :=
  match d.k.info 0, d.k.info 1 with
  | some x, some y =>
    if d.fake || x.res == 0 || y.res == 0 then none
    else some (((x.max - x.min : Int) : Rat) / (x.res : Rat), ((y.max - y.min : Int) : Rat) / (y.res : Rat))
  | _, _ => none

/-! ### The parts that handle the events -/

/-- `totem_reject_device` and the check of the slots in `evdev_totem_create`.
Models: /repo/src/evdev-totem.c:716-745, /repo/src/evdev-totem.c:799-835. -/
def totemOk (d : Dev) : Bool :=
  let k := d.k
  let hasXy := k.has 3 0x35 && k.has 3 0x36
  let hasSlot := k.has 3 0x2f
  let hasDial := k.has 3 0x37 && decide ((k.abs 0x37).max ≥ 0x0a)
  let hasSize := (getSize d).isSome
  let hasTouchSize := (k.has 3 0x30 && decide ((k.abs 0x30).res > 0)) || (k.has 3 0x31 && decide ((k.abs 0x31).res > 0))
  hasXy && hasSlot && hasDial && hasSize && hasTouchSize && decide (k.slots > 0)

/-- `tablet_reject_device`, negated.  Models: /repo/src/evdev-tablet.c:2396-2420. -/
def tabletOk (d : Dev) : Bool :=
  let hasXy := d.k.has 3 0 && d.k.has 3 1
  let hasPen := d.k.has 1 0x140
  let hasStylus := d.k.has 1 0x14b
  hasXy && (hasPen || hasStylus) && (getSize d).isSome

/-- The codes `tablet_init` enables and disables.  Models: /repo/src/evdev-tablet.c:2422-2482. -/
def tabletCodes (k : Kern) : Kern :=
  let k := if k.has 1 0x140 then k else k.enable 1 0x140
  if k.vendor ≠ 0x56a then (k.disable 1 0x146).disable 1 0x147 else k

/-- `tp_pass_sanity_check`.  Models: /repo/src/evdev-mt-touchpad.c:3415-3436. -/
def touchpadOk (k : Kern) : Bool := k.has 3 0 && k.has 1 0x14a && k.has 1 0x145

/-- `tp_init_default_resolution`.  Models: /repo/src/evdev-mt-touchpad.c:3438-3470. -/
def defaultRes (d : Dev) : Dev :=
  if !d.fake then d
  else
    let x := d.dims.1.tdiv 69
    let y := d.dims.2.tdiv 50
    { d with k := (((d.k.setRes 0 x).setRes 1 y).setRes 0x35 x).setRes 0x36 y, fake := false }

/-- `tp_init_pressurepad`.  Models: /repo/src/evdev-mt-touchpad.c:3611-3629. -/
def pressurepad (k : Kern) : Kern :=
  if k.has 3 0x3a && (k.abs 0x3a).res != 0 then (k.disable 3 0x3a).disable 3 0x18 else k

/-- `tp_init_slots`: the touchpad's slots.  Models: /repo/src/evdev-mt-touchpad.c:2866-2951. -/
def touchpadSlots (q : Quirks) (k : Kern) : Int :=
  if k.prop 3 || q.hpPavilionDm4 then 1
  else
    match k.info 0x2f with
    | some a => a.max + 1
    | none => 1

/-- `tp->has_mt`.  Models: /repo/src/evdev-mt-touchpad.c:2866-2951. -/
def touchpadMt (q : Quirks) (k : Kern) : Bool := k.has 3 0x2f && !(k.prop 3 || q.hpPavilionDm4)

/-- `tp_disable_abs_mt`.  Models: /repo/src/evdev-mt-touchpad.c:2856-2864. -/
def disableAbsMt (k : Kern) : Kern :=
  { k with bit := fun t c => !(t == 3 && decide (0x2f ≤ c) && decide (c ≤ 0x3f)) && k.bit t c }

/-- `tp_init_gesture`: whether gestures are told.  Models: /repo/src/evdev-mt-touchpad-gestures.c:881-901. -/
def gestures (q : Quirks) (k : Kern) : Bool := !k.prop 3 && decide (touchpadSlots q k > 1)

/-- `evdev_tag_touchpad_internal`.  Models: /repo/src/evdev-mt-touchpad.c:2679-2684. -/
def tagInternal (d : Dev) : Dev := (d.tag .internalTouchpad).untag .externalTouchpad
/-- `evdev_tag_touchpad_external`.  Models: /repo/src/evdev-mt-touchpad.c:2686-2691. -/
def tagExternal (d : Dev) : Dev := (d.tag .externalTouchpad).untag .internalTouchpad

/-- `evdev_tag_touchpad`.  Models: /repo/src/evdev-mt-touchpad.c:2693-2762. -/
def tagTouchpad (q : Quirks) (p : Props) (d : Dev) : Dev :=
  if p "ID_INPUT_TOUCHPAD_INTEGRATION" = some "internal".toList then tagInternal d
  else if p "ID_INPUT_TOUCHPAD_INTEGRATION" = some "external".toList then tagExternal d
  else
    let d :=
      if d.k.bus = 3 then (if q.appleTouchpad then tagInternal d else d)
      else if d.k.bus = 5 then tagExternal d
      else tagInternal d
    let d := if d.k.vendor = 0x46d then tagExternal d else d
    let d := if q.wacomTouchpad then tagExternal d else d
    if !d.tags .externalTouchpad && !d.tags .internalTouchpad then tagExternal d else d

/-- `evdev_mt_touchpad_create` with `tp_init`; `none` is NULL, which leaves the device without capabilities.
`dpi = resolution * 25.4` is exact before it is cut.
Models: /repo/src/evdev-mt-touchpad.c:3865-3890, /repo/src/evdev-mt-touchpad.c:3631-3692. -/
def touchpadCreate (q : Quirks) (p : Props) (d : Dev) : Option Dev :=
  let d := tagTouchpad q p d
  if !touchpadOk d.k then none
  else
    let d := defaultRes d
    let d := { d with k := pressurepad d.k }
    let g := gestures q d.k
    let d := if touchpadMt q d.k then d else { d with k := disableAbsMt d.k }
    let d := { d with dpi := match d.axes with | some (x, _) => ((d.k.abs x).res * 254).tdiv 10 | none => d.dpi }
    let d := d.cap .pointer
    some (if g then d.cap .gesture else d)

/-- `evdev_tag_external_mouse`.  Models: /repo/src/evdev.c:408-417. -/
def tagExternalMouse (d : Dev) : Dev := if d.k.bus = 3 ∨ d.k.bus = 5 then d.tag .externalMouse else d

/-- `evdev_tag_trackpoint`.  Models: /repo/src/evdev.c:419-451. -/
def tagTrackpoint (q : Quirks) (p : Props) (d : Dev) : Dev :=
  if !d.k.prop 5 && !flag p "ID_INPUT_POINTINGSTICK" then d
  else
    let d := d.tag .trackpoint
    if q.trackpointIntegration = some "external".toList then d.tag .externalMouse else d

/-- `evdev_tag_keyboard`: only devices with the keys from Q to P are keyboards.
Models: /repo/src/evdev.c:467-503, /repo/src/evdev.c:453-458,
/repo/src/evdev.c:460-465. -/
def tagKeyboard (q : Quirks) (d : Dev) : Dev :=
  if !(List.range 10).all (fun i => d.k.has 1 (16 + i)) then d
  else
    let d :=
      if q.keyboardIntegration = some "internal".toList then (d.tag .internalKeyboard).untag .externalKeyboard
      else if q.keyboardIntegration = some "external".toList then (d.tag .externalKeyboard).untag .internalKeyboard
      else d
    d.tag .keyboard

/-- `evdev_read_dpi_prop`.  Models: /repo/src/evdev.c:1366-1392. -/
def readDpi (C : Conv) (p : Props) (d : Dev) : Int :=
  if d.tags .trackpoint then 1000
  else
    match p "MOUSE_DPI" with
    | none => 1000
    | some s => if parseDpi C (some s) = 0 then 1000 else parseDpi C (some s)

/-- `evdev_get_trackpoint_multiplier`.  Models: /repo/src/evdev.c:1311-1341. -/
def readMultiplier (q : Quirks) (d : Dev) : Rat :=
  if !d.tags .trackpoint then 1
  else
    let m := q.multiplier.getD 1
    if m ≤ 0 then 1 else m

/-- `evdev_need_velocity_averaging`.  Models: /repo/src/evdev.c:1343-1364. -/
def needAveraging (q : Quirks) : Bool := q.velocityAveraging.getD false

/-- What `evdev_configure_device` does for mice.
Models: /repo/src/evdev.c:1880-1899. -/
def setupMouse (C : Conv) (q : Quirks) (p : Props) (ts : Tag → Bool) (d : Dev) : Dev :=
  if ts .mouse || ts .pointingstick then
    let d := tagExternalMouse d
    let d := tagTrackpoint q p d
    let d := { d with dpi := readDpi C p d }
    let d := { d with multiplier := readMultiplier q d }
    let d := { d with averaging := needAveraging q }
    let d := d.cap .pointer
    { d with leftHanded := true, natural := true, buttonScroll := d.buttonScroll || d.k.has 2 0 || d.k.has 2 1 }
  else d

/-- What `evdev_configure_device` does for keyboards.
Models: /repo/src/evdev.c:1902-1913. -/
def setupKeyboard (q : Quirks) (ts : Tag → Bool) (d : Dev) : Dev :=
  if ts .keyboard then
    let d := d.cap .keyboard
    let d := if d.k.has 2 8 || d.k.has 2 6 then { d with natural := true }.cap .pointer else d
    tagKeyboard q d
  else d

/-- What `evdev_configure_device` does for switches.
Models: /repo/src/evdev.c:1921-1942. -/
def setupSwitch (q : Quirks) (ts : Tag → Bool) (d : Dev) : Dev :=
  if ts .switch then
    let d := if d.k.has 5 0 then (d.cap .switch).tag .lidSwitch else d
    if d.k.has 5 1 then
      if q.tabletModeUnreliable then { d with k := d.k.disable 5 1 }
      else (d.tag .tabletModeSwitch).cap .switch
    else d
  else d

/-- `fallback_dispatch_create`: whether emulation of the middle button is on and whether it can be chosen, and
whether the device needs its multitouch events translated.
Models: /repo/src/evdev-fallback.c:1711-1770, /repo/src/evdev-fallback.c:1576-1637. -/
def fallbackCreate (mtdevOpens : Bool) (d : Dev) : Option Dev :=
  let isMt := !fakeMt d.k && d.k.has 3 0x35 && d.k.has 3 0x36
  if isMt && needMtdev d.k && !mtdevOpens then none
  else
    let d := if isMt && needMtdev d.k then { d with mtdev := true } else d
    some (if d.k.has 1 0x110 && d.k.has 1 0x111 then
        { d with middle := some (!d.k.has 1 0x112, d.k.has 1 0x112) }
      else d)

/-! ### Configuration -/

/-- What surrounds a device. -/
structure In where
  conv : Conv
  props : Props
  parent : Option Props
  quirks : Quirks
  kern : Kern
  /-- The device has a node. -/
  devnode : Bool
  /-- The caller's open succeeds. -/
  opens : Bool
  /-- The file opened is that device. -/
  sameSyspath : Bool
  /-- libevdev accepts the file. -/
  evdev : Bool
  /-- The file can be watched. -/
  watched : Bool
  /-- mtdev opens the device. -/
  mtdevOpens : Bool
  /-- `pad_init_leds` succeeds. -/
  padLeds : Bool

/-- The end of `evdev_configure_device`, for what is neither tablet, pad, totem nor touchpad.  Filters are
made without fail.  Models: /repo/src/evdev.c:1880-1959. -/
def configureOther (i : In) (ts : Tag → Bool) (d : Dev) : Option Dev × Dev :=
  let d := setupMouse i.conv i.quirks i.props ts d
  let d := setupKeyboard i.quirks ts d
  let d := if ts .touchscreen then d.cap .touch else d
  let d := setupSwitch i.quirks ts d
  let d := if i.quirks.invertHorizontal then { d with invertH := true } else d
  (fallbackCreate i.mtdevOpens d, d)

/-- The tags with which a device goes on once its axes are known: fake multitouch devices are no touch screens.
Models: /repo/src/evdev.c:1774-1960. -/
def laterTags (k : Kern) (ts : Tag → Bool) (t : Tag) : Bool :=
  if k.has 3 0 && fakeMt k && t == .touchscreen then false else ts t

/-- The middle of `evdev_configure_device`: what handles the device.
The result is the handler and the device with it, if any, and the capabilities the device has otherwise.
Models: /repo/src/evdev.c:1839-1959. -/
def configureKind (i : In) (ts : Tag → Bool) (d : Dev) : Option (Kind × Dev) × (Cap → Bool) :=
  if i.quirks.totem then
    (if totemOk d then some (.totem, d.cap .tabletTool) else none, (d.cap .tabletTool).caps)
  else if ts .tabletPad then
    (if i.padLeds then some (.tabletPad, d.cap .tabletPad) else none, (d.cap .tabletPad).caps)
  else if ts .tablet && !ts .touchpad && !ts .touchscreen then
    (if tabletOk d then some (.tablet, { d with k := tabletCodes d.k }.cap .tabletTool) else none,
      (d.cap .tabletTool).caps)
  else if ts .touchpad then
    let d := if ts .tablet then d.tag .tabletTouchpad else d
    let d := { d with averaging := needAveraging i.quirks }
    match touchpadCreate i.quirks i.props d with
    | some d' => (some (.touchpad, d'), d'.caps)
    | none => (none, d.caps)
  else
    let r := configureOther i ts d
    (r.1.map fun d => (.fallback, d), r.2.caps)

/-- `evdev_configure_device`.  Models: /repo/src/evdev.c:1774-1960. -/
def configure (i : In) : Option (Kind × Dev) × (Cap → Bool) :=
  let nothing : Option (Kind × Dev) × (Cap → Bool) := (none, fun _ => false)
  let k := preConfigure i.quirks i.kern
  let ts := udevTags i.props i.parent
  if !ts .input || Tag.all.all (fun t => t == .input || !ts t) then nothing
  else if isPure ts .accelerometer then nothing
  else
    let k := if ts .accelerometer then disableAccelerometer k else k
    if isPure ts .joystick then nothing
    else
      match reject k with
      | none => nothing
      | some k =>
        let k := if fakeMt k then k else fixAndroid k
        let d : Dev := { k := k }
        let d := if k.has 3 0 then extractAxes i.quirks i.props ts d else d
        configureKind i (laterTags k ts) d

/-! ### Making a device -/

/-- The result of `evdev_device_create`: NULL, `EVDEV_UNHANDLED_DEVICE` or a device. -/
inductive Created where
  | null
  | unhandled
  | device (kind : Kind) (d : Dev)

/-- What happens to the file. -/
inductive File where
  | opened | closed
deriving DecidableEq, Repr

/-- `udev_device_should_be_ignored`.  Models: /repo/src/evdev.c:2194-2203. -/
def ignored (p : Props) : Bool :=
  match p "LIBINPUT_IGNORE_DEVICE" with
  | none => false
  | some v => v ≠ ['0']

/-- `evdev_device_create`, and what happens to the file meanwhile.  Allocations do not fail.
Models: /repo/src/evdev.c:2205-2314, /repo/src/evdev.c:1993-2014. -/
def create (i : In) : Created × List File :=
  if !i.devnode then (.null, [])
  else if ignored i.props then (.null, [])
  else if !i.opens then (.null, [])
  else if !i.sameSyspath then (.null, [.opened, .closed])
  else if !i.evdev then (.unhandled, [.opened, .closed])
  else
    let r := configure i
    let nocaps := ![Cap.keyboard, .pointer, .touch, .tabletTool, .tabletPad, .gesture, .switch].any r.2
    match r.1 with
    | none => (if nocaps then .unhandled else .null, [.opened, .closed])
    | some (kind, d) =>
      if nocaps then (.unhandled, [.opened, .closed])
      else if !i.watched then (.null, [.opened, .closed])
      else (.device kind d, [.opened])

/-! ### Wheel clicks -/

/-- `parse_mouse_wheel_click_angle_property`, on machines where `abs(INT_MIN)` is `INT_MIN` (see C20).
Models: /repo/src/util-prop-parsers.c:125-137. -/
def wheelVal (s : Str) : Int :=
  match parseWheelClick (some s) with
  | .val v => v
  | .ub => INT_MIN

/-- `evdev_read_wheel_click_prop`: the angle and the result.  Models: /repo/src/evdev.c:1233-1257. -/
def wheelAngle (p : Props) (name : String) : Rat × Bool :=
  match p name with
  | none => (15, false)
  | some s => if wheelVal s ≠ 0 then ((wheelVal s : Rat), true) else (15, false)

/-- `evdev_read_wheel_click_count_prop`: the angle, if it is written, and the result.
Models: /repo/src/evdev.c:1259-1283. -/
def wheelCount (p : Props) (name : String) : Option Rat × Bool :=
  match p name with
  | none => (none, false)
  | some s => if wheelVal s ≠ 0 then (some ((360 : Rat) / (wheelVal s : Rat)), true) else (some 15, false)

/-- `evdev_read_wheel_click_props`: the vertical and the horizontal angle.
Models: /repo/src/evdev.c:1285-1309. -/
def wheelAngles (p : Props) : Rat × Rat :=
  let y : Rat :=
    match wheelCount p "MOUSE_WHEEL_CLICK_COUNT" with
    | (some a, true) => a
    | _ => (wheelAngle p "MOUSE_WHEEL_CLICK_ANGLE").1
  let x : Rat :=
    match wheelCount p "MOUSE_WHEEL_CLICK_COUNT_HORIZONTAL" with
    | (some a, true) => a
    | _ =>
      match wheelAngle p "MOUSE_WHEEL_CLICK_ANGLE_HORIZONTAL" with
      | (a, true) => a
      | (_, false) => y
  (y, x)

/-! ### Questions -/

/-- `evdev_device_has_button`.  Models: /repo/src/evdev.c:2544-2551. -/
def hasButton (d : Dev) (c : Nat) : Int := if !d.caps .pointer then -1 else (d.k.has 1 c).toInt

/-- `evdev_device_has_key`.  Models: /repo/src/evdev.c:2553-2560. -/
def hasKey (d : Dev) (c : Nat) : Int := if !d.caps .keyboard then -1 else (d.k.has 1 c).toInt

/-- `evdev_device_tablet_pad_has_key`.  Models: /repo/src/evdev-tablet-pad.c:753-760. -/
def padHasKey (d : Dev) (c : Nat) : Int := if !d.caps .tabletPad then -1 else (d.k.has 1 c).toInt

/-- `evdev_device_get_touch_count`.  Models: /repo/src/evdev.c:2562-2582. -/
def touchCount (d : Dev) : Int :=
  if !d.caps .touch then -1
  else if d.k.slots = -1 then (if d.mtdev then 0 else 1)
  else d.k.slots

/-- `evdev_device_has_switch`.  Models: /repo/src/evdev.c:2584-2605. -/
def hasSwitch (d : Dev) (sw : Nat) : Int :=
  if !d.caps .switch then -1
  else if sw = 1 then (d.k.has 5 0).toInt
  else if sw = 2 then (d.k.has 5 1).toInt
  else -1

/-- `evdev_device_has_capability`.  Models: /repo/src/evdev.c:2500-2522. -/
def hasCapability (d : Dev) : Nat → Bool
  | 0 => d.caps .keyboard
  | 1 => d.caps .pointer
  | 2 => d.caps .touch
  | 3 => d.caps .tabletTool
  | 4 => d.caps .tabletPad
  | 5 => d.caps .gesture
  | 6 => d.caps .switch
  | _ => false

end Libinput.Devices
