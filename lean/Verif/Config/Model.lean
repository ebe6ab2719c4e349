/-
Model of the configuration interface: every `libinput_device_config_*` setter and getter (libinput.c) and
the functions of the device they call (evdev.c, evdev-fallback.c, evdev-middle-button.c,
evdev-mt-touchpad*.c, evdev-tablet*.c, evdev-totem.c, filter*.c).

A function pointer of the configuration that is not set is an absent hook; calling an absent hook and a
failing `assert` are the outcome `none`.
-/
namespace Libinput.Config

/-- A C `float` or `double`.  Simplification: finite values are rationals and the sign of zero is dropped. -/
inductive Num where
  | nan
  | inf (negative : Bool)
  | fin (q : Rat)
deriving DecidableEq, Repr

/-- `a <= b`; false when either is a NaN. -/
def Num.le : Num → Num → Bool
  | .nan, _ => false
  | _, .nan => false
  | .inf true, _ => true
  | _, .inf false => true
  | .inf false, _ => false
  | _, .inf true => false
  | .fin a, .fin b => decide (a ≤ b)

/-- `a == b` for a float and an integer. -/
def Num.is (a : Num) (n : Int) : Bool := decide (a = .fin n)

/-- `enum libinput_config_status`.  Models: /repo/src/libinput.h:4341-4344. -/
inductive Status where
  | success | unsupported | invalid
deriving DecidableEq, Repr

/-- The values of the enums of the interface; a caller may pass any other number.
Models: /repo/src/libinput.h:4385-5760. -/
abbrev DISABLED : Nat := 0
abbrev ENABLED : Nat := 1
abbrev TAP_MAP_LRM : Nat := 0
abbrev TAP_MAP_LMR : Nat := 1
abbrev SEND_EVENTS_ENABLED : Nat := 0
abbrev SEND_EVENTS_DISABLED : Nat := 1
abbrev SEND_EVENTS_DISABLED_ON_EXTERNAL_MOUSE : Nat := 2
abbrev PROFILE_NONE : Nat := 0
abbrev PROFILE_FLAT : Nat := 1
abbrev PROFILE_ADAPTIVE : Nat := 2
abbrev CLICK_NONE : Nat := 0
abbrev CLICK_BUTTON_AREAS : Nat := 1
abbrev CLICK_CLICKFINGER : Nat := 2
abbrev NO_SCROLL : Nat := 0
abbrev SCROLL_2FG : Nat := 1
abbrev SCROLL_EDGE : Nat := 2
abbrev SCROLL_ON_BUTTON_DOWN : Nat := 4
abbrev BTN_LEFT : Nat := 0x110
abbrev BTN_RIGHT : Nat := 0x111
abbrev BTN_MIDDLE : Nat := 0x112
abbrev BTN_SIDE : Nat := 0x113
abbrev REL_X : Nat := 0
abbrev REL_Y : Nat := 1
abbrev REL_HWHEEL : Nat := 6
abbrev REL_WHEEL : Nat := 8

/-- The six numbers of a calibration matrix as the caller passes them. -/
structure Six where
  a : Num
  b : Num
  c : Num
  d : Num
  e : Num
  f : Num
deriving DecidableEq, Repr

/-- `struct matrix`.  Models: /repo/src/util-matrix.h:34-36. -/
structure Matrix where
  m00 : Num
  m01 : Num
  m02 : Num
  m10 : Num
  m11 : Num
  m12 : Num
  m20 : Num
  m21 : Num
  m22 : Num
deriving DecidableEq, Repr

/-- Models: /repo/src/util-matrix.h:44-51. -/
def Matrix.identity : Matrix :=
  ⟨.fin 1, .fin 0, .fin 0, .fin 0, .fin 1, .fin 0, .fin 0, .fin 0, .fin 1⟩

/-- Models: /repo/src/util-matrix.h:53-63. -/
def Matrix.ofSix (s : Six) : Matrix :=
  { Matrix.identity with m00 := s.a, m01 := s.b, m02 := s.c, m10 := s.d, m11 := s.e, m12 := s.f }

/-- Models: /repo/src/util-matrix.h:143-152. -/
def Matrix.toSix (m : Matrix) : Six := ⟨m.m00, m.m01, m.m02, m.m10, m.m11, m.m12⟩

/-- Models: /repo/src/util-matrix.h:96-108. -/
def Matrix.isIdentity (m : Matrix) : Bool :=
  m.m00.is 1 && m.m01.is 0 && m.m02.is 0 && m.m10.is 0 && m.m11.is 1 && m.m12.is 0 &&
    m.m20.is 0 && m.m21.is 0 && m.m22.is 1

/-- The acceleration filters.  Models: the `motion_filter_interface`s of filter-*.c. -/
inductive FilterKind where
  | flat | lowDpi | mouse | trackpoint | touchpad | touchpadFlat | x230 | tablet
deriving DecidableEq, Repr

/-- The `type` of the filter.  Models: the `.type` fields in filter-flat.c:104, filter-low-dpi.c:228,
filter-mouse.c:302, filter-tablet.c:147, filter-touchpad.c:317, filter-touchpad-flat.c:107,
filter-touchpad-x230.c:287, filter-trackpoint.c:175. -/
def FilterKind.type : FilterKind → Nat
  | .flat => PROFILE_FLAT
  | .lowDpi => PROFILE_ADAPTIVE
  | .mouse => PROFILE_ADAPTIVE
  | .trackpoint => PROFILE_ADAPTIVE
  | .touchpad => PROFILE_ADAPTIVE
  | .touchpadFlat => PROFILE_FLAT
  | .x230 => PROFILE_ADAPTIVE
  | .tablet => PROFILE_FLAT

/-- `struct motion_filter`: `speed` is `speed_adjustment`; `zalloc` leaves it 0.  The factors computed from
the speed are not modelled. -/
structure Filter where
  kind : FilterKind
  speed : Num
deriving DecidableEq, Repr

/-- A new filter.  Models: the `create_pointer_accelerator_filter_*` functions; `zalloc` aborts rather than
returning NULL (/repo/src/util-strings.h:64-79), so none of them fails. -/
def Filter.new (k : FilterKind) : Filter := ⟨k, .fin 0⟩

/-- `speed_adjustment >= -1.0 && speed_adjustment <= 1.0`. -/
def inRange (d : Num) : Bool := (Num.fin (-1)).le d && d.le (.fin 1)

/-- `filter_set_speed`; `none` is the failing assertion.  The tablet filter does not store the speed.
Models: /repo/src/filter.c:73-78, /repo/src/filter-flat.c:74-92,
/repo/src/filter-low-dpi.c:199-225, /repo/src/filter-mouse.c:197-223,
/repo/src/filter-tablet.c:123-135, /repo/src/filter-touchpad.c:167-180,
/repo/src/filter-touchpad-flat.c:82-95,
/repo/src/filter-touchpad-x230.c:219-245,
/repo/src/filter-trackpoint.c:137-151. -/
def Filter.setSpeed (f : Filter) (d : Num) : Option Filter :=
  if inRange d then
    match f.kind with
    | .tablet => some f
    | _ => some { f with speed := d }
  else none

/-- Which dispatch the device got.  Models: /repo/src/evdev.c:1774-1960. -/
inductive Kind where
  | totem | pad | tablet | touchpad | fallback
deriving DecidableEq, Repr

/-- What is known about the hardware.  `key` and `rel`: the codes the kernel device has
(`libevdev_has_event_code`).  The fields below `kind` are used by some kinds of device only. -/
structure Hw where
  kind : Kind
  key : Nat → Bool
  rel : Nat → Bool
  /-- `device->abs.absinfo_x && device->abs.absinfo_y` -/
  absXY : Bool
  /-- the parsed `LIBINPUT_CALIBRATION_MATRIX`, if any -/
  udevMatrix : Option Six
  /-- tablets and pads: `evdev_tablet_has_left_handed` -/
  reversible : Bool
  /-- tablets: `INPUT_PROP_DIRECT` -/
  direct : Bool
  /-- `EVDEV_UDEV_TAG_MOUSE` or `EVDEV_UDEV_TAG_POINTINGSTICK` -/
  mouseTag : Bool
  /-- `EVDEV_UDEV_TAG_KEYBOARD` -/
  keyboardTag : Bool
  /-- `EVDEV_TAG_TRACKPOINT` -/
  trackpoint : Bool
  /-- `EVDEV_MODEL_TRACKBALL` -/
  trackball : Bool
  /-- `device->dpi < DEFAULT_MOUSE_DPI` -/
  lowDpi : Bool
  /-- touchpads: `tp->ntouches` -/
  ntouches : Nat
  /-- touchpads: `tp->has_mt` -/
  hasMt : Bool
  /-- touchpads: `tp->buttons.is_clickpad` -/
  clickpad : Bool
  /-- touchpads: `EVDEV_TAG_INTERNAL_TOUCHPAD`; else external -/
  internal : Bool
  /-- touchpads: `tp_is_tpkb_combo_below` -/
  tpkbBelow : Bool
  /-- touchpads: `APPLE_TOUCHPAD_ONEBUTTON` -/
  onebutton : Bool
  /-- touchpads: one of the other quirks for which clickfinger is the default whatever the buttons:
  `CHROMEBOOK`, `SYSTEM76_BONOBO`, `SYSTEM76_GALAGO`, `SYSTEM76_KUDU`, `CLEVO_W740SU` -/
  clickfingerQuirk : Bool
  /-- touchpads: `QUIRK_MODEL_APPLE_TOUCHPAD` -/
  apple : Bool
  /-- touchpads: `QUIRK_MODEL_HP_PAVILION_DM4_TOUCHPAD` -/
  noTwoFinger : Bool
  /-- touchpads: `QUIRK_MODEL_ALPS_SERIAL_TOUCHPAD` -/
  alps : Bool
  /-- touchpads: `QUIRK_MODEL_LENOVO_X230` or `EVDEV_MODEL_LENOVO_X220_TOUCHPAD_FW81` -/
  x230 : Bool

/-- Whose functions are hooked up for the send-events mode. -/
inductive SendHook where
  | evdev | touchpad | pad
deriving DecidableEq, Repr

/-- Whose functions are hooked up for the scroll method. -/
inductive ScrollHook where
  | button | touchpad
deriving DecidableEq, Repr

/-- Whose functions are hooked up for middle button emulation. -/
inductive MiddleHook where
  | evdev | clickpad
deriving DecidableEq, Repr

/-- Whose functions are hooked up for the acceleration profile. -/
inductive ProfileHook where
  | evdev | touchpad | none
deriving DecidableEq, Repr

/-- The device: the hooks of `struct libinput_device_config` and the fields they work on.
`lockState` is `scroll.lock_state != BUTTONSCROLL_LOCK_DISABLED`; the other lock states, which all read as
enabled, are modelled in ButtonScroll. -/
structure Dev where
  hw : Hw
  /-- `EVDEV_DEVICE_POINTER` is in `seat_caps` -/
  pointer : Bool := false
  tapHook : Bool := false
  tapEnabled : Bool := false
  tapMap : Nat := TAP_MAP_LRM
  tapDrag : Bool := false
  tapDragLock : Bool := false
  calibrationHook : Bool := false
  userMatrix : Matrix := Matrix.identity
  defaultMatrix : Matrix := Matrix.identity
  sendHook : Option SendHook := none
  sendMode : Nat := SEND_EVENTS_ENABLED
  accelHook : Bool := false
  profileHook : ProfileHook := .evdev
  filter : Option Filter := none
  naturalHook : Bool := false
  natural : Bool := false
  leftHook : Bool := false
  leftWant : Bool := false
  leftEnabled : Bool := false
  clickHook : Bool := false
  clickMethod : Nat := CLICK_NONE
  middleHook : Option MiddleHook := none
  middleWant : Bool := false
  middleDefault : Bool := false
  scrollHook : Option ScrollHook := none
  tpScrollMethod : Nat := NO_SCROLL
  scrollWantMethod : Nat := NO_SCROLL
  scrollMethod : Nat := NO_SCROLL
  scrollWantButton : Nat := 0
  scrollButton : Nat := 0
  scrollWantLock : Bool := false
  scrollLock : Bool := false
  lockState : Bool := false
  dwtHook : Bool := false
  dwt : Bool := false
  rotationHook : Bool := false
  angle : Nat := 0

/-- `a & b` is not zero. -/
def hasBit (a b : Nat) : Bool := a &&& b != 0

/-! ### Setting the device up -/

/-- Models: /repo/src/evdev.c:1126-1135, /repo/src/evdev-mt-touchpad.c:3003-3012. -/
def accelSetSpeed (d : Dev) (v : Num) : Option (Status × Dev) :=
  match d.filter with
  | none => none
  | some f =>
    match f.setSpeed v with
    | none => none
    | some f' => some (.success, { d with filter := some f' })

/-- Models: /repo/src/evdev.c:1209-1231. -/
def initAcceleration (d : Dev) (f : Filter) : Option Dev :=
  if d.accelHook then some { d with filter := some f }
  else
    match accelSetSpeed { d with filter := some f, accelHook := true, profileHook := .evdev } (.fin 0) with
    | none => none
    | some (_, d') => some d'

/-- Models: /repo/src/evdev.c:1092-1116. -/
def initAccel (d : Dev) (which : Nat) : Option Dev :=
  initAcceleration d (Filter.new
    (if which = PROFILE_FLAT then .flat
     else if d.hw.trackpoint then .trackpoint
     else if d.hw.lowDpi then .lowDpi
     else .mouse))

/-- Models: /repo/src/evdev-mt-touchpad.c:2957-3001. -/
def tpInitAccel (d : Dev) (which : Nat) : Option Dev :=
  match initAcceleration d (Filter.new
    (if which = PROFILE_FLAT then .touchpadFlat
     else if d.hw.x230 then .x230
     else .touchpad)) with
  | none => none
  | some d' => some { d' with profileHook := .touchpad }

/-- Models: /repo/src/evdev.c:635-647. -/
def initLeftHanded (d : Dev) : Dev := { d with leftHook := true, leftEnabled := false, leftWant := false }

/-- Models: /repo/src/evdev.c:877-886. -/
def initNatural (d : Dev) : Dev := { d with naturalHook := true, natural := false }

/-- Models: /repo/src/evdev.c:819-829. -/
def initCalibration (d : Dev) : Dev := { d with calibrationHook := true }

/-- Models: /repo/src/evdev.c:677-693. -/
def scrollDefaultMethod (hw : Hw) : Nat :=
  if hw.trackpoint then SCROLL_ON_BUTTON_DOWN
  else if !hw.rel REL_WHEEL && !hw.rel REL_HWHEEL && hw.key BTN_MIDDLE then SCROLL_ON_BUTTON_DOWN
  else NO_SCROLL

/-- Models: /repo/src/evdev.c:717-735. -/
def scrollDefaultButton (hw : Hw) : Nat :=
  if hw.key BTN_MIDDLE then BTN_MIDDLE
  else
    match [0x113, 0x114, 0x115, 0x116, 0x117].find? hw.key with
    | some code => code
    | none => if hw.key BTN_RIGHT then BTN_RIGHT else 0

/-- Models: /repo/src/evdev.c:787-817. -/
def initButtonScroll (d : Dev) : Dev :=
  { d with
    scrollHook := some .button
    scrollMethod := scrollDefaultMethod d.hw
    scrollWantMethod := scrollDefaultMethod d.hw
    scrollButton := scrollDefaultButton d.hw
    scrollWantButton := scrollDefaultButton d.hw }

/-- Models: /repo/src/evdev-middle-button.c:698-726. -/
def initMiddle (d : Dev) (enable wantConfig : Bool) : Dev :=
  let d := { d with middleDefault := enable, middleWant := enable }
  if wantConfig then { d with middleHook := some .evdev } else d

/-- Models: /repo/src/evdev-mt-touchpad-tap.c:1424-1444. -/
def tapDefault (hw : Hw) : Bool := !hw.key BTN_LEFT

/-- Models: /repo/src/evdev-mt-touchpad-tap.c:1553-1588. -/
def initTap (d : Dev) : Dev :=
  { d with
    tapHook := true
    tapEnabled := tapDefault d.hw
    tapMap := TAP_MAP_LRM
    tapDrag := true
    tapDragLock := false }

/-- Models: /repo/src/evdev-mt-touchpad-buttons.c:733-750. -/
def clickMethods (hw : Hw) : Nat :=
  let methods := CLICK_NONE
  let methods :=
    if hw.clickpad then
      let methods := methods ||| CLICK_BUTTON_AREAS
      if hw.hasMt then methods ||| CLICK_CLICKFINGER else methods
    else methods
  if hw.onebutton then methods ||| CLICK_CLICKFINGER else methods

/-- Models: /repo/src/evdev-mt-touchpad-buttons.c:799-819. -/
def clickDefault (hw : Hw) : Nat :=
  if hw.clickfingerQuirk || hw.onebutton then CLICK_CLICKFINGER
  else if !hw.clickpad then CLICK_NONE
  else if hw.apple then CLICK_CLICKFINGER
  else CLICK_BUTTON_AREAS

/-- Models: /repo/src/evdev-mt-touchpad-buttons.c:904-936,
/repo/src/evdev-mt-touchpad-buttons.c:889-902. -/
def tpInitMiddle (d : Dev) : Dev :=
  if d.hw.clickpad then
    { d with middleDefault := false, middleWant := false, middleHook := some .clickpad }
  else if !d.hw.key BTN_MIDDLE then initMiddle d true false
  else if d.hw.alps then initMiddle d true true
  else d

/-- The part of `tp_init_buttons` about the configuration.
Models: /repo/src/evdev-mt-touchpad-buttons.c:970-1019. -/
def tpInitButtons (d : Dev) : Dev :=
  tpInitMiddle { d with clickHook := true, clickMethod := clickDefault d.hw }

/-- Models: /repo/src/evdev-mt-touchpad.c:3228-3242. -/
def tpInitDwt (d : Dev) : Dev :=
  if !d.hw.internal && !d.hw.tpkbBelow then d else { d with dwtHook := true, dwt := true }

/-- Models: /repo/src/evdev-mt-touchpad.c:3041-3057. -/
def tpScrollMethods (hw : Hw) : Nat :=
  let methods := SCROLL_EDGE
  if hw.noTwoFinger then SCROLL_EDGE
  else if hw.ntouches ≥ 2 then methods ||| SCROLL_2FG
  else methods

/-- Models: /repo/src/evdev-mt-touchpad.c:3096-3114. -/
def tpScrollDefault (hw : Hw) : Nat :=
  if hasBit (tpScrollMethods hw) SCROLL_2FG then SCROLL_2FG else SCROLL_EDGE

/-- Models: /repo/src/evdev-mt-touchpad.c:3125-3142. -/
def tpInitScroll (d : Dev) : Dev :=
  { initNatural d with scrollHook := some .touchpad, tpScrollMethod := tpScrollDefault d.hw }

/-- Models: /repo/src/evdev-mt-touchpad.c:3850-3863. -/
def tpInitLeft (d : Dev) : Dev := if d.hw.onebutton then d else initLeftHanded d

/-- Models: /repo/src/evdev-mt-touchpad.c:3631-3692, /repo/src/evdev-mt-touchpad.c:3865-3890. -/
def touchpadCreate (d : Dev) : Option Dev :=
  match tpInitAccel d PROFILE_ADAPTIVE with
  | none => none
  | some d =>
    let d := tpInitScroll (tpInitDwt (tpInitButtons (initTap d)))
    let d := { d with pointer := true }
    let d := { d with sendHook := some .touchpad, sendMode := SEND_EVENTS_ENABLED }
    some (tpInitLeft d)

/-- Models: /repo/src/evdev.c:831-842. -/
def initSendEvents (d : Dev) : Dev := { d with sendHook := some .evdev, sendMode := SEND_EVENTS_ENABLED }

/-- Models: /repo/src/evdev-tablet.c:2313-2337, /repo/src/evdev-totem.c:772-797. -/
def tabletInitAccel (d : Dev) : Option Dev :=
  match initAcceleration d (Filter.new .tablet) with
  | none => none
  | some d' => some { d' with profileHook := .none }

/-- Models: /repo/src/evdev-tablet.c:2422-2482. -/
def tabletCreate (d : Dev) : Option Dev :=
  let d := if d.hw.direct then initCalibration d else d
  match tabletInitAccel d with
  | none => none
  | some d =>
    let d := initSendEvents d
    some (if d.hw.reversible then initLeftHanded d else d)

/-- Models: /repo/src/evdev-totem.c:799-835. -/
def totemCreate (d : Dev) : Option Dev := tabletInitAccel (initSendEvents d)

/-- Models: /repo/src/evdev-tablet-pad.c:731-751. -/
def padCreate (d : Dev) : Option Dev :=
  let d := if d.hw.reversible then initLeftHanded d else d
  some { d with sendHook := some .pad, sendMode := SEND_EVENTS_ENABLED }

/-- Models: /repo/src/evdev-fallback.c:1560-1574. -/
def initRotation (d : Dev) : Dev := if d.hw.trackball then { d with rotationHook := true } else d

/-- Models: /repo/src/evdev-fallback.c:1711-1770. -/
def fallbackCreate (d : Dev) (wantLeft wantScroll wantNatural : Bool) : Dev :=
  let d := if wantLeft then initLeftHanded d else d
  let d := if wantScroll then initButtonScroll d else d
  let d := if wantNatural then initNatural d else d
  let d := initRotation (initSendEvents (initCalibration d))
  if d.hw.key BTN_LEFT && d.hw.key BTN_RIGHT then
    initMiddle d (!d.hw.key BTN_MIDDLE) (d.hw.key BTN_MIDDLE)
  else d

/-- The device before it is configured: `zalloc` and the three identity matrices.
Models: /repo/src/evdev.c:2205-2314. -/
def blank (hw : Hw) : Dev := { hw := hw }

/-- The configuration of a new device.  The wishes `left_handed.want_enabled`, `scroll.want_button` and
`scroll.natural_scrolling_enabled`, which the code keeps in the device, are passed as arguments.  Devices
that are refused are left out.  Models: /repo/src/evdev.c:1774-1960. -/
def configure (hw : Hw) : Option Dev :=
  match hw.kind with
  | .totem => totemCreate (blank hw)
  | .pad => padCreate (blank hw)
  | .tablet => tabletCreate (blank hw)
  | .touchpad => touchpadCreate (blank hw)
  | .fallback =>
    let wheel := hw.keyboardTag && (hw.rel REL_WHEEL || hw.rel REL_HWHEEL)
    let d := { blank hw with pointer := hw.mouseTag || wheel }
    let d? := if d.pointer && hw.rel REL_X && hw.rel REL_Y then initAccel d PROFILE_ADAPTIVE else some d
    match d? with
    | none => none
    | some d =>
      some (fallbackCreate d hw.mouseTag (hw.mouseTag && (hw.rel REL_X || hw.rel REL_Y))
        (hw.mouseTag || wheel))

/-- Models: /repo/src/evdev.c:2360-2422 (the matrix for the coordinates is not modelled). -/
def calibrate (d : Dev) (s : Six) : Dev := { d with userMatrix := Matrix.ofSix s }

/-- Models: /repo/src/evdev.c:2424-2451, /repo/src/evdev.c:2352-2358. -/
def readCalibration (d : Dev) : Dev :=
  match d.hw.udevMatrix with
  | none => d
  | some s => if d.hw.absXY then calibrate { d with defaultMatrix := Matrix.ofSix s } s else d

/-- A new device as the caller first sees it. -/
def create (hw : Hw) : Option Dev := (configure hw).map readCalibration

/-! ### What the caller can ask -/

/-- Models: /repo/src/libinput.c:3659-3663,
/repo/src/evdev-mt-touchpad-tap.c:1391-1398. -/
def tapFingerCount (d : Dev) : Nat := if d.tapHook then min d.hw.ntouches 3 else 0

/-- Models: /repo/src/libinput.c:3801-3806,
/repo/src/evdev.c:511-517. -/
def hasMatrix (d : Dev) : Bool := d.calibrationHook && d.hw.absXY

/-- Models: /repo/src/libinput.c:3838-3847,
/repo/src/evdev.c:552-556, /repo/src/evdev-mt-touchpad.c:3694-3704,
/repo/src/evdev-tablet-pad.c:685-689. -/
def sendModes (d : Dev) : Nat :=
  SEND_EVENTS_ENABLED |||
    match d.sendHook with
    | none => 0
    | some .evdev => SEND_EVENTS_DISABLED
    | some .pad => SEND_EVENTS_DISABLED
    | some .touchpad =>
      if d.hw.internal then SEND_EVENTS_DISABLED ||| SEND_EVENTS_DISABLED_ON_EXTERNAL_MOUSE
      else SEND_EVENTS_DISABLED

/-- Models: /repo/src/libinput.c:3878-3883. -/
def accelAvailable (d : Dev) : Bool := d.accelHook

/-- Models: /repo/src/libinput.c:3916-3923,
/repo/src/evdev.c:1151-1161, /repo/src/evdev-tablet.c:2288-2292,
/repo/src/evdev-totem.c:747-751. -/
def profiles (d : Dev) : Nat :=
  if accelAvailable d then
    match d.profileHook with
    | .none => PROFILE_NONE
    | _ => if d.filter.isNone then PROFILE_NONE else PROFILE_ADAPTIVE ||| PROFILE_FLAT
  else 0

/-- Models: /repo/src/libinput.c:4036-4043. -/
def getClickMethods (d : Dev) : Nat := if d.clickHook then clickMethods d.hw else 0

/-- Models: /repo/src/libinput.c:4087-4095. -/
def middleAvailable (d : Dev) : Bool := d.middleHook.isSome

/-- Models: /repo/src/libinput.c:4141-4148, /repo/src/evdev.c:649-653. -/
def getScrollMethods (d : Dev) : Nat :=
  match d.scrollHook with
  | none => 0
  | some .button => SCROLL_ON_BUTTON_DOWN
  | some .touchpad => tpScrollMethods d.hw

/-- `libinput_device_pointer_has_button` as a condition: `-1`, for a device that is no pointer, counts as
true.  Models: /repo/src/evdev.c:2544-2551. -/
def hasButton (d : Dev) (code : Nat) : Bool := if d.pointer then d.hw.key code else true

/-! ### The setters

`anyDown`: whether a button of the device is down when the call is made. -/

/-- Models: /repo/src/evdev-fallback.c:1506-1523,
/repo/src/evdev.c:777-785. -/
def changeScrollMethod (anyDown : Bool) (d : Dev) : Dev :=
  if d.scrollWantMethod = d.scrollMethod ∧ d.scrollWantButton = d.scrollButton ∧
      d.scrollWantLock = d.scrollLock then d
  else if anyDown then d
  else
    { d with
      scrollMethod := d.scrollWantMethod
      scrollButton := d.scrollWantButton
      scrollLock := d.scrollWantLock
      lockState := d.scrollWantLock }

/-- `change_to_left_handed`.  Simplification: the touchpad, tablet and pad each have their own test for "a
button is down"; `anyDown` stands for its result.  Models: /repo/src/evdev-fallback.c:1492-1504,
/repo/src/evdev-mt-touchpad.c:3773-3789. -/
def changeToLeftHanded (anyDown : Bool) (d : Dev) : Dev :=
  if d.leftWant = d.leftEnabled then d
  else if anyDown then d
  else { d with leftEnabled := d.leftWant }

/-- Models: /repo/src/libinput.c:3665-3679,
/repo/src/evdev-mt-touchpad-tap.c:1400-1412 (what it does to a tap under way is modelled in Tap). -/
def setTapEnabled (v : Nat) (d : Dev) : Option (Status × Dev) :=
  if v ≠ ENABLED ∧ v ≠ DISABLED then some (.invalid, d)
  else if tapFingerCount d = 0 then some (if v ≠ 0 then .unsupported else .success, d)
  else if d.tapHook then some (.success, { d with tapEnabled := decide (v = ENABLED) })
  else none

/-- Models: /repo/src/libinput.c:3699-3715,
/repo/src/evdev-mt-touchpad-tap.c:1454-1466. -/
def setTapMap (v : Nat) (d : Dev) : Option (Status × Dev) :=
  if v ≠ TAP_MAP_LRM ∧ v ≠ TAP_MAP_LMR then some (.invalid, d)
  else if tapFingerCount d = 0 then some (.unsupported, d)
  else if d.tapHook then some (.success, { d with tapMap := v })
  else none

/-- Models: /repo/src/libinput.c:3735-3748,
/repo/src/evdev-mt-touchpad-tap.c:1483-1493. -/
def setTapDrag (v : Nat) (d : Dev) : Option (Status × Dev) :=
  if v ≠ ENABLED ∧ v ≠ DISABLED then some (.invalid, d)
  else if tapFingerCount d = 0 then some (if v ≠ 0 then .unsupported else .success, d)
  else if d.tapHook then some (.success, { d with tapDrag := decide (v ≠ 0) })
  else none

/-- Models: /repo/src/libinput.c:3768-3781,
/repo/src/evdev-mt-touchpad-tap.c:1518-1528. -/
def setTapDragLock (v : Nat) (d : Dev) : Option (Status × Dev) :=
  if v ≠ ENABLED ∧ v ≠ DISABLED then some (.invalid, d)
  else if tapFingerCount d = 0 then some (if v ≠ 0 then .unsupported else .success, d)
  else if d.tapHook then some (.success, { d with tapDragLock := decide (v ≠ 0) })
  else none

/-- Models: /repo/src/libinput.c:3808-3816,
/repo/src/evdev.c:519-528. -/
def setCalibration (s : Six) (d : Dev) : Option (Status × Dev) :=
  if !hasMatrix d then some (.unsupported, d)
  else if d.calibrationHook then some (.success, calibrate d s)
  else none

/-- Models: /repo/src/evdev.c:558-582, /repo/src/evdev-tablet-pad.c:691-714 (switching
the device off and on is modelled in SendEvents). -/
def evdevSetMode (mode : Nat) (d : Dev) : Status × Dev :=
  if mode = d.sendMode then (.success, d)
  else if mode = SEND_EVENTS_ENABLED ∨ mode = SEND_EVENTS_DISABLED then
    (.success, { d with sendMode := mode })
  else (.unsupported, d)

/-- `mode &= ~DISABLED_ON_EXTERNAL_MOUSE` if both bits are set. -/
def foldMode (mode : Nat) : Nat :=
  if hasBit mode SEND_EVENTS_DISABLED && hasBit mode SEND_EVENTS_DISABLED_ON_EXTERNAL_MOUSE then
    mode - SEND_EVENTS_DISABLED_ON_EXTERNAL_MOUSE
  else mode

/-- Models: /repo/src/evdev-mt-touchpad.c:3721-3756 (switching the device off and on is modelled in
SendEvents). -/
def tpSetMode (mode : Nat) (d : Dev) : Status × Dev :=
  let mode := foldMode mode
  if mode = d.sendMode then (.success, d)
  else if mode = SEND_EVENTS_ENABLED ∨ mode = SEND_EVENTS_DISABLED ∨
      mode = SEND_EVENTS_DISABLED_ON_EXTERNAL_MOUSE then
    (.success, { d with sendMode := mode })
  else (.unsupported, d)

/-- Models: /repo/src/libinput.c:3849-3861. -/
def setSendEvents (mode : Nat) (d : Dev) : Option (Status × Dev) :=
  if sendModes d &&& mode ≠ mode then some (.unsupported, d)
  else
    match d.sendHook with
    | none => some (.success, d)
    | some .touchpad => some (tpSetMode mode d)
    | some _ => some (evdevSetMode mode d)

/-- Models: /repo/src/libinput.c:3885-3897. -/
def setSpeed (v : Num) (d : Dev) : Option (Status × Dev) :=
  if !inRange v then some (.invalid, d)
  else if !accelAvailable d then some (.unsupported, d)
  else accelSetSpeed d v

/-- A new filter in place of the old one, with its speed.  `init`: `evdev_init_accel` or `tp_init_accel`.
Models: /repo/src/evdev.c:1163-1187, /repo/src/evdev-mt-touchpad.c:3014-3039. -/
def changeProfile (init : Dev → Nat → Option Dev) (profile : Nat) (d : Dev) : Option (Status × Dev) :=
  match d.filter with
  | none => none
  | some f =>
    if f.kind.type = profile then some (.success, d)
    else
      match init { d with filter := none } profile with
      | none => none
      | some d' =>
        match accelSetSpeed d' f.speed with
        | none => none
        | some (_, d'') => some (.success, d'')

/-- Models: /repo/src/libinput.c:3943-3960,
/repo/src/evdev-tablet.c:2294-2299, /repo/src/evdev-totem.c:753-758. -/
def setProfile (profile : Nat) (d : Dev) : Option (Status × Dev) :=
  if profile ≠ PROFILE_FLAT ∧ profile ≠ PROFILE_ADAPTIVE then some (.invalid, d)
  else if !accelAvailable d || profiles d &&& profile = 0 then some (.unsupported, d)
  else
    match d.profileHook with
    | .none => some (.unsupported, d)
    | .evdev => changeProfile initAccel profile d
    | .touchpad => changeProfile tpInitAccel profile d

/-- Models: /repo/src/libinput.c:3971-3979,
/repo/src/evdev.c:850-859. -/
def setNatural (v : Int) (d : Dev) : Option (Status × Dev) :=
  if !d.naturalHook then some (.unsupported, d)
  else some (.success, { d with natural := decide (v ≠ 0) })

/-- Models: /repo/src/libinput.c:4008-4016, /repo/src/evdev.c:607-617. -/
def setLeft (anyDown : Bool) (v : Int) (d : Dev) : Option (Status × Dev) :=
  if !d.leftHook then some (.unsupported, d)
  else some (.success, changeToLeftHanded anyDown { d with leftWant := decide (v ≠ 0) })

/-- Models: /repo/src/libinput.c:4045-4067,
/repo/src/evdev-mt-touchpad-buttons.c:777-788 (the areas are modelled in SoftButtons). -/
def setClick (method : Nat) (d : Dev) : Option (Status × Dev) :=
  if method ≠ CLICK_NONE ∧ method ≠ CLICK_BUTTON_AREAS ∧ method ≠ CLICK_CLICKFINGER then some (.invalid, d)
  else if getClickMethods d &&& method ≠ method then some (.unsupported, d)
  else if d.clickHook then some (.success, { d with clickMethod := method })
  else some (.success, d)

/-- Models: /repo/src/libinput.c:4097-4119,
/repo/src/evdev-middle-button.c:656-676,
/repo/src/evdev-mt-touchpad-buttons.c:855-875 (when the change takes effect is modelled in
MiddleButton and SoftButtons). -/
def setMiddle (v : Nat) (d : Dev) : Option (Status × Dev) :=
  if v = DISABLED then
    if !middleAvailable d then some (.success, d) else some (.success, { d with middleWant := false })
  else if v = ENABLED then
    if !middleAvailable d then some (.unsupported, d) else some (.success, { d with middleWant := true })
  else some (.invalid, d)

/-- Models: /repo/src/libinput.c:4150-4173, /repo/src/evdev.c:655-665,
/repo/src/evdev-mt-touchpad.c:3068-3085. -/
def setScrollMethod (anyDown : Bool) (method : Nat) (d : Dev) : Option (Status × Dev) :=
  if method ≠ NO_SCROLL ∧ method ≠ SCROLL_2FG ∧ method ≠ SCROLL_EDGE ∧ method ≠ SCROLL_ON_BUTTON_DOWN then
    some (.invalid, d)
  else if getScrollMethods d &&& method ≠ method then some (.unsupported, d)
  else
    match d.scrollHook with
    | none => some (.success, d)
    | some .button => some (.success, changeScrollMethod anyDown { d with scrollWantMethod := method })
    | some .touchpad =>
      if method = d.tpScrollMethod then some (.success, d)
      else some (.success, { d with tpScrollMethod := method })

/-- Models: /repo/src/libinput.c:4193-4205, /repo/src/evdev.c:695-705. -/
def setScrollButton (anyDown : Bool) (button : Nat) (d : Dev) : Option (Status × Dev) :=
  if getScrollMethods d &&& SCROLL_ON_BUTTON_DOWN = 0 then some (.unsupported, d)
  else if button ≠ 0 ∧ !hasButton d button then some (.invalid, d)
  else
    match d.scrollHook with
    | some .button => some (.success, changeScrollMethod anyDown { d with scrollWantButton := button })
    | _ => none

/-- Models: /repo/src/libinput.c:4227-4244,
/repo/src/evdev.c:737-757. -/
def setScrollLock (anyDown : Bool) (v : Nat) (d : Dev) : Option (Status × Dev) :=
  if getScrollMethods d &&& SCROLL_ON_BUTTON_DOWN = 0 then some (.unsupported, d)
  else if v ≠ ENABLED ∧ v ≠ DISABLED then some (.invalid, d)
  else
    match d.scrollHook with
    | some .button =>
      some (.success, changeScrollMethod anyDown { d with scrollWantLock := decide (v = ENABLED) })
    | _ => none

/-- Models: /repo/src/libinput.c:4275-4288, /repo/src/evdev-mt-touchpad.c:3150-3168. -/
def setDwt (v : Nat) (d : Dev) : Option (Status × Dev) :=
  if v ≠ ENABLED ∧ v ≠ DISABLED then some (.invalid, d)
  else if !d.dwtHook then some (if v ≠ 0 then .unsupported else .success, d)
  else some (.success, { d with dwt := decide (v = ENABLED) })

/-- Models: /repo/src/libinput.c:4317-4329,
/repo/src/evdev-fallback.c:1532-1543. -/
def setRotation (degrees : Nat) (d : Dev) : Option (Status × Dev) :=
  if !d.rotationHook then some (if degrees ≠ 0 then .unsupported else .success, d)
  else if degrees ≥ 360 ∨ degrees % 90 ≠ 0 then some (.invalid, d)
  else some (.success, { d with angle := degrees })

/-! ### Calls -/

/-- A call of a setter with its argument.  Enums and unsigned arguments are any number, `int` arguments any
integer. -/
inductive Call where
  | tapEnabled (v : Nat)
  | tapMap (v : Nat)
  | tapDrag (v : Nat)
  | tapDragLock (v : Nat)
  | calibration (m : Six)
  | sendEvents (mode : Nat)
  | speed (v : Num)
  | profile (v : Nat)
  | natural (v : Int)
  | leftHanded (v : Int)
  | clickMethod (v : Nat)
  | middleEmulation (v : Nat)
  | scrollMethod (v : Nat)
  | scrollButton (button : Nat)
  | scrollButtonLock (v : Nat)
  | dwt (v : Nat)
  | rotation (degrees : Nat)
deriving DecidableEq, Repr

/-- One call. -/
def set (anyDown : Bool) (c : Call) (d : Dev) : Option (Status × Dev) :=
  match c with
  | .tapEnabled v => setTapEnabled v d
  | .tapMap v => setTapMap v d
  | .tapDrag v => setTapDrag v d
  | .tapDragLock v => setTapDragLock v d
  | .calibration m => setCalibration m d
  | .sendEvents mode => setSendEvents mode d
  | .speed v => setSpeed v d
  | .profile v => setProfile v d
  | .natural v => setNatural v d
  | .leftHanded v => setLeft anyDown v d
  | .clickMethod v => setClick v d
  | .middleEmulation v => setMiddle v d
  | .scrollMethod v => setScrollMethod anyDown v d
  | .scrollButton b => setScrollButton anyDown b d
  | .scrollButtonLock v => setScrollLock anyDown v d
  | .dwt v => setDwt v d
  | .rotation v => setRotation v d

/-- A setting that can be read. -/
inductive Setting where
  | tapEnabled | tapMap | tapDrag | tapDragLock | calibration | sendEvents | speed | profile | natural
  | leftHanded | clickMethod | middleEmulation | scrollMethod | scrollButton | scrollButtonLock | dwt | rotation
deriving DecidableEq, Repr

/-- What a getter returns: a number, a speed, or a matrix with the return value of the call.  A matrix that
is not written is `none`. -/
inductive Value where
  | num (n : Nat)
  | real (v : Num)
  | matrix (m : Option Six) (notIdentity : Bool)
deriving DecidableEq, Repr

/-- A `bool` as a number. -/
def bit (b : Bool) : Nat := if b then 1 else 0

/-- Every getter.  `none`: a hook that is not set is called.
Models: the `libinput_device_config_*_get*` functions, /repo/src/libinput.c:3682-4339, and the functions of
the hooks: /repo/src/evdev-mt-touchpad-tap.c:1414-1422, /repo/src/evdev-mt-touchpad-tap.c:1468-1475,
/repo/src/evdev-mt-touchpad-tap.c:1495-1502,
/repo/src/evdev-mt-touchpad-tap.c:1530-1537, /repo/src/evdev.c:530-539,
/repo/src/evdev.c:584-591, /repo/src/evdev.c:1137-1143,
/repo/src/evdev.c:1189-1195, /repo/src/evdev-tablet.c:2301-2305,
/repo/src/evdev.c:861-867, /repo/src/evdev.c:619-627,
/repo/src/evdev-mt-touchpad-buttons.c:790-797,
/repo/src/evdev-middle-button.c:678-686, /repo/src/evdev.c:667-675,
/repo/src/evdev-mt-touchpad.c:3087-3094, /repo/src/evdev.c:707-715,
/repo/src/evdev.c:759-768, /repo/src/evdev-mt-touchpad.c:3170-3179,
/repo/src/evdev-fallback.c:1545-1552. -/
def get (d : Dev) : Setting → Option Value
  | .tapEnabled => some (.num (if tapFingerCount d = 0 then DISABLED else bit d.tapEnabled))
  | .tapMap => some (.num (if tapFingerCount d = 0 then TAP_MAP_LRM else d.tapMap))
  | .tapDrag => some (.num (if tapFingerCount d = 0 then DISABLED else bit d.tapDrag))
  | .tapDragLock => some (.num (if tapFingerCount d = 0 then DISABLED else bit d.tapDragLock))
  | .calibration =>
    some (if hasMatrix d then .matrix (some d.userMatrix.toSix) (!d.userMatrix.isIdentity)
      else .matrix none false)
  | .sendEvents => some (.num (if d.sendHook.isSome then d.sendMode else SEND_EVENTS_ENABLED))
  | .speed =>
    if accelAvailable d then
      match d.filter with
      | none => none
      | some f => some (.real f.speed)
    else some (.real (.fin 0))
  | .profile =>
    if accelAvailable d then
      match d.profileHook with
      | .none => some (.num PROFILE_NONE)
      | _ =>
        match d.filter with
        | none => none
        | some f => some (.num f.kind.type)
    else some (.num PROFILE_NONE)
  | .natural => some (.num (if d.naturalHook then bit d.natural else 0))
  | .leftHanded => some (.num (if d.leftHook then bit d.leftWant else 0))
  | .clickMethod => some (.num (if d.clickHook then d.clickMethod else CLICK_NONE))
  | .middleEmulation => some (.num (if middleAvailable d then bit d.middleWant else DISABLED))
  | .scrollMethod =>
    match d.scrollHook with
    | none => some (.num NO_SCROLL)
    | some .button => some (.num d.scrollWantMethod)
    | some .touchpad => some (.num d.tpScrollMethod)
  | .scrollButton =>
    if getScrollMethods d &&& SCROLL_ON_BUTTON_DOWN = 0 then some (.num 0)
    else
      match d.scrollHook with
      | some .button => some (.num d.scrollWantButton)
      | _ => none
  | .scrollButtonLock =>
    if getScrollMethods d &&& SCROLL_ON_BUTTON_DOWN = 0 then some (.num DISABLED)
    else
      match d.scrollHook with
      | some .button => some (.num (bit d.lockState))
      | _ => none
  | .dwt => some (.num (if d.dwtHook then bit d.dwt else DISABLED))
  | .rotation => some (.num (if d.rotationHook then d.angle else 0))

/-- Every `get_default` call.
Models: the `libinput_device_config_*_get_default*` functions, /repo/src/libinput.c:3691-4347, and their
hooks. -/
def getDefault (d : Dev) : Setting → Option Value
  | .tapEnabled => some (.num (if tapFingerCount d = 0 then DISABLED else bit (tapDefault d.hw)))
  | .tapMap => some (.num TAP_MAP_LRM)
  | .tapDrag => some (.num (if tapFingerCount d = 0 then DISABLED else ENABLED))
  | .tapDragLock => some (.num DISABLED)
  | .calibration =>
    some (if hasMatrix d then .matrix (some d.defaultMatrix.toSix) (!d.defaultMatrix.isIdentity)
      else .matrix none false)
  | .sendEvents => some (.num SEND_EVENTS_ENABLED)
  | .speed => some (.real (.fin 0))
  | .profile =>
    some (.num (if accelAvailable d then
        match d.profileHook with
        | .none => PROFILE_NONE
        | _ => if d.filter.isNone then PROFILE_NONE else PROFILE_ADAPTIVE
      else PROFILE_NONE))
  | .natural => some (.num 0)
  | .leftHanded => some (.num 0)
  | .clickMethod => some (.num (if d.clickHook then clickDefault d.hw else CLICK_NONE))
  | .middleEmulation => some (.num (if middleAvailable d then bit d.middleDefault else DISABLED))
  | .scrollMethod =>
    some (.num (match d.scrollHook with
      | none => NO_SCROLL
      | some .button => scrollDefaultMethod d.hw
      | some .touchpad => tpScrollDefault d.hw))
  | .scrollButton =>
    if getScrollMethods d &&& SCROLL_ON_BUTTON_DOWN = 0 then some (.num 0)
    else
      match d.scrollHook with
      | some .button => some (.num (scrollDefaultButton d.hw))
      | _ => none
  | .scrollButtonLock => some (.num DISABLED)
  | .dwt => some (.num (if d.dwtHook then ENABLED else DISABLED))
  | .rotation => some (.num 0)

/-- What can happen to the configuration: a call while a button is down or not, or the release of a button,
after which the code looks whether a change can take effect (`anyDown`: another one is still down).
Models: /repo/src/evdev.c:165-188 for the release. -/
inductive Op where
  | call (anyDown : Bool) (c : Call)
  | released (anyDown : Bool)
deriving DecidableEq, Repr

def step (d : Dev) : Op → Option Dev
  | .call anyDown c => (set anyDown c d).map Prod.snd
  | .released anyDown =>
    let d := if d.leftHook then changeToLeftHanded anyDown d else d
    some (if d.scrollHook = some .button then changeScrollMethod anyDown d else d)

/-- A history of a device. -/
def run (hw : Hw) (ops : List Op) : Option Dev :=
  match create hw with
  | none => none
  | some d => ops.foldlM step d

end Libinput.Config
