/-
Tablet tools: which object stands for which physical tool, and what the application is told a tool can do
(`/repo/src/evdev-tablet.c`, `/repo/src/evdev-totem.c`, `/repo/src/libinput.c`).

The context keeps one list of tools with serial numbers, every tablet keeps its own tools without.  Tools are objects
that the application can compare; here an object is its creation number.  References are left to `Refs`, the
proximity of tools to `Tablet`: here only the question which tool a frame is about, and what is known of it.
-/
namespace Libinput.Tools

/-- `enum libinput_tablet_tool_type`.  Models: /repo/src/libinput.h:339-351. -/
inductive Kind where
  | pen | eraser | brush | pencil | airbrush | mouse | lens | totem
  deriving DecidableEq, Repr

/-- `enum libinput_tablet_tool_axis`.  Models: /repo/src/libinput-private.h:342-354. -/
inductive Axis where
  | x | y | distance | pressure | tiltX | tiltY | rotation | slider | wheel | major | minor
  deriving DecidableEq, Repr

/-- The range of an absolute axis (`struct input_absinfo`, of the kernel).  Models: /repo/src/evdev-tablet.c:1067-1071. -/
structure Range where
  min : Int
  max : Int
  deriving DecidableEq, Repr

/-- What libwacom knows of a tool (`WacomStylus`), as far as it is asked.  Models: /repo/src/evdev-tablet.c:948-987. -/
structure Stylus where
  puck : Bool
  buttons : Int
  wheel : Bool
  tilt : Bool
  rotation : Bool
  distance : Bool
  slider : Bool
  pressure : Bool
  deriving DecidableEq, Repr

/-- What the kernel and the quirks files say of a tablet: its absolute axes with their ranges, whether it has a
relative wheel, its keys, its vendor, whether `evdev_device_get_size` succeeds, and `AttrPressureRange`.
Models: /repo/src/evdev-tablet.c:2399-2407, /repo/src/evdev-tablet.c:1100-1100. -/
structure Device where
  abs : Nat → Option Range
  wheel : Bool
  key : Nat → Bool
  vendor : Nat
  sized : Bool
  quirk : Option (Int × Int)

/-- `struct libinput_tablet_tool`; `obj` is the object's identity.  The bit arrays `axis_caps` and `buttons` are
functions.  Models: /repo/src/libinput-private.h:371-388. -/
structure Tool where
  obj : Nat
  kind : Kind
  serial : Nat
  toolId : Nat
  axes : Axis → Bool
  buttons : Nat → Bool
  lower : Int
  upper : Int
  offset : Int

/-- `struct tablet_dispatch`: the device as libinput uses it, `axis_caps`, the tools without serial number and
`current_tool`.  Models: /repo/src/evdev-tablet.h:56-116. -/
structure Tablet where
  uid : Nat
  dev : Device
  caps : Axis → Bool
  own : List Tool := []
  kind : Option Kind := none
  id : Nat := 0
  serial : Nat := 0

/-- One frame that was about a tool: on which tablet, what the kernel said the tool is, and the tool object that the
events of this frame carry.  It is not kept by the code.  Models: /repo/src/evdev-tablet.c:1876-1888. -/
structure Told where
  uid : Nat
  dev : Device
  kind : Kind
  id : Nat
  serial : Nat
  tool : Tool

/-- The context's `tool_list`, the tablets, and everything told so far.  Models: /repo/src/libinput-private.h:141-141. -/
structure State where
  objs : Nat := 0
  uids : Nat := 0
  shared : List Tool := []
  tablets : List Tablet := []
  told : List Told := []

/-! The kernel's codes, used in: /repo/src/evdev-tablet.h:180-221, /repo/src/evdev-tablet.c:927-1065,
/repo/src/evdev-tablet.c:2396-2452. -/

def absX : Nat := 0
def absY : Nat := 1
def absZ : Nat := 2
def absWheel : Nat := 8
def absPressure : Nat := 0x18
def absDistance : Nat := 0x19
def absTiltX : Nat := 0x1a
def absTiltY : Nat := 0x1b
def absMajor : Nat := 0x30
def absMinor : Nat := 0x31
def btn0 : Nat := 0x100
def btnLeft : Nat := 0x110
def btnRight : Nat := 0x111
def btnMiddle : Nat := 0x112
def btnSide : Nat := 0x113
def btnExtra : Nat := 0x114
def btnToolPen : Nat := 0x140
def btnToolMouse : Nat := 0x146
def btnToolLens : Nat := 0x147
def btnStylus : Nat := 0x14b
def btnStylus2 : Nat := 0x14c
def wacom : Nat := 0x56a

/-- `axis_to_evcode`; the wheel is not an absolute axis and never gets here.
Models: /repo/src/evdev-tablet.h:180-221. -/
def Axis.code : Axis → Nat
  | .x => absX
  | .y => absY
  | .distance => absDistance
  | .pressure => absPressure
  | .tiltX => absTiltX
  | .tiltY => absTiltY
  | .rotation => absZ
  | .slider => absWheel
  | .major => absMajor
  | .minor => absMinor
  | .wheel => 0

/-- `libevdev_has_event_code` for an absolute axis.  Models: /repo/src/evdev-tablet.c:166-170. -/
def Device.has (d : Device) (c : Nat) : Bool := (d.abs c).isSome

/-- `tablet_device_has_axis`.  Models: /repo/src/evdev-tablet.c:139-173. -/
def Device.hasAxis (d : Device) : Axis → Bool
  | .rotation => (d.key btnToolMouse && d.has absTiltX && d.has absTiltY) || d.has (Axis.rotation.code)
  | .wheel => d.wheel
  | a => d.has a.code

/-- `tablet_reject_device`.  Models: /repo/src/evdev-tablet.c:2396-2420. -/
def Device.rejected (d : Device) : Bool :=
  !(d.has absX && d.has absY && (d.key btnToolPen || d.key btnStylus) && d.sized)

/-- What `tablet_init` makes of the device: it always has a pen, and only Wacom's have mouse and lens.
Models: /repo/src/evdev-tablet.c:2422-2452. -/
def Device.prepare (d : Device) : Device :=
  { d with
    key := fun c =>
      if d.vendor ≠ wacom ∧ (c = btnToolMouse ∨ c = btnToolLens) then false
      else if c = btnToolPen then true
      else d.key c }

/-- `tablet_init`: the axes the tablet has.  Models: /repo/src/evdev-tablet.c:2422-2482. -/
def Tablet.init (uid : Nat) (d : Device) : Tablet :=
  { uid := uid, dev := d.prepare, caps := d.prepare.hasAxis }

/-- `set_bit` on the tool's axes.  Models: /repo/src/util-bits.h:51-55. -/
def Tool.setAxis (t : Tool) (a : Axis) : Tool := { t with axes := fun b => t.axes b || decide (b = a) }

/-- The same on its buttons.  Models: /repo/src/util-bits.h:51-55. -/
def Tool.setButton (t : Tool) (c : Nat) : Tool := { t with buttons := fun b => t.buttons b || decide (b = c) }

/-- `copy_axis_cap`.  Models: /repo/src/evdev-tablet.c:908-915. -/
def copyAxis (b : Tablet) (a : Axis) (t : Tool) : Tool := if b.caps a then t.setAxis a else t

/-- `copy_button_cap`.  Models: /repo/src/evdev-tablet.c:917-925. -/
def copyButton (b : Tablet) (c : Nat) (t : Tool) : Tool := if b.dev.key c then t.setButton c else t

/-- The loop over a puck's buttons, `n` of them from `BTN_LEFT` on.  Models: /repo/src/evdev-tablet.c:949-953. -/
def copyPuckButtons (b : Tablet) : Nat → Tool → Tool
  | 0, t => t
  | n + 1, t => copyButton b (btnLeft + n) (copyPuckButtons b n t)

/-- `tool_set_bits_from_libwacom` for a tool that libwacom knows.  Models: /repo/src/evdev-tablet.c:927-992. -/
def setKnown (b : Tablet) (s : Stylus) (t : Tool) : Tool :=
  let t :=
    if s.puck then copyPuckButtons b s.buttons.toNat t
    else
      let t := if s.buttons ≥ 2 then copyButton b btnStylus2 t else t
      if s.buttons ≥ 1 then copyButton b btnStylus t else t
  let t := if s.wheel then copyAxis b .wheel t else t
  let t :=
    if s.tilt then
      if s.puck then t.setAxis .rotation
      else copyAxis b .tiltY (copyAxis b .tiltX t)
    else t
  let t := if s.rotation then copyAxis b .rotation t else t
  let t := if s.distance then copyAxis b .distance t else t
  let t := if s.slider then copyAxis b .slider t else t
  if s.pressure then copyAxis b .pressure t else t

/-- The axes of the pen-like tools.  Models: /repo/src/evdev-tablet.c:1012-1033. -/
def penAxes (b : Tablet) (t : Tool) : Tool :=
  let t := copyAxis b .pressure t
  let t := copyAxis b .distance t
  let t := copyAxis b .tiltX t
  let t := copyAxis b .tiltY t
  let t := copyAxis b .slider t
  if b.dev.has absZ then copyAxis b .rotation t else t

/-- Their buttons.  Models: /repo/src/evdev-tablet.c:1046-1053. -/
def penButtons (b : Tablet) (t : Tool) : Tool := copyButton b btnStylus2 (copyButton b btnStylus t)

/-- The axes of mouse and lens.  Models: /repo/src/evdev-tablet.c:1034-1038. -/
def mouseAxes (b : Tablet) (t : Tool) : Tool := copyAxis b .wheel (copyAxis b .rotation t)

/-- Their buttons.  Models: /repo/src/evdev-tablet.c:1054-1061. -/
def mouseButtons (b : Tablet) (t : Tool) : Tool :=
  copyButton b btnExtra (copyButton b btnSide (copyButton b btnRight (copyButton b btnMiddle (copyButton b btnLeft t))))

/-- The rest of `tool_set_bits`, when libwacom does not know the tool.  Models: /repo/src/evdev-tablet.c:1007-1064. -/
def setUnknown (b : Tablet) (t : Tool) : Tool :=
  let t :=
    match t.kind with
    | .pen => penAxes b t
    | .eraser => penAxes b t
    | .pencil => penAxes b t
    | .brush => penAxes b t
    | .airbrush => penAxes b t
    | .mouse => mouseAxes b t
    | .lens => mouseAxes b t
    | .totem => t
  match t.kind with
  | .pen => penButtons b t
  | .brush => penButtons b t
  | .airbrush => penButtons b t
  | .pencil => penButtons b t
  | .eraser => penButtons b t
  | .mouse => mouseButtons b t
  | .lens => mouseButtons b t
  | .totem => t

/-- `tool_set_bits`.  Models: /repo/src/evdev-tablet.c:994-1065. -/
def setBits (db : Nat → Option Stylus) (b : Tablet) (t : Tool) : Tool :=
  let t := copyAxis b .y (copyAxis b .x t)
  match db t.toolId with
  | some s => setKnown b s t
  | none => setUnknown b t

/-- `axis_range_percentage`: the double is cut off towards zero when it becomes an `int`.
Models: /repo/src/evdev-tablet.c:1067-1071. -/
def percent (r : Range) (p : Int) : Int := ((r.max - r.min) * p + 100 * r.min).tdiv 100

/-- `tool_set_pressure_thresholds`.  Models: /repo/src/evdev-tablet.c:1073-1114. -/
def setThresholds (b : Tablet) (t : Tool) : Tool :=
  match b.dev.abs absPressure with
  | none => { t with offset := 0, lower := 0, upper := 1 }
  | some r =>
    let t := { t with offset := r.min, upper := percent r 5, lower := percent r 1 }
    match b.dev.quirk with
    | none => t
    | some (lo, hi) => if lo ≥ hi then t else { t with upper := hi, lower := lo }

/-- A tool that nothing is known of yet.  Models: /repo/src/evdev-tablet.c:1166-1173. -/
def blank (obj : Nat) (k : Kind) (id serial : Nat) : Tool :=
  { obj := obj, kind := k, serial := serial, toolId := id, axes := fun _ => false, buttons := fun _ => false,
    lower := 0, upper := 0, offset := 0 }

/-- The new tool of `tablet_get_tool`.  Models: /repo/src/evdev-tablet.c:1165-1177. -/
def newTool (db : Nat → Option Stylus) (b : Tablet) (obj : Nat) (k : Kind) (id serial : Nat) : Tool :=
  setBits db b (setThresholds b (blank obj k id serial))

/-- Looking the tool up in the context's list.  Models: /repo/src/evdev-tablet.c:1126-1135. -/
def findShared (s : State) (k : Kind) (serial : Nat) : Option Tool :=
  if serial ≠ 0 then s.shared.find? (fun t => decide (t.kind = k) && decide (t.serial = serial)) else none

/-- Looking it up in the tablet's list.  Models: /repo/src/evdev-tablet.c:1142-1155. -/
def findOwn (b : Tablet) (k : Kind) : Option Tool := b.own.find? (fun t => decide (t.kind = k))

/-- Changing one tablet; tablets are found by number instead of by pointer.  Models: /repo/src/evdev-tablet.h:56-116. -/
def State.update (s : State) (u : Nat) (f : Tablet → Tablet) : State :=
  { s with tablets := s.tablets.map (fun b => if b.uid = u then f b else b) }

/-- The tablet with that number.  Models: /repo/src/evdev-tablet.h:56-116. -/
def State.find (s : State) (u : Nat) : Option Tablet := s.tablets.find? (fun b => decide (b.uid = u))

/-- A new tool goes into the list it would have been found in (`list_insert` puts it first).
Models: /repo/src/evdev-tablet.c:1157-1179. -/
def addTool (s : State) (b : Tablet) (t : Tool) : State :=
  let s := { s with objs := s.objs + 1 }
  if t.serial ≠ 0 then { s with shared := t :: s.shared }
  else s.update b.uid (fun b => { b with own := t :: b.own })

/-- `tablet_get_tool`.  Models: /repo/src/evdev-tablet.c:1116-1182. -/
def getTool (db : Nat → Option Stylus) (s : State) (b : Tablet) (k : Kind) (id serial : Nat) : State × Tool :=
  match findShared s k serial with
  | some t => (s, t)
  | none =>
    match findOwn b k with
    | some t => (s, t)
    | none => (addTool s b (newTool db b s.objs k id serial), newTool db b s.objs k id serial)

/-- A 32-bit value of the kernel as an unsigned number.  Models: /repo/src/evdev-tablet.c:894-894. -/
def wrap (v : Int) : Nat := (v % 4294967296).toNat

/-- `totem_new_tool`.  Models: /repo/src/evdev-totem.c:76-106. -/
def totemTool (obj : Nat) : Tool :=
  let t := { blank obj .totem 0 0 with lower := 0, upper := 1 }
  (((((t.setAxis .x).setAxis .y).setAxis .rotation).setAxis .major).setAxis .minor).setButton btn0

/-- What happens, as far as it concerns the identity of tools.  Models: /repo/src/evdev-tablet.c:1863-1888,
/repo/src/evdev-tablet.c:2097-2114, /repo/src/evdev-tablet.c:2422-2482, /repo/src/evdev-totem.c:76-106. -/
inductive Op where
  /-- a tablet is plugged in -/
  | add (d : Device)
  /-- it is removed and its dispatch destroyed -/
  | remove (u : Nat)
  /-- `MSC_SERIAL` -/
  | serial (u : Nat) (v : Int)
  /-- `ABS_MISC` -/
  | toolId (u : Nat) (v : Int)
  /-- a tool key goes down -/
  | tool (u : Nat) (k : Kind)
  /-- a tool is found in proximity when the device is added -/
  | already (u : Nat) (k : Kind) (v : Int)
  /-- `SYN_REPORT` -/
  | frame (u : Nat)
  /-- a totem is put on a screen -/
  | totem

/-- `tablet_flush`, as far as finding the tool goes: `tablet_get_current_tool`.
Models: /repo/src/evdev-tablet.c:1863-1888. -/
def flush (db : Nat → Option Stylus) (s : State) (u : Nat) : State :=
  match s.find u with
  | none => s
  | some b =>
    match b.kind with
    | none => s
    | some k =>
      let r := getTool db s b k b.id b.serial
      { r.1 with told := s.told ++ [⟨u, b.dev, k, b.id, b.serial, r.2⟩] }

/-- One step.  `serial`: `tablet_process_misc` (/repo/src/evdev-tablet.c:885-906); `toolId`: `ABS_MISC` in
`tablet_process_absolute` (/repo/src/evdev-tablet.c:205-260); `tool`: `tablet_update_tool`
(/repo/src/evdev-tablet.c:316-332), which no key calls with a totem; `already`: `tablet_check_initial_proximity`
(/repo/src/evdev-tablet.c:2172-2214); `remove`: `tablet_destroy` (/repo/src/evdev-tablet.c:2097-2114); the others as
above.  A tool's kind, id and serial number stay in place when it leaves. -/
def step (db : Nat → Option Stylus) (s : State) : Op → State
  | .add d =>
    if d.rejected then s
    else { s with uids := s.uids + 1, tablets := Tablet.init s.uids d :: s.tablets }
  | .remove u => { s with tablets := s.tablets.filter (fun b => decide (b.uid ≠ u)) }
  | .serial u v => if v = -1 then s else s.update u (fun b => { b with serial := wrap v })
  | .toolId u v => s.update u (fun b => { b with id := wrap v })
  | .tool u k => if k = .totem then s else s.update u (fun b => { b with kind := some k })
  | .already u k v =>
    if k = .totem then s else s.update u (fun b => { b with kind := some k, id := wrap v, serial := 0 })
  | .frame u => flush db s u
  | .totem => { s with objs := s.objs + 1, shared := totemTool s.objs :: s.shared }

/-- Any sequence of them.  Models: /repo/src/evdev-tablet.c:1863-1888. -/
def run (db : Nat → Option Stylus) (s : State) (ops : List Op) : State := ops.foldl (step db) s

/-! ### What the application asks -/

/-- `libinput_tablet_tool_get_type`, `_get_tool_id`, `_get_serial`, `_is_unique`.
Models: /repo/src/libinput.c:1556-1578. -/
def Tool.isUnique (t : Tool) : Bool := t.serial != 0

/-- `libinput_tablet_tool_has_pressure` and the others.  Models: /repo/src/libinput.c:1580-1585. -/
def Tool.hasPressure (t : Tool) : Bool := t.axes .pressure
/-- Models: /repo/src/libinput.c:1587-1592. -/
def Tool.hasDistance (t : Tool) : Bool := t.axes .distance
/-- Models: /repo/src/libinput.c:1594-1599. -/
def Tool.hasTilt (t : Tool) : Bool := t.axes .tiltX
/-- Models: /repo/src/libinput.c:1601-1606. -/
def Tool.hasRotation (t : Tool) : Bool := t.axes .rotation
/-- Models: /repo/src/libinput.c:1608-1613. -/
def Tool.hasSlider (t : Tool) : Bool := t.axes .slider
/-- Models: /repo/src/libinput.c:1615-1620. -/
def Tool.hasWheel (t : Tool) : Bool := t.axes .wheel
/-- Models: /repo/src/libinput.c:1622-1627. -/
def Tool.hasSize (t : Tool) : Bool := t.axes .major

/-- `libinput_tablet_tool_has_button`, for the 32-bit codes: `none` where C leaves the answer open, because the byte
is past the array's 97 or because the shift is by a negative number.
Models: /repo/src/libinput.c:1629-1637, /repo/src/util-bits.h:38-49, /repo/src/libinput-private.h:377-377. -/
def Tool.hasButton (t : Tool) (code : Nat) : Option Bool :=
  if ((code + 7) % 4294967296) / 8 > 97 then some false
  else if code ≥ 2147483648 then none
  else if code / 8 ≥ 97 then none
  else some (t.buttons code)

/-! ### Reading the axes when a tool comes near -/

/-- The axes that `tablet_check_notify_axes` fetches from the device after `tablet_mark_all_axes_changed`, when a tool
comes into proximity: `x`/`y` in `tablet_update_xy`, then pressure, distance, slider, both tilts if either is to be
told, and `ABS_Z` for the rotation of anything but mouse and lens.
Models: /repo/src/evdev-tablet.c:1408-1419, /repo/src/evdev-tablet.c:461-652, /repo/src/evdev-tablet.c:696-730. -/
def Tool.reads (t : Tool) : List Nat :=
  (if t.axes .x || t.axes .y then [absX, absY] else []) ++
  (if t.axes .pressure then [absPressure] else []) ++
  (if t.axes .distance then [absDistance] else []) ++
  (if t.axes .slider then [absWheel] else []) ++
  (if t.axes .tiltX || t.axes .tiltY then [absTiltX, absTiltY] else []) ++
  (if t.kind = .mouse ∨ t.kind = .lens then [] else if t.axes .rotation then [absZ] else [])

/-- Whether all of them exist: `libevdev_get_abs_info` returns `NULL` for one that does not, and nobody looks.
Models: /repo/src/evdev-tablet.c:534-613. -/
def readsFine (d : Device) (t : Tool) : Bool := t.reads.all d.has

end Libinput.Tools
