/-
A graphics tablet: what becomes of the kernel's events of a pen, eraser, airbrush, puck or lens cursor.
One operation is one frame of kernel events (the kernel hands frames over whole), a fired timer, a suspension, a
resumption, or a change of a setting.
Left out: relative motion (`delta`), the arbitration rectangle, and the log messages.
Values the C code computes in `double` are exact rationals here; the two conversions that need pi or `atan2` are
parameters of the configuration, as are the calibration matrix and libwacom's database.
-/
namespace Libinput.Tablet

/-- `enum libinput_tablet_tool_axis`, without the two axes of the totem.
Models: /repo/src/libinput-private.h:342-354. -/
inductive Axis where
  | x | y | distance | pressure | tiltX | tiltY | rotation | slider | wheel
deriving DecidableEq, Repr

/-- `enum libinput_tablet_tool_type`, without the totem.  Models: /repo/src/libinput.h:339-351. -/
inductive Kind where
  | pen | eraser | brush | pencil | airbrush | mouse | lens
deriving DecidableEq, Repr

/-- The value of the enumerator, which is also the number of its bit in `tool_state`.
Models: /repo/src/libinput.h:339-351. -/
def Kind.num : Kind → Nat
  | .pen => 1 | .eraser => 2 | .brush => 3 | .pencil => 4 | .airbrush => 5 | .mouse => 6 | .lens => 7

/-- `bit(type)`. -/
def Kind.bit (k : Kind) : Nat := 1 <<< k.num

/-- The tools that lie on the tablet and report a distance all the time. -/
def Kind.isCursor : Kind → Bool
  | .mouse | .lens => true
  | _ => false

/-- `tablet_evcode_to_tool`, for the seven codes that name a tool.  Models: /repo/src/evdev-tablet.c:787-805. -/
def toolOfCode : Nat → Option Kind
  | 320 => some .pen
  | 321 => some .eraser
  | 322 => some .brush
  | 323 => some .pencil
  | 324 => some .airbrush
  | 326 => some .mouse
  | 327 => some .lens
  | _ => none

/-- The codes `tablet_update_button` accepts: `BTN_LEFT` to `BTN_TASK`, `BTN_STYLUS` and `BTN_STYLUS2`.
Models: /repo/src/evdev-tablet.c:753-785. -/
def isButton (c : Nat) : Bool := (decide (272 ≤ c) && decide (c ≤ 279)) || c == 331 || c == 332

/-- `struct tablet_axes` without `delta`; `wheelDiscrete` stands for both fields of the wheel, of which one is the other
times the click angle.  Models: /repo/src/libinput-private.h:358-369. -/
structure Axes where
  x : Int := 0
  y : Int := 0
  distance : Rat := 0
  pressure : Rat := 0
  tiltX : Rat := 0
  tiltY : Rat := 0
  rotation : Rat := 0
  slider : Rat := 0
  wheelDiscrete : Int := 0
deriving DecidableEq, Repr

/-- `struct libinput_tablet_tool`.  A tool whose serial number is 0 belongs to the tablet, the others to the context.
Models: /repo/src/libinput-private.h:371-388. -/
structure Tool where
  kind : Kind
  serial : Nat
  caps : List Axis
  offset : Int := 0
  hasOffset : Bool := false
  lower : Int := 0
  upper : Int := 1
deriving DecidableEq, Repr

/-- How a client tells tools apart. -/
structure ToolId where
  kind : Kind
  serial : Nat
deriving DecidableEq, Repr

def Tool.key (t : Tool) : ToolId := ⟨t.kind, t.serial⟩

/-- What an event carries. -/
structure Data where
  tool : ToolId
  tip : Bool
  changed : List Axis
  axes : Axes
deriving DecidableEq, Repr

/-- The four events of a tablet tool. -/
inductive Ev where
  | prox (isIn : Bool) (d : Data)
  | tip (down : Bool) (d : Data)
  | axis (d : Data)
  | button (code : Nat) (pressed : Bool) (d : Data)
deriving DecidableEq, Repr

/-- `enum evdev_arbitration_state`.  Models: /repo/src/evdev.h:156-160. -/
inductive Arb where
  | notActive | ignoreAll | ignoreRect
deriving DecidableEq, Repr

/-- What leaves the tablet: events for the client, and messages to the touch device it is paired with. -/
inductive Out where
  | ev (e : Ev)
  | arb (a : Arb)
  | left (b : Bool)
deriving DecidableEq, Repr

/-- `struct input_absinfo` without the value, which is state. -/
structure Range where
  min : Int := 0
  max : Int := 1
  fuzz : Int := 0
deriving DecidableEq, Repr

/-- What is fixed while the device exists.  `has` is `axis_caps`; `toolCaps` is what `tool_set_bits` finds, from libwacom's
database or without it; `quirk` is the pressure range of the quirks file; `tilt` is `adjust_tilt`, `puck` is
`convert_tilt_to_rotation`, `calib` is `evdev_transform_absolute`; `penKey` is whether the device has `BTN_TOOL_PEN`. -/
structure Cfg where
  has : Axis → Bool
  range : Axis → Range
  toolCaps : Kind → Nat → List Axis
  quirk : Option (Int × Int) := none
  size : Nat := 4
  threshold : Int := 42
  tilt : Axis → Int → Rat
  puck : Rat → Rat → Rat
  calib : Int × Int → Int × Int := id
  penKey : Bool := true

/-- The bits of `enum tablet_status`.  Models: /repo/src/evdev-tablet.h:36-50. -/
structure Bits where
  axesUpdated : Bool := false
  pressed : Bool := false
  buttonsDown : Bool := false
  released : Bool := false
  toolUpdated : Bool := false
  inContact : Bool := false
  leaving : Bool := false
  outOfProx : Bool := true
  entering : Bool := false
  enterContact : Bool := false
  leaveContact : Bool := false
  outOfRange : Bool := false
deriving DecidableEq, Repr

/-- The values of the axes and which of them changed.  `raw` is what libevdev knows of the device.  `hist` holds the
samples of the history, the newest first, and is empty when its `count` is 0 (`Verif/Tablet/History.lean` shows that the
ring of the code is such a list).  `prev_value` is not kept: it is always overwritten with `current_value` right before
it is read.  Models: /repo/src/evdev-tablet.h:56-115. -/
structure Vals where
  changed : List Axis := []
  axes : Axes := {}
  lastX : Int := 0
  lastY : Int := 0
  hist : List Axes := []
  raw : Axis → Int
  cur : Axis → Int := fun _ => 0

/-- Handedness, rotation and the touch device of the tablet.  Models: /repo/src/evdev-tablet.h:56-115. -/
structure Hand where
  left : Bool := false
  wantLeft : Bool := false
  rotate : Bool := false
  wantRotate : Bool := false
  touchLeft : Bool := false
  touch : Bool := false
  rotTouch : Bool := false
deriving DecidableEq, Repr

/-- Which tools the kernel has announced, and which of them libinput deals with.  Models: /repo/src/evdev-tablet.h:56-115. -/
structure ToolSt where
  tools : List Tool := []
  now : Nat := 0
  prev : Nat := 0
  kind : Option Kind := none
  id : Nat := 0
  serial : Nat := 0
deriving DecidableEq, Repr

/-- Handling of devices that never tell that the pen is gone.  Models: /repo/src/evdev-tablet.h:56-115. -/
structure Quirk where
  needForce : Bool := true
  forced : Bool := false
  lastTime : Nat := 0
  timer : Option Nat := none
deriving DecidableEq, Repr

/-- `struct tablet_dispatch`.  `opened` is whether the device is not suspended; `hung` is set when `tablet_flush` runs in
circles.  Models: /repo/src/evdev-tablet.h:56-115. -/
structure Pen where
  st : Bits := {}
  v : Vals
  buttons : Nat → Bool := fun _ => false
  prevButtons : Nat → Bool := fun _ => false
  t : ToolSt := {}
  h : Hand := {}
  q : Quirk := {}
  arb : Arb := .notActive
  opened : Bool := true
  hung : Bool := false

/-- `set_bit(tablet->changed_axes, axis)`. -/
def Vals.mark (v : Vals) (a : Axis) : Vals := { v with changed := if a ∈ v.changed then v.changed else v.changed ++ [a] }

/-- `clear_bit(tablet->changed_axes, axis)`. -/
def Vals.unmark (v : Vals) (a : Axis) : Vals := { v with changed := v.changed.filter (· != a) }

/-! ### The kernel's events -/

/-- `tablet_filter_axis_fuzz`.  Models: /repo/src/evdev-tablet.c:175-203. -/
def fuzzy (cfg : Cfg) (s : Vals) (a : Axis) (v : Int) : Bool :=
  let f := (cfg.range a).fuzz
  let f := if a = .distance then max 2 f else f
  decide ((s.cur a - v).natAbs ≤ f)

/-- `tablet_process_absolute` for an axis.  libevdev has stored the value before libinput sees the event.
Models: /repo/src/evdev-tablet.c:205-260. -/
def absEvent (cfg : Cfg) (s : Pen) (a : Axis) (v : Int) : Pen :=
  let w := { s.v with raw := fun b => if b = a then v else s.v.raw b }
  if fuzzy cfg w a v then { s with v := w }
  else { s with v := { w.mark a with cur := fun b => if b = a then v else w.cur b }, st.axesUpdated := true }

/-- `tablet_process_key`: the tools, the tip and the buttons.  Models: /repo/src/evdev-tablet.c:807-853,
/repo/src/evdev-tablet.c:753-785. -/
def keyEvent (cfg : Cfg) (s : Pen) (code : Nat) (v : Nat) : Pen :=
  if v = 2 then s
  else match toolOfCode code with
  | some k =>
    { s with
      st.toolUpdated := true,
      t.now := if v ≠ 0 then s.t.now ||| k.bit else s.t.now &&& (255 ^^^ k.bit) }
  | none =>
    if code = 330 then
      if cfg.has .pressure then s
      else if v ≠ 0 then { s with st.enterContact := true } else { s with st.leaveContact := true }
    else if isButton code then
      if v ≠ 0 then { s with buttons := fun c => if c = code then true else s.buttons c, st.pressed := true }
      else { s with buttons := fun c => if c = code then false else s.buttons c, st.released := true }
    else s

/-- The kernel's events within a frame.  `id` is `ABS_MISC`, `serial` is `MSC_SERIAL`. -/
inductive KEv where
  | abs (a : Axis) (v : Int)
  | wheel (v : Int)
  | key (code : Nat) (v : Nat)
  | id (v : Nat)
  | serial (v : Nat)
deriving DecidableEq, Repr

/-- `tablet_process`, one event of a frame; a serial number of -1 (4294967295) is ignored.
Models: /repo/src/evdev-tablet.c:2042-2076, /repo/src/evdev-tablet.c:855-883,
/repo/src/evdev-tablet.c:885-906, /repo/src/evdev-tablet.c:205-260. -/
def kev (cfg : Cfg) (s : Pen) : KEv → Pen
  | .abs a v => absEvent cfg s a v
  | .wheel v => { s with v := { s.v.mark .wheel with axes := { s.v.axes with wheelDiscrete := -v } }, st.axesUpdated := true }
  | .key c v => keyEvent cfg s c v
  | .id v => { s with t.id := v }
  | .serial v => if v = 4294967295 then s else { s with t.serial := v }

/-! ### Tools -/

/-- The lowest bit that is set, `ffs(n) - 1`, as a tool.  There is none when nothing changed. -/
def lowest (n : Nat) : Option Kind :=
  [Kind.pen, .eraser, .brush, .pencil, .airbrush, .mouse, .lens].find? (fun k => n.testBit k.num)

/-- `tablet_update_tool`; without a tool (`ffs` of 0) the code calls it with type -1 and not enabled.
Models: /repo/src/evdev-tablet.c:316-332. -/
def Pen.updateTool (s : Pen) (k : Option Kind) (on : Bool) : Pen :=
  if on then { s with t.kind := k, st.entering := true, st.outOfProx := false }
  else if !s.st.outOfProx then { s with st.leaving := true }
  else s

/-- The first half of `tablet_update_tool_state`: a proximity the device never reports is made up.
Models: /repo/src/evdev-tablet.c:1779-1810. -/
def Pen.emulate (s : Pen) : Pen :=
  let s := if s.q.forced = true ∧ s.st.toolUpdated = true ∧ s.t.now = 0 then
      { s with q.needForce := false, q.forced := false } else s
  if s.st.axesUpdated then
    if s.q.forced then
      { s with t.now := if s.st.toolUpdated = false ∧ s.t.now = 0 then Kind.pen.bit else s.t.now, q.forced := false }
    else if s.t.now = 0 ∧ s.t.kind = none then { s with t.now := Kind.pen.bit, q.forced := false }
    else s
  else s

/-- `tablet_proximity_out_quirk_set_timer`: 50 ms.  Models: /repo/src/evdev-tablet.c:1756-1763. -/
def Pen.setTimer (s : Pen) (time : Nat) : Pen := if s.q.needForce then { s with q.timer := some (time + 50000) } else s

/-- The end of `tablet_update_tool_state`: the timer that stands in for a proximity-out the device never sends.
Models: /repo/src/evdev-tablet.c:1838-1854. -/
def Pen.penTimer (s : Pen) (injecting : Bool) (now : Nat) (k : Option Kind) (on : Bool) : Pen :=
  if k = some .pen then
    if on then s.setTimer now
    else { s with q.needForce := if injecting then s.q.needForce else false, q.timer := none }
  else s

/-- `tablet_update_tool_state`; the result says whether the frame has to be processed again.
Models: /repo/src/evdev-tablet.c:1765-1861. -/
def Pen.toolChange (s : Pen) (injecting : Bool) (now : Nat) : Pen × Bool :=
  let s := s.emulate
  if s.t.now = s.t.prev then (s, false)
  else
    let two := decide (s.t.now &&& (s.t.now - 1) ≠ 0)
    let next := s.t.now ^^^ s.t.prev
    let s := if two then { s with t.now := 0 } else s
    let k := lowest (s.t.now ^^^ s.t.prev)
    let on := match k with | some k => s.t.now.testBit k.num | none => false
    let s := (s.updateTool k on).penTimer injecting now k on
    let s := { s with t.prev := s.t.now }
    if two then ({ s with t.now := next }, true) else (s, false)

/-- `axis_range_percentage`, truncated like a conversion to `int`.  Models: /repo/src/evdev-tablet.c:1067-1071. -/
def percent (r : Range) (p : Int) : Int := Int.tdiv ((r.max - r.min) * p + 100 * r.min) 100

/-- `tool_set_pressure_thresholds` and `tool_set_bits`.  Models: /repo/src/evdev-tablet.c:1073-1114,
/repo/src/evdev-tablet.c:994-1065. -/
def newTool (cfg : Cfg) (k : Kind) (id serial : Nat) : Tool :=
  let t : Tool := { kind := k, serial, caps := cfg.toolCaps k id }
  if cfg.has .pressure then
    let r := cfg.range .pressure
    let t := { t with offset := r.min, lower := percent r 1, upper := percent r 5 }
    match cfg.quirk with
    | some (lo, hi) => if lo ≥ hi then t else { t with lower := lo, upper := hi }
    | none => t
  else t

def ToolSt.findTool (s : ToolSt) (i : ToolId) : Option Tool := s.tools.find? (fun t => decide (t.key = i))

/-- `tablet_get_tool`: the tool with this serial number; failing that the tablet's own tool of this kind; failing that
a new one.  Models: /repo/src/evdev-tablet.c:1116-1182. -/
def ToolSt.getTool (cfg : Cfg) (s : ToolSt) (k : Kind) : ToolSt × Tool :=
  let own := if s.serial ≠ 0 then s.findTool ⟨k, s.serial⟩ else none
  match own with
  | some t => (s, t)
  | none =>
    match s.findTool ⟨k, 0⟩ with
    | some t => (s, t)
    | none => let t := newTool cfg k s.id s.serial; ({ s with tools := t :: s.tools }, t)

/-- A change of a tool is seen by every later use of it. -/
def ToolSt.putTool (s : ToolSt) (t : Tool) : ToolSt := { s with tools := s.tools.map (fun u => if u.key = t.key then t else u) }

/-- `tablet_force_button_presses`.  Models: /repo/src/evdev-tablet.c:76-87. -/
def Pen.forcePresses (s : Pen) : Pen :=
  { s with buttons := fun c => s.buttons c || s.prevButtons c, prevButtons := fun _ => false }

/-- `tablet_update_proximity_state`: a cursor tool further away than the threshold counts as gone.
Models: /repo/src/evdev-tablet.c:1421-1476, /repo/src/evdev-tablet.c:1408-1419. -/
def Pen.cursorRange (cfg : Cfg) (s : Pen) (t : Tool) : Pen :=
  if cfg.has .distance = false then s
  else
    let d := s.v.raw .distance
    if d = 0 then s
    else if d < cfg.threshold ∧ (s.st.outOfRange = true ∨ s.st.outOfProx = true) then
      { s with
        st := { s.st with outOfRange := false, outOfProx := false, entering := true, pressed := true },
        v.changed := t.caps }.forcePresses
    else if d < cfg.threshold then s
    else if s.st.outOfRange = true ∨ s.st.outOfProx = true then s
    else if s.st.entering then { s with st.outOfRange := true, st.entering := false }
    else { s with st.leaving := true }

/-! ### Contact, pressure and distance -/

/-- `detect_pressure_offset`.  Models: /repo/src/evdev-tablet.c:1304-1366. -/
def Vals.detectOffset (cfg : Cfg) (s : Vals) (entering : Bool) (t : Tool) : Tool :=
  if .pressure ∉ s.changed then t
  else if cfg.has .pressure = false ∨ cfg.has .distance = false then t
  else
    let p := s.raw .pressure
    if t.hasOffset then (if p < t.offset then { t with offset := p } else t)
    else if p ≤ (cfg.range .pressure).min then t
    else if entering = false then t
    else if s.raw .distance < percent (cfg.range .distance) 50 then t
    else if p > percent (cfg.range .pressure) 20 then t
    else { t with offset := p, hasOffset := true, lower := (cfg.range .pressure).min }

/-- The pressure the thresholds are compared with.
Models: /repo/src/evdev-tablet.c:1394-1399. -/
def Vals.adjusted (cfg : Cfg) (s : Vals) (t : Tool) : Int :=
  if t.hasOffset then s.raw .pressure - (t.offset - (cfg.range .pressure).min) else s.raw .pressure

/-- `detect_tool_contact`.  Models: /repo/src/evdev-tablet.c:1368-1406. -/
def Pen.detectContact (cfg : Cfg) (s : Pen) (t : Tool) : Pen :=
  if .pressure ∉ t.caps then s
  else if cfg.has .pressure = false then s
  else
    let p := s.v.adjusted cfg t
    if p ≤ t.lower ∧ s.st.inContact = true then { s with st.leaveContact := true }
    else if t.upper ≤ p ∧ s.st.inContact = false then { s with st.enterContact := true }
    else s

/-- `sanitize_pressure_distance`.  Models: /repo/src/evdev-tablet.c:1238-1282. -/
def Vals.sanitizePressure (cfg : Cfg) (s : Vals) (t : Tool) : Vals :=
  if cfg.has .pressure = false ∨ cfg.has .distance = false then s
  else if .distance ∉ s.changed ∧ .pressure ∉ s.changed then s
  else
    let touching := decide (s.raw .pressure > t.offset)
    if s.raw .distance > (cfg.range .distance).min ∧ s.raw .pressure > (cfg.range .pressure).min then
      if touching then { s.unmark .distance with axes := { s.axes with distance := 0 } }
      else { s.unmark .pressure with axes := { s.axes with pressure := 0 } }
    else if .pressure ∈ s.changed ∧ touching = false then
      if s.axes.pressure = 0 then s.unmark .pressure
      else { s with axes := { s.axes with pressure := 0 } }
    else s

/-- `sanitize_mouse_lens_rotation`.  Models: /repo/src/evdev-tablet.c:1284-1294. -/
def Vals.sanitizeRotation (s : Vals) (kind : Option Kind) : Vals :=
  match kind with
  | some k => if k.isCursor = true ∧ (.tiltX ∈ s.changed ∨ .tiltY ∈ s.changed) then s.mark .rotation else s
  | none => s

/-! ### The values of the axes -/

/-- `invert_axis`.  Models: /repo/src/evdev-tablet.c:412-416. -/
def invert (r : Range) (v : Int) : Int := r.max - (v - r.min)

/-- `normalize_pressure`; a range of 0 makes the code divide by zero, which gives 0 here.
Models: /repo/src/evdev-tablet.c:352-382. -/
def normPressure (r : Range) (t : Tool) (v : Int) : Rat :=
  let o := if t.hasOffset then t.offset else t.upper
  max 0 (((v - o : Int) : Rat) / ((r.max - o : Int) : Rat))

/-- `normalize_distance`.  Models: /repo/src/evdev-tablet.c:343-350. -/
def normDistance (r : Range) (v : Int) : Rat := ((v - r.min : Int) : Rat) / ((r.max - r.min : Int) : Rat)

/-- `normalize_slider`.  Models: /repo/src/evdev-tablet.c:334-341. -/
def normSlider (r : Range) (v : Int) : Rat := ((v - r.min : Int) : Rat) / ((r.max - r.min : Int) : Rat) * 2 - 1

/-- `fmod(a, 360)` for an `a` that is not negative. -/
def mod360 (a : Rat) : Rat := a - 360 * (a / 360).floor

/-- `convert_to_degrees`.  Models: /repo/src/evdev-tablet.c:442-450. -/
def toDegrees (r : Range) (off : Rat) (v : Int) : Rat :=
  mod360 (((v - r.min : Int) : Rat) / ((r.max - r.min + 1 : Int) : Rat) * 360 + off)

/-- `tablet_update_xy`.  Models: /repo/src/evdev-tablet.c:461-490. -/
def Vals.updateXY (cfg : Cfg) (rotate : Bool) (s : Vals) : Vals :=
  if .x ∈ s.changed ∨ .y ∈ s.changed then
    let x := if rotate then invert (cfg.range .x) (s.raw .x) else s.raw .x
    let y := if rotate then invert (cfg.range .y) (s.raw .y) else s.raw .y
    let p := cfg.calib (x, y)
    { s with axes := { s.axes with x := p.1, y := p.2 } }
  else s

/-- `tablet_update_pressure`.  Models: /repo/src/evdev-tablet.c:534-546. -/
def Vals.updatePressure (cfg : Cfg) (s : Vals) (t : Tool) : Vals :=
  if .pressure ∈ s.changed then
    { s with axes := { s.axes with pressure := normPressure (cfg.range .pressure) t (s.raw .pressure) } }
  else s

/-- `tablet_update_distance`.  Models: /repo/src/evdev-tablet.c:548-559. -/
def Vals.updateDistance (cfg : Cfg) (s : Vals) : Vals :=
  if .distance ∈ s.changed then
    { s with axes := { s.axes with distance := normDistance (cfg.range .distance) (s.raw .distance) } }
  else s

/-- `tablet_update_slider`.  Models: /repo/src/evdev-tablet.c:561-572. -/
def Vals.updateSlider (cfg : Cfg) (s : Vals) : Vals :=
  if .slider ∈ s.changed then
    { s with axes := { s.axes with slider := normSlider (cfg.range .slider) (s.raw .slider) } }
  else s

/-- `tablet_update_tilt`.  Models: /repo/src/evdev-tablet.c:574-598. -/
def Vals.updateTilt (cfg : Cfg) (left : Bool) (s : Vals) : Vals :=
  if .tiltX ∈ s.changed ∨ .tiltY ∈ s.changed then
    let x := cfg.tilt .tiltX (s.raw .tiltX)
    let y := cfg.tilt .tiltY (s.raw .tiltY)
    { s with axes := { s.axes with tiltX := if left then -x else x, tiltY := if left then -y else y } }
  else s

/-- `tablet_update_wheel`.  Models: /repo/src/evdev-tablet.c:654-669. -/
def Vals.updateWheel (s : Vals) : Vals :=
  if .wheel ∈ s.changed then s else { s with axes := { s.axes with wheelDiscrete := 0 } }

/-- `tablet_update_rotation`.  Models: /repo/src/evdev-tablet.c:627-652,
/repo/src/evdev-tablet.c:615-625, /repo/src/evdev-tablet.c:600-613. -/
def Vals.updateRotation (cfg : Cfg) (left : Bool) (kind : Option Kind) (s : Vals) : Vals :=
  if kind = some .mouse ∨ kind = some .lens then
    let s := if .tiltX ∈ s.changed ∨ .tiltY ∈ s.changed then
        { s with axes := { s.axes with rotation := cfg.puck s.axes.tiltX s.axes.tiltY } }.mark .rotation
      else s
    let s := (s.unmark .tiltX).unmark .tiltY
    { s with axes := { s.axes with tiltX := 0, tiltY := 0 } }
  else
    let s := if .rotation ∈ s.changed then
        { s with axes := { s.axes with rotation := toDegrees (cfg.range .rotation) 90 (s.raw .rotation) } }
      else s
    if left then { s with axes := { s.axes with rotation := mod360 (180 + s.axes.rotation) } } else s

/-- `tablet_history_push`: an empty history is filled up with the sample, otherwise the oldest one makes room.
Models: /repo/src/evdev-tablet.c:101-115. -/
def push (n : Nat) (h : List Axes) (a : Axes) : List Axes := if h = [] then List.replicate n a else (a :: h).take n

/-- `tablet_smoothen_axes`: the mean of the samples; the coordinates are integers and rounded down.  (The code divides by a
`size_t`, so a negative sum becomes a large positive number first; for the sizes the code uses, 1 and 4, the low 32 bits of the
quotient are those of the quotient rounded down.)
Models: /repo/src/evdev-tablet.c:671-694. -/
def smooth (n : Nat) (h : List Axes) (a : Axes) : Axes :=
  { a with
    x := (h.map (·.x)).sum / n, y := (h.map (·.y)).sum / n,
    tiltX := (h.map (·.tiltX)).sum / n, tiltY := (h.map (·.tiltY)).sum / n }

/-- The axes whose bits are set have their values renewed.
Models: /repo/src/evdev-tablet.c:712-731. -/
def Vals.updateAxes (cfg : Cfg) (h : Hand) (kind : Option Kind) (t : Tool) (s : Vals) : Vals :=
  if s.changed = [] then s
  else
    let s := ((s.updateXY cfg h.rotate).updatePressure cfg t).updateDistance cfg
    ((s.updateSlider cfg).updateTilt cfg h.left).updateWheel.updateRotation cfg h.left kind

/-- The second half of `tablet_check_notify_axes`: the history, the mean of its samples, and the bits of the coordinates.
Of `tablet_tool_process_delta` only the bits it sets and the point it remembers.
Models: /repo/src/evdev-tablet.c:734-750, /repo/src/evdev-tablet.c:492-532. -/
def Vals.smoothen (cfg : Cfg) (jump : Bool) (s : Vals) : Vals × Axes :=
  let s := { s with hist := push cfg.size (if jump then [] else s.hist) s.axes }
  let a := smooth cfg.size s.hist s.axes
  let s := if a.x ≠ s.lastX then s.mark .x else s
  let s := if a.y ≠ s.lastY then s.mark .y else s
  ({ s with lastX := a.x, lastY := a.y }, a)

/-- `tablet_check_notify_axes`: the state and the axes to report.  Models: /repo/src/evdev-tablet.c:696-751. -/
def Pen.notifyAxes (cfg : Cfg) (s : Pen) (t : Tool) : Pen × Axes :=
  let r := (s.v.updateAxes cfg s.h s.t.kind t).smoothen cfg (s.st.enterContact || s.st.leaveContact)
  ({ s with v := r.1 }, r.2)

/-! ### Sending -/

/-- `tablet_send_proximity_in`; the tip of a proximity event is always up.
Models: /repo/src/evdev-tablet.c:1541-1565, /repo/src/libinput.c:2607-2634. -/
def Pen.sendProxIn (s : Pen) (i : ToolId) (a : Axes) : Pen × List Ev :=
  if s.st.entering then
    ({ s with st.entering := false, st.axesUpdated := false, v.changed := [] }, [.prox true ⟨i, false, s.v.changed, a⟩])
  else (s, [])

/-- `tablet_send_tip`.  Models: /repo/src/evdev-tablet.c:1594-1638, /repo/src/libinput.c:2636-2663. -/
def Pen.sendTip (s : Pen) (i : ToolId) (a : Axes) : Pen × List Ev × Bool :=
  if s.st.enterContact then
    ({ s with st := { s.st with axesUpdated := false, enterContact := false, inContact := true }, v.changed := [] },
     [.tip true ⟨i, true, s.v.changed, a⟩], true)
  else if s.st.leaveContact then
    ({ s with st := { s.st with axesUpdated := false, leaveContact := false, inContact := false }, v.changed := [] },
     [.tip false ⟨i, false, s.v.changed, a⟩], true)
  else (s, [], false)

/-- `tablet_send_axes`.  Models: /repo/src/evdev-tablet.c:1640-1668, /repo/src/libinput.c:2577-2605. -/
def Pen.sendAxes (s : Pen) (i : ToolId) (a : Axes) : Pen × List Ev :=
  if s.st.axesUpdated then
    ({ s with st.axesUpdated := false, v.changed := [] }, [.axis ⟨i, s.st.inContact, s.v.changed, a⟩])
  else (s, [])

/-- All codes of buttons, in the order of the loop.  Models: /repo/src/evdev-tablet.c:1184-1214. -/
def codes : List Nat := List.range 768

/-- `tablet_notify_button_mask`.  Models: /repo/src/evdev-tablet.c:1184-1214, /repo/src/libinput.c:2665-2698. -/
def Pen.buttonEvents (s : Pen) (i : ToolId) (f : Nat → Bool) (down : Bool) : List Ev :=
  (codes.filter f).map (fun c => .button c down ⟨i, s.st.inContact, [], s.v.axes⟩)

/-- `tablet_send_buttons`: first what was released, then what was pressed.  Models: /repo/src/evdev-tablet.c:1670-1693,
/repo/src/evdev-tablet.c:1216-1236, /repo/src/evdev-tablet.c:49-59,
/repo/src/evdev-tablet.c:61-72. -/
def Pen.sendButtons (s : Pen) (i : ToolId) : Pen × List Ev :=
  let up := if s.st.released then s.buttonEvents i (fun c => s.prevButtons c && !s.buttons c) false else []
  let down := if s.st.pressed then s.buttonEvents i (fun c => s.buttons c && !s.prevButtons c) true else []
  ({ s with st.released := false, st.pressed := false }, up ++ down)

/-- `tablet_apply_rotation`.  Models: /repo/src/evdev-tablet.c:262-278. -/
def Pen.applyRotation (s : Pen) : Pen := if s.st.outOfProx then { s with h.rotate := s.h.wantRotate } else s

/-- `tablet_change_rotation`.  Models: /repo/src/evdev-tablet.c:280-303. -/
def Pen.changeRotation (s : Pen) (notify : Bool) : Pen × List Out :=
  ({ s with h.wantRotate := s.h.left || s.h.touchLeft }.applyRotation,
   if notify && s.h.touch then [.left s.h.wantLeft] else [])

/-- `tablet_change_to_left_handed`.  Models: /repo/src/evdev-tablet.c:305-314. -/
def Pen.changeLeft (s : Pen) : Pen × List Out :=
  if s.h.left = s.h.wantLeft then (s, []) else { s with h.left := s.h.wantLeft }.changeRotation true

/-- `tablet_send_proximity_out` and what follows it.  Models: /repo/src/evdev-tablet.c:1567-1592,
/repo/src/evdev-tablet.c:1730-1737. -/
def Pen.sendProxOut (s : Pen) (i : ToolId) (a : Axes) : Pen × List Out :=
  if s.st.leaving then
    let e : Ev := .prox false ⟨i, false, s.v.changed, a⟩
    let s := { s with st.outOfProx := true, st.leaving := false, v.changed := [] }
    let r := s.changeLeft
    ({ r.1.applyRotation with v.hist := [] }, .ev e :: r.2)
  else (s, [])

/-- `tablet_send_events`.  Models: /repo/src/evdev-tablet.c:1695-1735. -/
def Pen.send (cfg : Cfg) (s : Pen) (t : Tool) : Pen × List Out :=
  let r := if s.st.leaving then ({ s with st.axesUpdated := false }, s.v.axes) else s.notifyAxes cfg t
  let p := r.1.sendProxIn t.key r.2
  let q := p.1.sendTip t.key r.2
  let x := if q.2.2 then (q.1, []) else q.1.sendAxes t.key r.2
  let b := { x.1 with st.enterContact := false, v.changed := [] }.sendButtons t.key
  let o := b.1.sendProxOut t.key r.2
  (o.1, (p.2 ++ q.2.1 ++ x.2 ++ b.2).map .ev ++ o.2)

/-! ### A frame -/

/-- What `tablet_flush` does with a tool that is in proximity, before it sends events.
Models: /repo/src/evdev-tablet.c:1899-1916. -/
def Pen.prepare (cfg : Cfg) (s : Pen) (t : Tool) : Pen × Tool :=
  if s.st.leaving then
    ({ s with buttons := fun _ => false, st.released := true, st.leaveContact := s.st.leaveContact || s.st.inContact }, t)
  else if s.st.axesUpdated || s.st.entering then
    let s := if s.st.entering then { s with v.changed := t.caps } else s
    let t := s.v.detectOffset cfg s.st.entering t
    let s := { s with t := s.t.putTool t }.detectContact cfg t
    ({ s with v := (s.v.sanitizePressure cfg t).sanitizeRotation s.t.kind }, t)
  else (s, t)

/-- One round of `tablet_flush`.  Models: /repo/src/evdev-tablet.c:1875-1920, /repo/src/evdev-tablet.c:1863-1873. -/
def Pen.pass (cfg : Cfg) (s : Pen) (injecting : Bool) (now : Nat) : Pen × List Out × Bool :=
  let c := s.toolChange injecting now
  match c.1.t.kind with
  | none => (c.1, [], false)
  | some k =>
    let g := c.1.t.getTool cfg k
    let s := { c.1 with t := g.1 }
    let s := if k.isCursor then s.cursorRange cfg g.2 else s
    if s.st.outOfProx || s.st.outOfRange then (s, [], false)
    else
      let p := s.prepare cfg g.2
      let r := p.1.send cfg p.2
      (r.1, r.2, c.2)

/-- `tablet_flush`, given up after `n` rounds.  Models: /repo/src/evdev-tablet.c:1875-1920. -/
def Pen.flush (cfg : Cfg) (injecting : Bool) (now : Nat) : Nat → Pen → Pen × List Out
  | 0, s => ({ s with hung := true }, [])
  | n + 1, s =>
    let p := s.pass cfg injecting now
    if p.2.2 then
      let r := Pen.flush cfg injecting now n p.1
      (r.1, p.2.1 ++ r.2)
    else (p.1, p.2.1)

/-- `tablet_set_touch_device_enabled`.  Models: /repo/src/evdev-tablet.c:1922-1943. -/
def Pen.setArb (s : Pen) (a : Arb) : Pen × List Out := if s.h.touch then ({ s with arb := a }, [.arb a]) else (s, [])

/-- `tablet_toggle_touch_device`.  Models: /repo/src/evdev-tablet.c:1945-1978. -/
def Pen.toggle (s : Pen) : Pen × List Out :=
  if s.st.outOfRange || s.st.leaving || s.st.outOfProx then s.setArb .notActive
  else if s.v.axes.tiltX = 0 then s.setArb .ignoreAll
  else if s.arb ≠ .ignoreRect then s.setArb .ignoreRect
  else (s, [])

/-- `tablet_reset_state`.  Models: /repo/src/evdev-tablet.c:1980-1995. -/
def Pen.reset (s : Pen) : Pen :=
  { s with prevButtons := s.buttons, st.toolUpdated := false, st.buttonsDown := codes.any s.buttons }

/-- `tablet_process` for `EV_SYN`.  Models: /repo/src/evdev-tablet.c:2042-2076. -/
def Pen.syn (cfg : Cfg) (s : Pen) (injecting : Bool) (now : Nat) : Pen × List Out :=
  let f := s.flush cfg injecting now 4
  let t := f.1.toggle
  ({ t.1.reset with q.lastTime := now }, f.2 ++ t.2)

/-- One frame of kernel events. -/
def Pen.frame (cfg : Cfg) (s : Pen) (evs : List KEv) (now : Nat) : Pen × List Out :=
  (evs.foldl (kev cfg) s).syn cfg false now

/-- `tablet_proximity_out_quirk_timer_func`.  Models: /repo/src/evdev-tablet.c:1997-2040. -/
def Pen.timeout (cfg : Cfg) (s : Pen) (now : Nat) : Pen × List Out :=
  let s := { s with q.timer := none }
  if s.st.inContact || s.st.buttonsDown then (s.setTimer now, [])
  else if s.q.lastTime > now - 50000 then (s.setTimer s.q.lastTime, [])
  else
    let r := (keyEvent cfg s 320 0).syn cfg true now
    ({ r.1 with q.forced := true }, r.2)

/-- `tablet_suspend`.  Models: /repo/src/evdev-tablet.c:2078-2095. -/
def Pen.suspend (cfg : Cfg) (s : Pen) (now : Nat) : Pen × List Out :=
  let a := s.setArb .notActive
  if a.1.st.outOfProx then ({ a.1 with opened := false }, a.2)
  else
    let f := { a.1 with st.leaving := true }.flush cfg false now 4
    ({ f.1 with opened := false }, a.2 ++ f.2)

/-- Everything that can happen to the tablet.  `foreign` is another tablet of the context adding a tool to the shared
list, or changing one. -/
inductive Op where
  | frame (evs : List KEv) (now : Nat)
  | timeout (now : Nat)
  | suspend (now : Nat)
  | resume (raw : Axis → Int)
  | setLeft (b : Bool)
  | touchLeft (b : Bool)
  | touchAdded (touchpad left : Bool)
  | touchRemoved
  | foreign (t : Tool)

/-- One operation.  Models: /repo/src/evdev-tablet.c:2116-2154, /repo/src/evdev-tablet.c:2156-2170,
/repo/src/evdev-tablet.c:2217-2238, /repo/src/evdev.c:607-617, /repo/src/evdev.c:2791-2855. -/
def step (cfg : Cfg) (s : Pen) (op : Op) : Pen × List Out :=
  if s.hung then (s, []) else
  match op with
  | .frame evs now => if s.opened then s.frame cfg evs now else (s, [])
  | .timeout now => match s.q.timer with
    | some t => if t ≤ now then s.timeout cfg now else (s, [])
    | none => (s, [])
  | .suspend now => if s.opened then s.suspend cfg now else (s, [])
  | .resume raw => if s.opened then (s, []) else ({ s with v.raw := raw, opened := true }, [])
  | .setLeft b => { s with h.wantLeft := b }.changeLeft
  | .touchLeft b => if s.h.rotTouch then { s with h.touchLeft := b }.changeRotation false else (s, [])
  | .touchAdded touchpad left =>
    let s := { s with h.touch := true }
    if touchpad then
      let s := { s with h.rotTouch := true }
      if left then { s with h.touchLeft := true }.changeRotation true else (s, [])
    else (s, [])
  | .touchRemoved =>
    let rot := s.h.rotTouch
    let s := { s with h.touch := false }
    if rot then { s with h.rotTouch := false, h.touchLeft := false }.changeRotation true else (s, [])
  | .foreign t =>
    if t.serial = 0 then (s, [])
    else if (s.t.findTool t.key).isSome then ({ s with t := s.t.putTool t }, [])
    else ({ s with t.tools := t :: s.t.tools }, [])

/-- The tablet after it was added, with the tool that is in proximity at that time.
Models: /repo/src/evdev-tablet.c:2422-2482, /repo/src/evdev-tablet.c:2172-2214. -/
def start (cfg : Cfg) (raw : Axis → Int) (tool : Option Kind) (id now : Nat) : Pen :=
  let s : Pen := { v := { raw }, q := { forced := !cfg.penKey } }
  match tool with
  | none => s
  | some k =>
    { (({ s with t.now := k.bit, t.prev := k.bit }.updateTool (some k) true).setTimer now) with t.id := id }

def run (cfg : Cfg) : Pen → List Op → Pen × List Out
  | s, [] => (s, [])
  | s, op :: ops =>
    let r := step cfg s op
    let r' := run cfg r.1 ops
    (r'.1, r.2 ++ r'.2)

/-- The events among what leaves the tablet. -/
def events (o : List Out) : List Ev := o.filterMap (fun x => match x with | .ev e => some e | _ => none)

end Libinput.Tablet
