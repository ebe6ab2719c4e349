/-
The buttons, rings, strips and modes of tablet pads: src/evdev-tablet-pad.c and src/evdev-tablet-pad-leds.c.

Not modelled: times of events, log messages, failing allocations, the reference counts of mode groups (see Refs), codes of
`KEY_CNT` and above, more than 32 buttons in the database (shifts by 32 and more).
-/
namespace Libinput.Pad

/-! ### What the device and the databases say -/

/-- The absolute axes of a pad: `ABS_WHEEL`, `ABS_THROTTLE`, `ABS_RX`, `ABS_RY` and `ABS_MISC`. -/
inductive Abs where
  | ring1 | ring2 | strip1 | strip2 | misc
deriving DecidableEq, Repr

/-- A button as libwacom describes it: its kernel code (0 if it has none), whether it switches modes, on which side of the tablet it
is, and the group of LEDs it switches. -/
structure WButton where
  code : Nat
  toggle : Bool := false
  side : Nat := 0
  group : Option Nat := none

/-- `WacomStatusLEDs`; `other` is a value newer versions may add. -/
inductive Led where
  | unavailable | ring | ring2 | strip | strip2 | other
deriving DecidableEq, Repr

/-- What libwacom says about a pad. -/
structure Wacom where
  buttons : List WButton
  leds : List Led := []
  ringModes : Nat := 0
  ring2Modes : Nat := 0
  stripModes : Nat := 0

/-- The brightness of the LEDs, by group and mode, as read from their files; `none` if reading fails. -/
abbrev Lit := Nat → Nat → Option Nat

/-- A pad.  `byId` and `byPath` are the two ways the code looks it up in libwacom.  `opens` is whether the file of an LED can be
opened. -/
structure Cfg where
  byId : Option Wacom := none
  byPath : Option Wacom := none
  wacom : Bool := true
  keys : Nat → Bool := fun _ => false
  has : Abs → Bool := fun _ => false
  min : Abs → Int := fun _ => 0
  max : Abs → Int := fun _ => 0
  basePath : Bool := true
  opens : Nat → Nat → Bool := fun _ _ => true

/-! ### Buttons -/

/-- `key_or_button_map_t`.  Models: /repo/src/evdev-tablet-pad.h:52-60. -/
inductive Map where
  | unmapped
  | button (n : Nat)
  | key (code : Nat)
deriving DecidableEq, Repr

abbrev BMap := Nat → Map

def BMap.set (m : BMap) (c : Nat) (x : Map) : BMap := fun c' => if c' = c then x else m c'

/-- `pad_init_buttons_from_libwacom`: buttons without a code are left out, the others are numbered.
Models: /repo/src/evdev-tablet-pad.c:548-592. -/
def fromWacom : List WButton → Nat → BMap → BMap × Nat
  | [], n, m => (m, n)
  | b :: bs, n, m => if b.code = 0 then fromWacom bs n m else fromWacom bs (n + 1) (m.set b.code (.button n))

/-- `BTN_0` to `BTN_9`, `BTN_BASE` and the next, `BTN_A` to `BTN_Z`, `BTN_LEFT` to `BTN_TASK`.
Models: /repo/src/evdev-tablet-pad.c:594-623. -/
def kernelCodes : List Nat :=
  [256, 257, 258, 259, 260, 261, 262, 263, 264, 265, 294, 295, 304, 305, 306, 307, 308, 309, 272, 273, 274, 275, 276, 277, 278]

/-- `pad_init_buttons_from_kernel`.  Models: /repo/src/evdev-tablet-pad.c:594-623. -/
def fromKernel (keys : Nat → Bool) : List Nat → Nat → BMap → BMap × Nat
  | [], n, m => (m, n)
  | c :: cs, n, m => if keys c then fromKernel keys cs (n + 1) (m.set c (.button n)) else fromKernel keys cs n m

/-- `pad_init_keys`: `KEY_BUTTONCONFIG`, `KEY_ONSCREEN_KEYBOARD` and `KEY_CONTROLPANEL`.
Models: /repo/src/evdev-tablet-pad.c:625-643. -/
def addKeys (cfg : Cfg) (m : BMap) : BMap :=
  if cfg.wacom then [576, 632, 579].foldl (fun m c => if cfg.keys c then m.set c (.key c) else m) m else m

/-- `pad_init_buttons`.  Models: /repo/src/evdev-tablet-pad.c:645-658. -/
def Cfg.buttons (cfg : Cfg) : BMap × Nat :=
  let r := match cfg.byId with
    | some w => fromWacom w.buttons 0 (fun _ => .unmapped)
    | none => fromKernel cfg.keys kernelCodes 0 (fun _ => .unmapped)
  (addKeys cfg r.1, r.2)

def Cfg.map (cfg : Cfg) : BMap := cfg.buttons.1

/-- `evdev_device_tablet_pad_get_num_buttons`.  Models: /repo/src/evdev-tablet-pad.c:762-771. -/
def Cfg.numButtons (cfg : Cfg) : Nat := cfg.buttons.2

/-- `evdev_device_tablet_pad_get_num_rings`.  Models: /repo/src/evdev-tablet-pad.c:773-790. -/
def Cfg.numRings (cfg : Cfg) : Nat := if cfg.has .ring1 then (if cfg.has .ring2 then 2 else 1) else 0

/-- `evdev_device_tablet_pad_get_num_strips`.  Models: /repo/src/evdev-tablet-pad.c:792-809. -/
def Cfg.numStrips (cfg : Cfg) : Nat := if cfg.has .strip1 then (if cfg.has .strip2 then 2 else 1) else 0

/-! ### Mode groups -/

/-- `struct pad_led_group`; the masks as functions.  `leds` is the length of `led_list`, whose entry number `i` belongs to mode `i`.
Models: /repo/src/evdev-tablet-pad-leds.c:35-39, /repo/src/libinput-private.h:390-407. -/
structure Group where
  index : Nat
  numModes : Nat
  mode : Nat := 0
  leds : Nat := 0
  buttons : Nat → Bool := fun _ => false
  rings : Nat → Bool := fun _ => false
  strips : Nat → Bool := fun _ => false
  toggles : Nat → Bool := fun _ => false

/-- `pad_led_group_get_mode`: the first LED that is lit.  Models: /repo/src/evdev-tablet-pad-leds.c:73-100. -/
def readMode (lit : Nat → Option Nat) : List Nat → Option Nat
  | [] => none
  | i :: is => match lit i with
    | none => none
    | some b => if b ≠ 0 then some i else readMode lit is

/-- `pad_group_new`: `led_list` ends up in the order of the modes.  Models: /repo/src/evdev-tablet-pad-leds.c:193-235,
/repo/src/evdev-tablet-pad-leds.c:166-184, /repo/src/evdev-tablet-pad-leds.c:112-148. -/
def newGroup (cfg : Cfg) (lit : Lit) (i n : Nat) : Option Group :=
  if (List.range n).all (cfg.opens i) then
    match readMode (lit i) (List.range n) with
    | some m => some { index := i, numModes := n, mode := m, leds := n }
    | none => none
  else none

/-- The number of modes of a bank of LEDs.  Models: /repo/src/evdev-tablet-pad-leds.c:273-333. -/
def Wacom.modes (w : Wacom) : Led → Nat
  | .ring => w.ringModes
  | .ring2 => w.ring2Modes
  | _ => w.stripModes

/-- The loop of `pad_init_led_groups`; new groups are put in front.
Models: /repo/src/evdev-tablet-pad-leds.c:273-333. -/
def ledGroups (cfg : Cfg) (lit : Lit) (w : Wacom) : Nat → List Led → List Group → Option (List Group)
  | _, [], gs => some gs
  | i, l :: ls, gs => match l with
    | .unavailable => none
    | .other => ledGroups cfg lit w (i + 1) ls gs
    | l => match newGroup cfg lit i (w.modes l) with
      | some g => ledGroups cfg lit w (i + 1) ls (g :: gs)
      | none => none

/-- `pad_find_button_group`: the group of the first other button that switches modes on the same side.
Models: /repo/src/evdev-tablet-pad-leds.c:352-374. -/
def findButtonGroup (side self : Nat) : List WButton → Nat → Option Nat
  | [], _ => none
  | b :: bs, i =>
    if i = self then findButtonGroup side self bs (i + 1)
    else if b.toggle = false then findButtonGroup side self bs (i + 1)
    else if b.side = side then b.group
    else findButtonGroup side self bs (i + 1)

def Group.addButton (g : Group) (n : Nat) (toggle : Bool) : Group :=
  { g with
    buttons := fun m => if m = n then true else g.buttons m,
    toggles := fun m => if m = n && toggle then true else g.toggles m }

/-- Changes the group with this index; there is at most one.  Models: /repo/src/evdev-tablet-pad-leds.c:337-348. -/
def onGroup (i : Nat) (f : Group → Group) (gs : List Group) : List Group := gs.map (fun g => if g.index = i then f g else g)

/-- `pad_init_mode_buttons`.  Models: /repo/src/evdev-tablet-pad-leds.c:376-431. -/
def modeButtons (all : List WButton) : List WButton → Nat → List Group → Option (List Group)
  | [], _, gs => some gs
  | b :: bs, i, gs =>
    let idx := match b.group with
      | some g => some g
      | none => findButtonGroup b.side i all 0
    match idx with
    | none => none
    | some g =>
      if gs.any (fun x => x.index == g) then modeButtons all bs (i + 1) (onGroup g (fun x => x.addButton i b.toggle) gs)
      else none

/-- `pad_init_mode_rings` and `pad_init_mode_strips`.  Models: /repo/src/evdev-tablet-pad-leds.c:433-458,
/repo/src/evdev-tablet-pad-leds.c:460-485. -/
def modeRings : List Led → Nat → List Group → List Group
  | [], _, gs => gs
  | l :: ls, i, gs =>
    modeRings ls (i + 1) (match l with
      | .ring => onGroup i (fun g => { g with rings := fun n => n == 0 || g.rings n }) gs
      | .ring2 => onGroup i (fun g => { g with rings := fun n => n == 1 || g.rings n }) gs
      | .strip => onGroup i (fun g => { g with strips := fun n => n == 0 || g.strips n }) gs
      | .strip2 => onGroup i (fun g => { g with strips := fun n => n == 1 || g.strips n }) gs
      | _ => gs)

/-- `pad_init_leds_from_libwacom`.  Models: /repo/src/evdev-tablet-pad-leds.c:487-527,
/repo/src/evdev-tablet-pad-leds.c:273-333. -/
def fromLeds (cfg : Cfg) (lit : Lit) : Option (List Group) :=
  match cfg.byPath with
  | none => none
  | some w =>
    if w.leds = [] then none
    else if cfg.basePath = false then none
    else match ledGroups cfg lit w 0 w.leds [] with
      | none => none
      | some gs => match modeButtons w.buttons w.buttons 0 gs with
        | none => none
        | some gs => some (modeRings w.leds 0 gs)

/-- `pad_init_fallback_group`.  Models: /repo/src/evdev-tablet-pad-leds.c:530-550. -/
def fallback : Group :=
  { index := 0, numModes := 1, buttons := fun _ => true, rings := fun _ => true, strips := fun _ => true }

/-- `pad_init_leds`; `none` if there are too many buttons, and so no device.
Models: /repo/src/evdev-tablet-pad-leds.c:552-575. -/
def Cfg.groups (cfg : Cfg) (lit : Lit) : Option (List Group) :=
  if cfg.numButtons > 32 then none
  else match fromLeds cfg lit with
    | some gs => some gs
    | none => some [fallback]

/-- `libinput_tablet_pad_mode_group_has_button`.  Models: /repo/src/libinput.c:3216-3225. -/
def Group.hasButton (cfg : Cfg) (g : Group) (n : Nat) : Bool := decide (n < cfg.numButtons) && g.buttons n

/-- `libinput_tablet_pad_mode_group_has_ring`.  Models: /repo/src/libinput.c:3227-3236. -/
def Group.hasRing (cfg : Cfg) (g : Group) (n : Nat) : Bool := decide (n < cfg.numRings) && g.rings n

/-- `libinput_tablet_pad_mode_group_has_strip`.  Models: /repo/src/libinput.c:3238-3247. -/
def Group.hasStrip (cfg : Cfg) (g : Group) (n : Nat) : Bool := decide (n < cfg.numStrips) && g.strips n

/-- `libinput_tablet_pad_mode_group_button_is_toggle`.
Models: /repo/src/libinput.c:3249-3258. -/
def Group.isToggle (cfg : Cfg) (g : Group) (n : Nat) : Bool := decide (n < cfg.numButtons) && g.toggles n

/-- `evdev_device_tablet_pad_get_mode_group`.  Models: /repo/src/evdev-tablet-pad-leds.c:621-635,
/repo/src/evdev-tablet-pad-leds.c:605-619. -/
def getGroup (gs : List Group) (i : Nat) : Option Group := if i ≥ gs.length then none else gs.find? (fun g => g.index == i)

/-! ### The pad -/

/-- A position: the finger is gone (-1), an angle in degrees, or `value` on a strip that goes up to `max` (`flip` if the pad is used
left-handed). -/
inductive Pos where
  | up
  | angle (degrees : Rat)
  | slide (value max : Int) (flip : Bool)
deriving DecidableEq, Repr

inductive Ev where
  | button (n : Nat) (pressed : Bool) (group mode : Nat)
  | key (code : Nat) (pressed : Bool)
  | ring (n : Nat) (pos : Pos) (group mode : Nat)
  | strip (n : Nat) (pos : Pos) (group mode : Nat)
deriving DecidableEq, Repr

/-- `struct pad_dispatch`.  `raw` is what libevdev has; `misc` is `have_abs_misc_terminator`; `aborted` is set by a failed
assertion, after which there is no process any more.
Models: /repo/src/evdev-tablet-pad.h:62-84. -/
structure Pad where
  axesUpdated : Bool := false
  pressed : Bool := false
  released : Bool := false
  changed : Abs → Bool := fun _ => false
  buttons : Nat → Bool := fun _ => false
  prev : Nat → Bool := fun _ => false
  misc : Bool := false
  raw : Abs → Int
  left : Bool := false
  wantLeft : Bool := false
  groups : List Group
  lit : Lit
  disabled : Bool := false
  opened : Bool := true
  aborted : Bool := false

/-- `KEY_CNT` codes. -/
def codes : List Nat := List.range 768

/-- `pad_button_set_down`.  Models: /repo/src/evdev-tablet-pad.c:83-97. -/
def Pad.setDown (s : Pad) (c : Nat) (down : Bool) : Pad :=
  let s := { s with buttons := fun c' => if c' = c then down else s.buttons c' }
  if down then { s with pressed := true } else { s with released := true }

/-- The kernel's events within a frame. -/
inductive KEv where
  | abs (a : Abs) (v : Int)
  | key (code v : Nat)
deriving DecidableEq, Repr

/-- `pad_process` but for `EV_SYN`.  libevdev has stored the value already.  Models: /repo/src/evdev-tablet-pad.c:477-506,
/repo/src/evdev-tablet-pad.c:99-145, /repo/src/evdev-tablet-pad.c:326-340. -/
def kev (s : Pad) : KEv → Pad
  | .abs a v =>
    let s := { s with raw := fun b => if b = a then v else s.raw b }
    if a = .misc then { s with misc := true }
    else { s with changed := fun b => if b = a then true else s.changed b, axesUpdated := true }
  | .key c v => if v = 2 then s else s.setDown c (v != 0)

/-- `normalize_ring`, and `pad_handle_ring`.  Models: /repo/src/evdev-tablet-pad.c:147-161,
/repo/src/evdev-tablet-pad.c:177-194. -/
def ringAngle (cfg : Cfg) (left : Bool) (a : Abs) (v : Int) : Rat :=
  let x : Rat := ((v - cfg.min a : Int) : Rat) / ((cfg.max a - cfg.min a + 1 : Int) : Rat) - 1 / 4
  let d := (if x < 0 then x + 1 else x) * 360
  if left then (if d + 180 < 360 then d + 180 else d + 180 - 360) else d

/-- `pad_handle_strip`; a value of 0 stands for 0.0, whichever hand the pad is used with.
Models: /repo/src/evdev-tablet-pad.c:196-216. -/
def stripPos (cfg : Cfg) (left : Bool) (a : Abs) (v : Int) : Pos := .slide v (cfg.max a) (left && v != 0)

/-- One of the rings in `pad_check_notify_axes`.  Models: /repo/src/evdev-tablet-pad.c:250-324,
/repo/src/evdev-tablet-pad.c:218-232, /repo/src/libinput.c:2728-2756. -/
def Pad.ring (cfg : Cfg) (up : Bool) (a : Abs) (n : Nat) (s : Pad) : Pad × List Ev :=
  if s.aborted || !s.changed a then (s, [])
  else match s.groups.find? (fun g => g.hasRing cfg n) with
    | none => ({ s with aborted := true }, [])
    | some g => (s, [.ring n (if up then .up else .angle (ringAngle cfg s.left a (s.raw a))) g.index g.mode])

/-- One of the strips in `pad_check_notify_axes`.  Models: /repo/src/evdev-tablet-pad.c:250-324,
/repo/src/evdev-tablet-pad.c:234-248, /repo/src/libinput.c:2758-2786. -/
def Pad.strip (cfg : Cfg) (up : Bool) (a : Abs) (n : Nat) (s : Pad) : Pad × List Ev :=
  if s.aborted || !s.changed a then (s, [])
  else match s.groups.find? (fun g => g.hasStrip cfg n) with
    | none => ({ s with aborted := true }, [])
    | some g => (s, [.strip n (if up then .up else stripPos cfg s.left a (s.raw a)) g.index g.mode])

/-- `pad_check_notify_axes`.  Models: /repo/src/evdev-tablet-pad.c:250-324. -/
def Pad.notifyAxes (cfg : Cfg) (s : Pad) : Pad × List Ev :=
  let up := s.misc && s.raw .misc == 0
  let a := s.ring cfg up .ring1 0
  let b := a.1.ring cfg up .ring2 1
  let c := b.1.strip cfg up .strip1 0
  let d := c.1.strip cfg up .strip2 1
  ({ d.1 with changed := fun _ => false, misc := false }, a.2 ++ b.2 ++ c.2 ++ d.2)

/-- `pad_button_update_mode`.  Models: /repo/src/evdev-tablet-pad-leds.c:586-603. -/
def Group.update (cfg : Cfg) (lit : Lit) (g : Group) (n : Nat) (pressed : Bool) : Group :=
  if pressed = false then g
  else if g.isToggle cfg n = false then g
  else match readMode (lit g.index) (List.range g.leds) with
    | some m => { g with mode := m }
    | none => g

/-- One button in `pad_notify_button_mask`.  Models: /repo/src/evdev-tablet-pad.c:358-411,
/repo/src/evdev-tablet-pad.c:342-356, /repo/src/libinput.c:2700-2726,
/repo/src/libinput.c:2788-2808. -/
def Pad.notifyButton (cfg : Cfg) (pressed : Bool) (s : Pad) (c : Nat) : Pad × List Ev :=
  if s.aborted then (s, [])
  else match cfg.map c with
    | .unmapped => (s, [])
    | .key k => (s, [.key k pressed])
    | .button n => match s.groups.find? (fun g => g.hasButton cfg n) with
      | none => ({ s with aborted := true }, [])
      | some g =>
        let g' := g.update cfg s.lit n pressed
        ({ s with groups := onGroup g.index (fun _ => g') s.groups }, [.button n pressed g.index g'.mode])

/-- `pad_notify_button_mask`.  Models: /repo/src/evdev-tablet-pad.c:358-411. -/
def notifyMask (cfg : Cfg) (pressed : Bool) (mask : Nat → Bool) : List Nat → Pad → Pad × List Ev
  | [], s => (s, [])
  | c :: cs, s =>
    let r := if mask c then s.notifyButton cfg pressed c else (s, [])
    let r' := notifyMask cfg pressed mask cs r.1
    (r'.1, r.2 ++ r'.2)

/-- `pad_change_to_left_handed`.  Models: /repo/src/evdev-tablet-pad.c:429-441,
/repo/src/evdev-tablet-pad.c:70-81. -/
def Pad.changeLeft (s : Pad) : Pad := if codes.any s.buttons then s else { s with left := s.wantLeft }

/-- `pad_flush`.  Models: /repo/src/evdev-tablet-pad.c:443-475, /repo/src/evdev-tablet-pad.c:413-427,
/repo/src/evdev-tablet-pad.c:39-49, /repo/src/evdev-tablet-pad.c:51-61. -/
def Pad.flush (cfg : Cfg) (s : Pad) : Pad × List Ev :=
  let a := if s.axesUpdated then
      let r := s.notifyAxes cfg
      ({ r.1 with axesUpdated := false }, r.2)
    else (s, [])
  let b := if a.1.released then
      let r := notifyMask cfg false (fun c => a.1.prev c && !a.1.buttons c) codes a.1
      ({ r.1 with released := false }.changeLeft, r.2)
    else (a.1, [])
  let c := if b.1.pressed then
      let r := notifyMask cfg true (fun c => b.1.buttons c && !b.1.prev c) codes b.1
      ({ r.1 with pressed := false }, r.2)
    else (b.1, [])
  ({ c.1 with prev := c.1.buttons }, a.2 ++ b.2 ++ c.2)

/-- `pad_suspend`: codes from `KEY_ESC` on.  Models: /repo/src/evdev-tablet-pad.c:508-522. -/
def Pad.suspend (cfg : Cfg) (s : Pad) : Pad × List Ev :=
  ((codes.filter (fun c => decide (1 ≤ c))).foldl (fun t c => if t.buttons c then t.setDown c false else t) s).flush cfg

/-- Everything that can happen to a pad.  `leds` is the firmware switching LEDs. -/
inductive Op where
  | frame (evs : List KEv)
  | suspend
  | resume (raw : Abs → Int)
  | setLeft (b : Bool)
  | setDisabled (b : Bool)
  | leds (lit : Lit)

/-- One operation.  Models: /repo/src/evdev-tablet-pad.c:691-714, /repo/src/evdev.c:607-617,
/repo/src/evdev.c:2764-2789, /repo/src/evdev.c:2791-2855. -/
def step (cfg : Cfg) (s : Pad) (op : Op) : Pad × List Ev :=
  if s.aborted then (s, []) else
  match op with
  | .frame evs => if s.opened then (evs.foldl kev s).flush cfg else (s, [])
  | .suspend =>
    if s.opened then
      let r := s.suspend cfg
      ({ r.1 with opened := false }, r.2)
    else (s, [])
  | .resume raw => if s.opened then (s, []) else ({ s with raw := raw, opened := true }, [])
  | .setLeft b => ({ s with wantLeft := b }.changeLeft, [])
  | .setDisabled b =>
    if b = s.disabled then (s, [])
    else if b then
      let r := s.suspend cfg
      ({ r.1 with disabled := true }, r.2)
    else ({ s with disabled := false }, [])
  | .leds lit => ({ s with lit := lit }, [])

def run (cfg : Cfg) : Pad → List Op → Pad × List Ev
  | s, [] => (s, [])
  | s, op :: ops =>
    let r := step cfg s op
    let r' := run cfg r.1 ops
    (r'.1, r.2 ++ r'.2)

/-- `evdev_tablet_pad_create`; `none` if the device is refused.  Models: /repo/src/evdev-tablet-pad.c:731-751,
/repo/src/evdev-tablet-pad.c:668-683. -/
def create (cfg : Cfg) (lit : Lit) (raw : Abs → Int) : Option Pad :=
  match cfg.groups lit with
  | none => none
  | some gs => some { raw, groups := gs, lit }

end Libinput.Pad
