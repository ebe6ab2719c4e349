import Verif.Touch.Model
import Verif.Scroll.Model
/-
What a touchpad does with its fingers once the touches are known: palms, thumbs, edge scrolling, two-finger scrolling,
gestures, pointer motion, and disabling while typing or while a trackpoint is in use.
The touches of each frame are an input here; how they follow the kernel's events is modelled in Verif/Touch.
Also inputs, so that every theorem holds for whatever they are: what tapping and the buttons decide, whether a jump was
detected, whether a touch is fast, the directions computed with `atan2`, and the values of the acceleration filter.
-/
namespace Libinput.Motion
open Touch (St)

/-- `enum touch_palm_state`.  Models: /repo/src/evdev-mt-touchpad.h:70-79. -/
inductive Palm where
  | none | edge | typing | trackpoint | tool | pressure | size | arbitration
deriving DecidableEq, Repr

/-- `enum tp_edge_scroll_touch_state`.  Models: /repo/src/evdev-mt-touchpad.h:150-155. -/
inductive EdgeSt where
  | none | new | edge | area
deriving DecidableEq, Repr

/-- `enum tp_gesture_state`.  Models: /repo/src/evdev-mt-touchpad.h:157-163. -/
inductive GestSt where
  | none | unknown | scroll | pinch | swipe
deriving DecidableEq, Repr

/-- `enum tp_thumb_state`.  Models: /repo/src/evdev-mt-touchpad.h:165-173. -/
inductive ThumbSt where
  | finger | jailed | pinch | suppressed | revived | revivedJailed | dead
deriving DecidableEq, Repr

/-- The scroll methods of a touchpad. -/
inductive Method where
  | off | twoFinger | edge
deriving DecidableEq, Repr

inductive Axis where
  | vertical | horizontal
deriving DecidableEq, Repr

/-- `struct device_coords`. -/
structure Point where
  x : Int := 0
  y : Int := 0
deriving DecidableEq, Repr

/-- The part of `struct tp_touch` that matters here.  `hist` is the motion history, newest point first; `fast` is
`speed.exceeded_count`; `edgeR`, `edgeB` are the bits of `scroll.edge`; `dir` is `scroll.direction`, `none` for -1;
`from_` is `scroll.initial`, `start` is `gesture.initial`; `active` is what `tp_button_touch_active` says.
Models: /repo/src/evdev-mt-touchpad.h:181-272. -/
structure Finger where
  index : Nat
  st : St := .none
  dirty : Bool := false
  pos : Point := {}
  pressure : Int := 0
  touchMajor : Int := 0
  touchMinor : Int := 0
  toolPalm : Bool := false
  hist : List Point := []
  histReset : Bool := false
  began : Nat := 0
  fast : Nat := 0
  pinned : Bool := false
  palm : Palm := .none
  palmTime : Nat := 0
  palmFirst : Point := {}
  edgeSt : EdgeSt := .none
  edgeR : Bool := false
  edgeB : Bool := false
  dir : Option Axis := none
  from_ : Point := {}
  edgeTimer : Option Nat := none
  start : Point := {}
  active : Bool := false
deriving DecidableEq, Repr

/-- What is known about one touch in a frame.  `raw` is the point the kernel reports (or the last one, for a touch that
ends), `pos` that point after the hysteresis; `jump`: a jump was detected; `fast`: its speed is above the threshold;
`unpin`: it moved 1.5 mm from where it was pinned; `inSoft`: it is in a software button area; `palmDirs`, `gestDirs`: the
directions it moved in since it was taken for a palm, and since the gesture began; `active`: whether it is in the main area
for the software buttons after this frame. -/
structure View where
  st : St
  dirty : Bool := false
  raw : Point := {}
  pos : Point := {}
  pressure : Int := 0
  touchMajor : Int := 0
  touchMinor : Int := 0
  toolPalm : Bool := false
  jump : Bool := false
  fast : Bool := false
  unpin : Bool := false
  inSoft : Bool := false
  palmDirs : Nat := 0
  gestDirs : Nat := 0
  active : Bool := true
deriving DecidableEq, Repr

/-- What else is known in a frame.  `reset`: the quirk that forgets the motion history applies; `press`: the button of a
clickpad was just pressed, `held`: it is down; `ignore`: tapping or the buttons want the motion ignored; `dragging`: a
tap-and-drag is going on; `click`: a click of a clickpad was processed; `motion`: some position changed; `dx`, `dy`: the two-finger scroll delta after the filter and
the axis constraints; `bx`, `bys`: how much was scrolled when a scroll is recognised; `turned`: the scale or the angle
of a pinch changed. -/
structure Frame where
  reset : Bool := false
  press : Bool := false
  held : Bool := false
  ignore : Bool := false
  dragging : Bool := false
  click : Bool := false
  motion : Bool := true
  dx : Int := 0
  dy : Int := 0
  bx : Int := 0
  bys : Int := 0
  turned : Bool := false
deriving DecidableEq, Repr

/-- What does not change.  `rx`, `ry`: the resolution of the axes in units per mm; the edges and lines are in units. -/
structure Config where
  rx : Nat
  ry : Nat
  rightEdge : Int
  bottomEdge : Int
  palmLeft : Int
  palmRight : Int
  palmUpper : Int
  palmPressure : Option Int
  palmSize : Option Int
  palmTool : Bool
  monitorTrackpoint : Bool
  thumbs : Bool
  upperLine : Int
  lowerLine : Int
  thumbPressure : Option Int
  thumbSize : Option Int
  clickpad : Bool
  gestures : Bool
  numSlots : Nat
  arith : Scroll.Arith Int

/-- `tp->thumb`.  `index` is `none` for `UINT_MAX`.  Models: /repo/src/evdev-mt-touchpad-thumb.c:69-75. -/
structure Thumb where
  st : ThumbSt := .finger
  index : Option Nat := none
  pinchOk : Bool := true
deriving DecidableEq, Repr

/-- `tp->gesture`.  `first`, `second` are the indices of the two touches that are watched; `center` is twice the centre of
a pinch.  Models: /repo/src/evdev-mt-touchpad.h:346-360. -/
structure Gest where
  st : GestSt := .none
  started : Bool := false
  count : Nat := 0
  pending : Nat := 0
  timer : Option Nat := none
  first : Nat := 0
  second : Nat := 0
  time : Nat := 0
  center : Point := {}
deriving DecidableEq, Repr

/-- `tp->dwt`.  `keys`, `mods`: the keys and the modifiers in the two masks; `paired`: the keyboards. -/
structure Dwt where
  enabled : Bool := true
  active : Bool := false
  keys : List Nat := []
  mods : List Nat := []
  last : Nat := 0
  timer : Option Nat := none
  paired : List Nat := []
deriving DecidableEq, Repr

/-- The trackpoint part of `tp->palm`. -/
structure Trackpoint where
  active : Bool := false
  count : Nat := 0
  last : Nat := 0
  timer : Option Nat := none
deriving DecidableEq, Repr

/-- The touchpad.  `areas`: the click method is software button areas; `arb`: pen arbitration is on; `tapOff`: tapping is
suspended; `scroll` is the two-finger scrolling of the device. -/
structure Pad where
  cfg : Config
  touches : List Finger
  method : Method := .twoFinger
  areas : Bool := false
  thumb : Thumb := {}
  gest : Gest := {}
  dwt : Dwt := {}
  trk : Trackpoint := {}
  arb : Bool := false
  arbTimer : Option Nat := none
  tapOff : Bool := false
  suspended : Bool := false
  scroll : Scroll.State Int

inductive Kind where
  | swipe | pinch
deriving DecidableEq, Repr

/-- What is sent.  `motion who`: a pointer motion made of the movement of the touches `who`.  `edge i a v`, `edgeStop i a`:
a scroll event on the axis `a` by the touch `i` on the edge, and its end.  `two e who`: a scroll event of two-finger
scrolling.  `begin`, `update`, `end_`: a gesture with so many fingers.  `bug`: a message about a bug in libinput. -/
inductive Out where
  | motion (who : List Nat)
  | edge (i : Nat) (a : Axis) (v : Int)
  | edgeStop (i : Nat) (a : Axis)
  | two (e : Scroll.Out Int)
  | begin (k : Kind) (n : Nat)
  | update (k : Kind) (n : Nat)
  | end_ (k : Kind) (n : Nat) (cancelled : Bool)
  | bug
deriving DecidableEq, Repr

/-! ### Touches -/

/-- The touch with index `i` is replaced. -/
def Pad.put (s : Pad) (i : Nat) (t : Finger) : Pad := { s with touches := s.touches.set i t }

/-- The touch is down. -/
def Finger.down (t : Finger) : Bool := t.st == .begin || t.st == .update

/-- `tp->nfingers_down`.  Simplified: counted from the touches (Verif/Touch shows that this is the same). -/
def Pad.fingers (s : Pad) : Nat := s.touches.countP Finger.down

/-- `tp_touch_get_edge`.  Models: /repo/src/evdev-mt-touchpad-edge-scroll.c:72-87. -/
def Pad.onRight (s : Pad) (t : Finger) : Bool := s.method == .edge && decide (s.cfg.rightEdge < t.pos.x)
def Pad.onBottom (s : Pad) (t : Finger) : Bool := s.method == .edge && decide (s.cfg.bottomEdge < t.pos.y)

/-- `tp_thumb_ignored`.  Models: /repo/src/evdev-mt-touchpad-thumb.c:132-142. -/
def Pad.thumbIgnored (s : Pad) (t : Finger) : Bool :=
  s.cfg.thumbs && s.thumb.index == some t.index &&
    match s.thumb.st with
    | .jailed | .pinch | .suppressed | .revivedJailed | .dead => true
    | .finger | .revived => false

/-- `tp_thumb_ignored_for_gesture`.  Models: /repo/src/evdev-mt-touchpad-thumb.c:155-165. -/
def Pad.thumbIgnoredG (s : Pad) (t : Finger) : Bool :=
  s.cfg.thumbs && s.thumb.index == some t.index &&
    match s.thumb.st with
    | .jailed | .suppressed | .revivedJailed | .dead => true
    | .finger | .revived | .pinch => false

/-- `tp_touch_active`.  Models: /repo/src/evdev-mt-touchpad.c:814-823, /repo/src/evdev-mt-touchpad-edge-scroll.c:534-539. -/
def Pad.touchActive (s : Pad) (t : Finger) : Bool :=
  t.down && t.palm == .none && !t.pinned && !s.thumbIgnored t && t.active && t.edgeSt == .area

/-- `tp_touch_active_for_gesture`.  Models: /repo/src/evdev-mt-touchpad.c:825-834. -/
def Pad.gestActive (s : Pad) (t : Finger) : Bool :=
  t.down && t.palm == .none && !t.pinned && !s.thumbIgnoredG t && t.active && t.edgeSt == .area

/-- `tp_get_delta`.  Models: /repo/src/evdev-mt-touchpad.c:459-474. -/
def Finger.delta (t : Finger) : Point :=
  match t.hist with
  | p :: q :: _ => ⟨p.x - q.x, p.y - q.y⟩
  | _ => {}

/-- `tp_motion_history_push`: at most 4 points are kept.  Models: /repo/src/evdev-mt-touchpad.c:140-151. -/
def Finger.push (t : Finger) : Finger := { t with hist := (t.pos :: t.hist).take 4 }

/-- What the frame tells about a touch, before it is processed: `tp_new_touch` if the touch was not there before,
`tp_begin_touch` if it begins and `tp_end_touch` if it ends.
Models: /repo/src/evdev-mt-touchpad.c:313-347, /repo/src/evdev-mt-touchpad.c:349-363, /repo/src/evdev-mt-touchpad.c:421-439. -/
def Finger.take (t : Finger) (v : View) (now : Nat) : Finger :=
  let t := if t.st = .none then { t with palm := .none, pinned := false, fast := 0, hist := [] } else t
  let t := { t with st := v.st, dirty := v.dirty, pos := v.raw, pressure := v.pressure, touchMajor := v.touchMajor, touchMinor := v.touchMinor, toolPalm := v.toolPalm }
  match v.st with
  | .begin => { t with began := now, palmTime := now, fast := 0 }
  | .end_ => { t with palm := .none, palmTime := 0, pinned := false, fast := 0 }
  | _ => t

/-! ### Thumbs -/

/-- `tp_thumb_set_state` for a touch.  Models: /repo/src/evdev-mt-touchpad-thumb.c:49-67. -/
def Pad.setThumb (s : Pad) (i : Nat) (st : ThumbSt) : Pad := { s with thumb := { s.thumb with st := st, index := some i } }

/-- `tp_thumb_reset`.  Models: /repo/src/evdev-mt-touchpad-thumb.c:69-75. -/
def Pad.thumbReset (s : Pad) : Pad := { s with thumb := {} }

/-- `tp_thumb_lift`.  Models: /repo/src/evdev-mt-touchpad-thumb.c:77-82. -/
def Pad.thumbLift (s : Pad) : Pad := { s with thumb := { s.thumb with st := .finger, index := none } }

/-- `tp_thumb_in_exclusion_area`.  Models: /repo/src/evdev-mt-touchpad-thumb.c:84-91. -/
def Pad.inExclusion (s : Pad) (t : Finger) : Bool := decide (s.cfg.lowerLine < t.pos.y) && s.method != .edge

/-- `tp_thumb_detect_pressure_size`; `minor < threshold * 0.6` without the fraction.
Models: /repo/src/evdev-mt-touchpad-thumb.c:93-112. -/
def Pad.looksLikeThumb (s : Pad) (t : Finger) : Bool :=
  (match s.cfg.thumbPressure with
    | some p => decide (p < t.pressure) && s.inExclusion t
    | none => false) ||
  (match s.cfg.thumbSize with
    | some z => decide (z < t.touchMajor) && decide (10 * t.touchMinor < 6 * z)
    | none => false)

/-- `tp_thumb_needs_jail`.  Models: /repo/src/evdev-mt-touchpad-thumb.c:114-130. -/
def Pad.needsJail (s : Pad) (t : Finger) : Bool :=
  if decide (t.pos.y < s.cfg.upperLine) || s.method == .edge then false
  else if !s.inExclusion t && (s.cfg.thumbSize.isSome || s.cfg.thumbPressure.isSome) && !s.looksLikeThumb t then false
  else if 10 ≤ t.fast then false
  else true

/-- `tp_thumb_suppress`.  Models: /repo/src/evdev-mt-touchpad-thumb.c:167-179. -/
def Pad.thumbSuppress (s : Pad) (i : Nat) : Pad :=
  if s.thumb.st = .finger ∨ s.thumb.st = .jailed ∨ s.thumb.st = .pinch ∨ s.thumb.index ≠ some i then s.setThumb i .suppressed
  else s.setThumb i .dead

/-- `tp_thumb_pinch`.  Models: /repo/src/evdev-mt-touchpad-thumb.c:181-190. -/
def Pad.thumbPinch (s : Pad) (i : Nat) : Pad :=
  if s.thumb.st = .finger ∨ s.thumb.st = .jailed ∨ s.thumb.index ≠ some i then s.setThumb i .pinch
  else if s.thumb.st ≠ .pinch then s.thumbSuppress i
  else s

/-- `tp_thumb_revive`.  Models: /repo/src/evdev-mt-touchpad-thumb.c:192-204. -/
def Pad.thumbRevive (s : Pad) (t : Finger) : Pad :=
  if (s.thumb.st ≠ .suppressed ∧ s.thumb.st ≠ .pinch) ∨ s.thumb.index ≠ some t.index then s
  else if s.needsJail t then s.setThumb t.index .revivedJailed
  else s.setThumb t.index .revived

/-- The start of `tp_thumb_update_touch`: a fast touch ends the detection of pinches.  The loop that looks for the touch
with the thumb's index always finds it.  Models: /repo/src/evdev-mt-touchpad-thumb.c:214-231. -/
def Pad.noPinch (s : Pad) (t : Finger) : Pad :=
  if 10 ≤ t.fast ∧ s.thumb.pinchOk = true ∧ s.gest.st = .none then
    { s with thumb := { s.thumb with pinchOk := false, st := if s.thumb.st = .pinch then .suppressed else s.thumb.st } }
  else s

/-- The rest of `tp_thumb_update_touch` for a touch that is alone.
Models: /repo/src/evdev-mt-touchpad-thumb.c:245-267. -/
def Pad.thumbAlone (s : Pad) (t : Finger) : Pad :=
  let s := s.thumbRevive t
  if t.st = .begin ∧ s.needsJail t = true then s.setThumb t.index .jailed
  else
    let s := if s.thumb.st = .jailed ∧ s.needsJail t = false then s.setThumb t.index .finger else s
    if s.thumb.st = .revivedJailed ∧ s.needsJail t = false then s.setThumb t.index .revived else s

/-- `tp_thumb_update_touch`.  Models: /repo/src/evdev-mt-touchpad-thumb.c:206-267. -/
def Pad.thumbUpdate (s : Pad) (t : Finger) : Pad :=
  if s.cfg.thumbs = false then s
  else
    let s := s.noPinch t
    if t.st = .end_ ∧ s.thumb.index = some t.index then s.thumbLift
    else if 1 < s.fingers then s
    else s.thumbAlone t

/-- What `tp_thumb_update_multifinger` collects.  `speed`: the highest `exceeded_count`. -/
structure Scan where
  first : Option Finger := none
  second : Option Finger := none
  newest : Option Finger := none
  oldest : Option Finger := none
  speed : Nat := 0
deriving DecidableEq, Repr

/-- The two lowest touches.  Models: /repo/src/evdev-mt-touchpad-thumb.c:300-313. -/
def Scan.lowest (c : Scan) (t : Finger) : Scan :=
  match c.first with
  | none => { c with first := some t }
  | some f =>
    if f.pos.y < t.pos.y then { c with first := some t, second := some f }
    else match c.second with
      | none => { c with second := some t }
      | some g => if g.pos.y < t.pos.y then { c with second := some t } else c

/-- One touch in the loop.  Models: /repo/src/evdev-mt-touchpad-thumb.c:282-314. -/
def Scan.add (c : Scan) (t : Finger) : Scan :=
  if t.st = .none ∨ t.st = .hovering then c
  else
    let c := if t.st = .begin then { c with newest := some t } else c
    let c := { c with speed := max c.speed t.fast }
    let c := match c.oldest with
      | none => { c with oldest := some t }
      | some o => if t.began < o.began then { c with oldest := some t } else c
    c.lowest t

/-- The distance between two touches on one axis is more than, or less than, so many mm. -/
def Config.apartX (c : Config) (a b : Point) (mm : Nat) : Bool := decide (mm * c.rx < (a.x - b.x).natAbs)
def Config.apartY (c : Config) (a b : Point) (mm : Nat) : Bool := decide (mm * c.ry < (a.y - b.y).natAbs)
def Config.nearX (c : Config) (a b : Point) (mm : Nat) : Bool := decide ((a.x - b.x).natAbs < mm * c.rx)
def Config.nearY (c : Config) (a b : Point) (mm : Nat) : Bool := decide ((a.y - b.y).natAbs < mm * c.ry)

/-- The newest touch came less than 100 ms after the oldest.  Models: /repo/src/evdev-mt-touchpad-thumb.c:361-362. -/
def Scan.quick (c : Scan) : Bool :=
  match c.newest, c.oldest with
  | some n, some o => decide (n.began - o.began < 100000)
  | _, _ => false

/-- The end of `tp_thumb_update_multifinger`: the touches are apart.
Models: /repo/src/evdev-mt-touchpad-thumb.c:361-380. -/
def Pad.thumbContext (s : Pad) (c : Scan) (f g : Finger) : Pad :=
  if c.quick && decide (f.pos.y < s.cfg.lowerLine) then s.thumbLift
  else if s.cfg.apartY f.pos g.pos 25 then
    if s.thumb.pinchOk then s.thumbPinch f.index else s.thumbSuppress f.index
  else s.thumbLift

/-- `tp_thumb_update_multifinger`.  Models: /repo/src/evdev-mt-touchpad-thumb.c:269-381. -/
def Pad.thumbMulti (s : Pad) : Pad :=
  let c := s.touches.foldl Scan.add {}
  match c.first, c.second with
  | some f, some g =>
    match (if s.thumb.st = .finger ∧ 2 ≤ s.fingers ∧ 5 < c.speed ∧
        (s.method ≠ .twoFinger ∨ s.cfg.apartX f.pos g.pos 35 = true ∨ s.cfg.apartY f.pos g.pos 25 = true) then c.newest else none) with
    | some n => s.thumbSuppress n.index
    | none =>
      if s.cfg.nearX f.pos g.pos 35 && s.cfg.nearY f.pos g.pos 25 then s.thumbLift
      else s.thumbContext c f g
  | _, _ => s

/-! ### Palms -/

/-- `tp_palm_in_edge` at a point.  Models: /repo/src/evdev-mt-touchpad.c:849-854, /repo/src/evdev-mt-touchpad.c:856-860, /repo/src/evdev-mt-touchpad.c:862-866. -/
def Config.inSide (c : Config) (p : Point) : Bool := decide (p.x < c.palmLeft) || decide (c.palmRight < p.x)
def Config.inTop (c : Config) (p : Point) : Bool := decide (p.y < c.palmUpper)
def Config.inPalmEdge (c : Config) (p : Point) : Bool := c.inSide p || c.inTop p

/-- `tp_palm_detect_pressure_triggered`.  Models: /repo/src/evdev-mt-touchpad.c:1102-1118. -/
def Pad.palmPressure (s : Pad) (t : Finger) : Finger × Bool :=
  match s.cfg.palmPressure with
  | none => (t, false)
  | some p =>
    if t.palm ≠ .none ∧ t.palm ≠ .pressure then (t, false)
    else
      let t := if p < t.pressure then { t with palm := .pressure } else t
      (t, t.palm == .pressure)

/-- `tp_palm_detect_arbitration_triggered`.  Models: /repo/src/evdev-mt-touchpad.c:1120-1131. -/
def Pad.palmArb (s : Pad) (t : Finger) : Finger × Bool :=
  if s.arb then ({ t with palm := .arbitration }, true) else (t, false)

/-- `tp_palm_detect_dwt_triggered`.  Models: /repo/src/evdev-mt-touchpad.c:883-915. -/
def Pad.palmDwt (s : Pad) (t : Finger) : Finger × Bool :=
  if s.dwt.enabled = true ∧ s.dwt.active = true ∧ t.st = .begin then ({ t with palm := .typing, palmFirst := t.pos }, true)
  else if s.dwt.active = false ∧ t.st = .update ∧ t.palm = .typing ∧ (t.palmTime = 0 ∨ s.dwt.last < t.palmTime) then
    ({ t with palm := .none }, false)
  else (t, false)

/-- `tp_palm_detect_trackpoint_triggered`.  Models: /repo/src/evdev-mt-touchpad.c:917-945. -/
def Pad.palmTrk (s : Pad) (t : Finger) : Finger × Bool :=
  if s.cfg.monitorTrackpoint = false then (t, false)
  else if t.palm = .none ∧ t.st = .begin ∧ s.trk.active = true then ({ t with palm := .trackpoint }, true)
  else if t.palm = .trackpoint ∧ t.st = .update ∧ s.trk.active = false ∧ (t.palmTime = 0 ∨ s.trk.last < t.palmTime) then
    ({ t with palm := .none }, false)
  else (t, false)

/-- `tp_palm_detect_tool_triggered`.  Models: /repo/src/evdev-mt-touchpad.c:947-967. -/
def Pad.palmTool (s : Pad) (t : Finger) : Finger × Bool :=
  if s.cfg.palmTool = false then (t, false)
  else if t.palm ≠ .none ∧ t.palm ≠ .tool then (t, false)
  else
    let t := if t.palm = .none ∧ t.toolPalm = true then { t with palm := .tool }
      else if t.palm = .tool ∧ t.toolPalm = false then { t with palm := .none } else t
    (t, t.palm == .tool)

/-- `tp_palm_detect_touch_size_triggered`.  Models: /repo/src/evdev-mt-touchpad.c:1025-1049. -/
def Pad.palmSize (s : Pad) (t : Finger) : Finger × Bool :=
  match s.cfg.palmSize with
  | none => (t, false)
  | some z =>
    if t.palm ≠ .none ∧ t.palm ≠ .size then (t, false)
    else if z < t.touchMajor ∨ z < t.touchMinor then ({ t with palm := .size }, true)
    else (t, false)

/-- `tp_palm_detect_multifinger`.  Models: /repo/src/evdev-mt-touchpad.c:996-1023. -/
def Pad.palmMulti (s : Pad) (t : Finger) : Bool :=
  decide (2 ≤ s.fingers) && s.touches.any fun o => o.index != t.index && s.touchActive o && o.palm == .none

/-- `tp_palm_detect_move_out_of_edge`.  `NE|E|SE|SW|W|NW` is 238 and `S|SE|SW` is 56; the directions are the low 8 bits.
Models: /repo/src/evdev-mt-touchpad.c:969-994, /repo/src/evdev-mt-touchpad.c:836-841, /repo/src/evdev-mt-touchpad.c:843-847. -/
def Pad.palmMovedOut (s : Pad) (t : Finger) (dirs : Nat) (now : Nat) : Bool :=
  let dirs := dirs % 256
  if now < t.palmTime + 200000 && !s.cfg.inPalmEdge t.pos then
    let allowed := if s.cfg.inSide t.palmFirst then 238 else if s.cfg.inTop t.palmFirst then 56 else 0
    dirs &&& allowed != 0 && dirs &&& (255 - allowed) == 0
  else false

/-- `tp_palm_detect_edge`.  Models: /repo/src/evdev-mt-touchpad.c:1051-1100. -/
def Pad.palmEdge (s : Pad) (t : Finger) (v : View) (now : Nat) : Finger × Bool :=
  if t.palm = .edge then
    (if s.palmMulti t || s.palmMovedOut t v.palmDirs now then { t with palm := .none } else t, false)
  else if s.palmMulti t then (t, false)
  else if t.st ≠ .begin ∨ s.cfg.inPalmEdge t.pos = false then (t, false)
  else if s.cfg.clickpad && v.inSoft then (t, false)
  else if s.onRight t then (t, false)
  else ({ t with palm := .edge, palmTime := now, palmFirst := t.pos }, true)

/-- `tp_palm_detect`; the debug message is left out.  Models: /repo/src/evdev-mt-touchpad.c:1133-1207. -/
def Pad.palmDetect (s : Pad) (t : Finger) (v : View) (now : Nat) : Finger :=
  let r := s.palmPressure t
  if r.2 then r.1 else
  let r := s.palmArb r.1
  if r.2 then r.1 else
  let r := s.palmDwt r.1
  if r.2 then r.1 else
  let r := s.palmTrk r.1
  if r.2 then r.1 else
  let r := s.palmTool r.1
  if r.2 then r.1 else
  let r := s.palmSize r.1
  if r.2 then r.1 else
  let r := s.palmEdge r.1 v now
  if r.2 then r.1 else
  (s.palmPressure r.1).1

/-! ### Processing the touches of a frame -/

/-- The motion history is forgotten if the number of fingers changed, and once more in the next frame.
Models: /repo/src/evdev-mt-touchpad.c:1726-1732. -/
def Finger.forget (t : Finger) (want : Bool) : Finger :=
  if want then { t with hist := [], histReset := true }
  else if t.histReset then { t with hist := [], histReset := false }
  else t

/-- The rest of the loop body of `tp_process_state` for a touch that changed, after palm detection.  The hysteresis has
moved the point.  Models: /repo/src/evdev-mt-touchpad.c:1763-1790. -/
def Finger.finish (t : Finger) (v : View) : Finger :=
  let t := { t with pos := v.pos }.push
  let t := { t with fast := if v.fast then (if t.fast < 15 then t.fast + 1 else t.fast) else t.fast - 1 }
  if t.pinned && v.unpin then { t with pinned := false } else t

/-- The loop body of `tp_process_state`; `want`: the number of fingers changed.
Models: /repo/src/evdev-mt-touchpad.c:1722-1796. -/
def Pad.processOne (s : Pad) (i : Nat) (v : View) (want : Bool) (now : Nat) : Pad :=
  match s.touches[i]? with
  | none => s
  | some t =>
    if t.st = .none then s
    else
      let t := t.forget want
      if t.dirty = false then s.put i ({ t with fast := t.fast - 1 }.push)
      else
        let t := if v.jump then { t with hist := [] } else t
        let s := (s.put i t).thumbUpdate t
        s.put i ((s.palmDetect t v now).finish v)

/-- The loop of `tp_process_state`. -/
def Pad.processAll (s : Pad) (want : Bool) (now : Nat) : Nat → List View → Pad
  | _, [] => s
  | i, v :: vs => (s.processOne i v want now).processAll want now (i + 1) vs

/-! ### Edge scrolling -/

inductive EdgeEv where
  | touch | motion | release | timeout | posted
deriving DecidableEq, Repr

/-- `tp_edge_scroll_set_state`, `tp_edge_scroll_set_timer`.
Models: /repo/src/evdev-mt-touchpad-edge-scroll.c:107-132, /repo/src/evdev-mt-touchpad-edge-scroll.c:89-105. -/
def Pad.setEdge (s : Pad) (t : Finger) (st : EdgeSt) (now : Nat) : Finger :=
  let t := { t with edgeSt := st, edgeTimer := none }
  match st with
  | .none => { t with edgeR := false, edgeB := false }
  | .new => { t with edgeR := s.onRight t, edgeB := s.onBottom t, from_ := t.pos, edgeTimer := if s.areas then none else some (now + 300000) }
  | .edge => t
  | .area => { t with edgeR := false, edgeB := false }

/-- `t->scroll.edge &= tp_touch_get_edge(tp, t)`, and out of the edge if nothing is left. -/
def Pad.narrow (s : Pad) (t : Finger) (now : Nat) : Finger :=
  let t := { t with edgeR := t.edgeR && s.onRight t, edgeB := t.edgeB && s.onBottom t }
  if !t.edgeR && !t.edgeB then s.setEdge t .area now else t

/-- `tp_edge_scroll_handle_event`.
Models: /repo/src/evdev-mt-touchpad-edge-scroll.c:264-294, /repo/src/evdev-mt-touchpad-edge-scroll.c:134-164, /repo/src/evdev-mt-touchpad-edge-scroll.c:166-201, /repo/src/evdev-mt-touchpad-edge-scroll.c:203-237, /repo/src/evdev-mt-touchpad-edge-scroll.c:239-262. -/
def Pad.edgeEvent (s : Pad) (t : Finger) (e : EdgeEv) (now : Nat) : Finger × List Out :=
  match t.edgeSt, e with
  | .none, .touch => (if s.onRight t || s.onBottom t then s.setEdge t .new now else s.setEdge t .area now, [])
  | .none, _ => (t, [.bug])
  | .new, .touch => (t, [.bug])
  | .new, .motion => (s.narrow t now, [])
  | .new, .release => (s.setEdge t .none now, [])
  | .new, .timeout => (s.setEdge t .edge now, [])
  | .new, .posted => (s.setEdge t .edge now, [])
  | .edge, .touch => (t, [.bug])
  | .edge, .timeout => (t, [.bug])
  | .edge, .motion => (if t.edgeR && t.edgeB then s.narrow t now else t, [])
  | .edge, .release => (s.setEdge t .none now, [])
  | .edge, .posted => (t, [])
  | .area, .motion => (t, [])
  | .area, .release => (s.setEdge t .none now, [])
  | .area, _ => (t, [.bug])

/-- One touch in `tp_edge_scroll_handle_state`; a touch is never shown while it may end (C39).
Models: /repo/src/evdev-mt-touchpad-edge-scroll.c:363-416. -/
def Pad.edgeState (s : Pad) (t : Finger) (now : Nat) : Finger × List Out :=
  if s.method ≠ .edge then
    (match t.st with
      | .begin => { t with edgeSt := .area }
      | .end_ => { t with edgeSt := .none }
      | _ => t, [])
  else if t.dirty = false then (t, [])
  else match t.st with
    | .none | .hovering => (t, [])
    | .begin => s.edgeEvent t .touch now
    | .update => s.edgeEvent t .motion now
    | .maybeEnd | .end_ => s.edgeEvent t .release now

/-- `tp_edge_scroll_stop_events`, one touch.  Models: /repo/src/evdev-mt-touchpad-edge-scroll.c:510-532. -/
def Finger.edgeStop (t : Finger) : Finger × List Out :=
  match t.dir with
  | none => (t, [])
  | some a => ({ t with dir := none, edgeR := false, edgeB := false, edgeSt := .area }, [.edgeStop t.index a])

/-- The axis a touch scrolls on, and how far it moved on that axis.
Models: /repo/src/evdev-mt-touchpad-edge-scroll.c:443-465. -/
def Finger.edgeAxis (t : Finger) : Option Axis :=
  match t.edgeR, t.edgeB with
  | true, false => some .vertical
  | false, true => some .horizontal
  | _, _ => none

def Point.along (p : Point) : Axis → Int
  | .vertical => p.y
  | .horizontal => p.x

/-- The resolution of the axis. -/
def Config.res (c : Config) : Axis → Nat
  | .vertical => c.ry
  | .horizontal => c.rx

/-- Whether a touch moved 3 mm since it came to the edge.  Models: /repo/src/evdev-mt-touchpad-edge-scroll.c:480-489, /repo/src/evdev-mt-touchpad-edge-scroll.c:36. -/
def Config.farEnough (c : Config) (t : Finger) (a : Axis) : Bool :=
  decide (3 * c.res a ≤ (t.pos.along a - t.from_.along a).natAbs)

/-- A touch with an edge should not be in these states.  Models: /repo/src/evdev-mt-touchpad-edge-scroll.c:474-479. -/
def Finger.edgeBug (t : Finger) : List Out := if t.edgeSt = .none ∨ t.edgeSt = .area then [.bug] else []

/-- How far to scroll.  Models: /repo/src/evdev-mt-touchpad-edge-scroll.c:467-492. -/
def Config.edgeDelta (c : Config) (t : Finger) (a : Axis) : Int :=
  if t.edgeSt = .new ∧ c.farEnough t a = false then 0 else t.delta.along a

/-- The scroll event, if any.  Simplified: the constant filter scales by a factor that is not zero, and the value is
given before scaling and before natural scrolling.
Models: /repo/src/evdev-mt-touchpad-edge-scroll.c:467-504. -/
def Pad.edgeScroll (s : Pad) (t : Finger) (a : Axis) (now : Nat) : Finger × List Out :=
  if s.cfg.edgeDelta t a = 0 then (t, t.edgeBug)
  else
    let r := s.edgeEvent { t with dir := some a } .posted now
    (r.1, t.edgeBug ++ .edge t.index a (s.cfg.edgeDelta t a) :: r.2)

/-- One touch in `tp_edge_scroll_post_events`.  Models: /repo/src/evdev-mt-touchpad-edge-scroll.c:418-508. -/
def Pad.edgePost (s : Pad) (t : Finger) (now : Nat) : Finger × List Out :=
  if t.dirty = false then (t, [])
  else if t.palm ≠ .none ∨ s.thumbIgnored t = true then (t, [])
  else if (t.edgeR || t.edgeB) && !((t.edgeR && s.onRight t) || (t.edgeB && s.onBottom t)) then (t, [])
  else if !t.edgeR && !t.edgeB then
    match t.dir with
    | none => (t, [])
    | some a => ({ t with dir := none }, [.edgeStop t.index a])
  else match t.edgeAxis with
    | none => (t, [])
    | some a => s.edgeScroll t a now

/-- One function on each touch, in order; it does not look at the other touches. -/
def eachFinger (f : Finger → Finger × List Out) : List Finger → List Finger × List Out
  | [] => ([], [])
  | t :: ts =>
    let r := f t
    let q := eachFinger f ts
    (r.1 :: q.1, r.2 ++ q.2)

def Pad.each (s : Pad) (f : Finger → Finger × List Out) : Pad × List Out :=
  let r := eachFinger f s.touches
  ({ s with touches := r.1 }, r.2)

/-! ### Gestures -/

/-- The gesture a state stands for. -/
def GestSt.kind : GestSt → Option Kind
  | .swipe => some .swipe
  | .pinch => some .pinch
  | _ => Option.none

/-- What is sent when a gesture starts.  Models: /repo/src/evdev-mt-touchpad-gestures.c:114-136. -/
def beginOut (st : GestSt) (n : Nat) : List Out :=
  match st with
  | .none | .unknown => [.bug]
  | .scroll => []
  | .pinch => [.begin .pinch n]
  | .swipe => [.begin .swipe n]

/-- `tp_gesture_start`; the scroll direction filter it resets is an input here.  Models: /repo/src/evdev-mt-touchpad-gestures.c:106-139. -/
def Pad.gestStart (s : Pad) : Pad × List Out :=
  if s.gest.started then (s, [])
  else
    ({ s with gest := { s.gest with started := true } }, beginOut s.gest.st s.gest.count)

/-- `tp_gesture_stop_twofinger_scroll`.  Models: /repo/src/evdev-mt-touchpad-gestures.c:772-781. -/
def Pad.stopTwoFinger (s : Pad) (now : Nat) : Pad × List Out :=
  if s.method ≠ .twoFinger then (s, [])
  else
    let r := Scroll.stop s.cfg.arith s.scroll now
    ({ s with scroll := r.1 }, r.2.map .two)

/-- `tp_gesture_end`.  Models: /repo/src/evdev-mt-touchpad-gestures.c:783-818. -/
def Pad.gestEnd (s : Pad) (now : Nat) (cancelled : Bool) : Pad × List Out :=
  let st := s.gest.st
  let n := s.gest.count
  if s.gest.started = false then ({ s with gest := { s.gest with st := .none } }, [])
  else
    let s := { s with gest := { s.gest with st := .none, started := false } }
    match st with
    | .none | .unknown => (s, [.bug])
    | .scroll => s.stopTwoFinger now
    | .pinch => (s, [.end_ .pinch n cancelled])
    | .swipe => (s, [.end_ .swipe n cancelled])

/-- `tp_gesture_handle_state`.  Models: /repo/src/evdev-mt-touchpad-gestures.c:845-879. -/
def Pad.gestState (s : Pad) (now : Nat) : Pad × List Out :=
  let active := s.touches.countP s.gestActive
  if active = s.gest.count then ({ s with gest := { s.gest with pending := 0 } }, [])
  else if active = 0 then
    let r := s.gestEnd now false
    ({ r.1 with gest := { r.1.gest with count := 0, pending := 0 } }, r.2)
  else if s.gest.started = false then
    ({ s with gest := { s.gest with count := active, pending := 0, st := .none } }, [])
  else if active ≠ s.gest.pending then
    ({ s with gest := { s.gest with pending := active, timer := some (now + 100000) } }, [])
  else (s, [])

/-- The sum of the movement of the touches in real slots that count.
Models: /repo/src/evdev-mt-touchpad-gestures.c:48-80.  Simplified: the sum, not the average. -/
def Pad.moved (s : Pad) : Point :=
  (s.touches.take s.cfg.numSlots).foldl
    (fun p t => if s.gestActive t && t.dirty then ⟨p.x + t.delta.x, p.y + t.delta.y⟩ else p) {}

/-- The touches whose movement is in `moved`. -/
def Pad.movers (s : Pad) : List Nat :=
  ((s.touches.take s.cfg.numSlots).filter fun t => s.gestActive t && t.dirty).map Finger.index

/-- `tp_gesture_post_pointer_motion`.  The filter gives zero for zero, so there is an event if something moved.
Models: /repo/src/evdev-mt-touchpad-gestures.c:155-173, /repo/src/evdev-mt-touchpad-gestures.c:141-153. -/
def Pad.postMotion (s : Pad) : List Out := if s.moved = {} then [] else [.motion s.movers]

/-- The touch with an index.  In the code this is a pointer. -/
def Pad.touch (s : Pad) (i : Nat) : Finger := s.touches.getD i { index := i }

/-- The touches that count, at most 4.  Models: /repo/src/evdev-mt-touchpad-gestures.c:175-204. -/
def Pad.actives (s : Pad) : List Finger := (s.touches.filter s.gestActive).take 4

/-- The topmost and the lowest of three or more touches.  Models: /repo/src/evdev-mt-touchpad-gestures.c:587-600. -/
def extremes (p : Finger × Finger) : List Finger → Finger × Finger
  | [] => p
  | t :: ts =>
    extremes (if t.pos.y < p.1.pos.y then (t, p.2) else if p.2.pos.y ≤ t.pos.y then (p.1, t) else p) ts

/-- Watch two touches.  Models: /repo/src/evdev-mt-touchpad-gestures.c:602-608. -/
def Pad.watch (s : Pad) (a b : Finger) (now : Nat) : Pad :=
  let s := s.put a.index { s.touch a.index with start := (s.touch a.index).pos }
  let s := s.put b.index { s.touch b.index with start := (s.touch b.index).pos }
  { s with gest := { s.gest with st := .unknown, time := now, first := a.index, second := b.index } }

/-- `tp_gesture_handle_state_none`, with the new state.  Models: /repo/src/evdev-mt-touchpad-gestures.c:549-609. -/
def Pad.gestNone (s : Pad) (now : Nat) : Pad :=
  match s.actives with
  | a :: b :: rest =>
    if s.cfg.gestures = false then
      if rest = [] then { s with gest := { s.gest with st := .scroll } } else s
    else if rest = [] then s.watch a b now
    else
      let p := extremes (a, a) ((b :: rest).take (s.cfg.numSlots - 1))
      if p.1.index = p.2.index then s else s.watch p.1 p.2 now
  | _ => s

/-- A touch is `k / 2` mm or more away from where the gesture began: `hypot(x, y) >= k / 2` without roots and fractions.
Models: /repo/src/evdev-mt-touchpad-gestures.c:222-231. -/
def Config.far (c : Config) (t : Finger) (k : Nat) : Bool :=
  let x : Int := (t.pos.x - t.start.x) * c.ry
  let y : Int := (t.pos.y - t.start.y) * c.rx
  let r : Int := k * c.rx * c.ry
  decide (r * r ≤ 4 * (x * x + y * y))

/-- `tp_gesture_same_directions`.  Models: /repo/src/evdev-mt-touchpad-gestures.c:206-220. -/
def sameDirections (a b : Nat) : Bool :=
  (a ||| a >>> 1) &&& b != 0 || (b ||| b >>> 1) &&& a != 0 || (a &&& 128 != 0 && b &&& 1 != 0) || (b &&& 128 != 0 && a &&& 1 != 0)

/-- A scroll was recognised.  Models: /repo/src/evdev-mt-touchpad-gestures.c:274-287. -/
def Pad.toScroll (s : Pad) (g : Frame) : Pad :=
  { s with gest := { s.gest with st := .scroll }, scroll := { s.scroll with bx := g.bx, bys := g.bys } }

/-- Twice the centre of the two touches.  Models: /repo/src/evdev-mt-touchpad-gestures.c:245-262. -/
def Pad.centerOf (s : Pad) : Point :=
  let a := (s.touch s.gest.first).pos
  let b := (s.touch s.gest.second).pos
  ⟨a.x + b.x, a.y + b.y⟩

/-- A pinch was recognised.  Models: /repo/src/evdev-mt-touchpad-gestures.c:264-272. -/
def Pad.toPinch (s : Pad) : Pad := { s with gest := { s.gest with st := .pinch, center := s.centerOf } }

def Pad.toSwipe (s : Pad) : Pad := { s with gest := { s.gest with st := .swipe } }

/-- `tp_gesture_detect_motion_gestures`, with the new state; `d1`, `d2` are the directions of the two touches.
Models: /repo/src/evdev-mt-touchpad-gestures.c:417-547. -/
def Pad.gestDetect (s : Pad) (g : Frame) (d1 d2 : Nat) (now : Nat) : Pad :=
  let n := s.gest.count
  let a := s.touch s.gest.first
  let b := s.touch s.gest.second
  let maxMove := 4 * n
  let minMove := n + 1
  if s.cfg.gestures && decide (2 < n) && decide (s.cfg.numSlots < n) then s.toSwipe
  else if !s.cfg.far a 2 && !s.cfg.far b 2 then s
  else
    let lowerFirst := decide (b.pos.y < a.pos.y)
    let thumb := if lowerFirst then a else b
    let finger := if lowerFirst then b else a
    if (!s.cfg.gestures || (s.cfg.nearX a.pos b.pos 40 && s.cfg.nearY a.pos b.pos 7)) && decide (s.gest.time + 150000 < now) then
      if n = 2 then s.toScroll g else s.toSwipe
    else if (s.cfg.far a maxMove || s.cfg.far b maxMove) && s.cfg.thumbs && !s.cfg.far thumb minMove then
      { s.thumbSuppress thumb.index with gest := { s.gest with st := .none } }
    else if (s.cfg.far a maxMove || s.cfg.far b maxMove) && (!s.cfg.gestures || !s.cfg.far finger minMove) && n == 2 then
      s.toScroll g
    else if (s.cfg.far a maxMove || s.cfg.far b maxMove) && !s.cfg.far finger minMove && decide (2 < n) && s.cfg.gestures && s.thumb.pinchOk then
      s.toPinch
    else if !s.cfg.far a minMove || !s.cfg.far b minMove then s
    else if (decide (s.cfg.numSlots < n) || sameDirections d1 d2) && n == 2 then s.toScroll g
    else if (decide (s.cfg.numSlots < n) || sameDirections d1 d2) && s.cfg.gestures then s.toSwipe
    else s.toPinch

/-- `tp_gesture_handle_state_scroll`.  Models: /repo/src/evdev-mt-touchpad-gestures.c:618-643, /repo/src/evdev-mt-touchpad-gestures.c:289-415. -/
def Pad.gestScroll (s : Pad) (g : Frame) (now : Nat) : Pad × List Out :=
  if s.method ≠ .twoFinger then (s, [])
  else if s.moved = {} then (s, [])
  else
    let r := s.gestStart
    let q := Scroll.post r.1.cfg.arith r.1.scroll now g.dx g.dy
    ({ r.1 with scroll := q.1 }, r.2 ++ q.2.map .two)

/-- `tp_gesture_handle_state_swipe`.  Models: /repo/src/evdev-mt-touchpad-gestures.c:645-664. -/
def Pad.gestSwipe (s : Pad) : Pad × List Out :=
  if s.moved = {} then (s, [])
  else
    let r := s.gestStart
    (r.1, r.2 ++ [.update .swipe r.1.gest.count])

/-- `tp_gesture_handle_state_pinch`.  Models: /repo/src/evdev-mt-touchpad-gestures.c:666-703. -/
def Pad.gestPinch (s : Pad) (g : Frame) : Pad × List Out :=
  let same := decide (s.centerOf = s.gest.center)
  let s := { s with gest := { s.gest with center := s.centerOf } }
  if same && !g.turned then (s, [])
  else
    let r := s.gestStart
    (r.1, r.2 ++ [.update .pinch r.1.gest.count])

/-- `tp_gesture_post_gesture`; `d i`: the directions of the touch `i`.
Models: /repo/src/evdev-mt-touchpad-gestures.c:705-735, /repo/src/evdev-mt-touchpad-gestures.c:612-616. -/
def Pad.postGesture (s : Pad) (g : Frame) (d : Nat → Nat) (now : Nat) : Pad × List Out :=
  let s := if s.gest.st = .none then s.gestNone now else s
  let s := if s.gest.st = .unknown then s.gestDetect g (d s.gest.first) (d s.gest.second) now else s
  match s.gest.st with
  | .scroll => s.gestScroll g now
  | .swipe => s.gestSwipe
  | .pinch => s.gestPinch g
  | .none | .unknown => (s, [])

/-- The start of `tp_gesture_post_events`: one finger only while dragging or clicking.
Models: /repo/src/evdev-mt-touchpad-gestures.c:743-753. -/
def Pad.oneFinger (s : Pad) (g : Frame) (now : Nat) : Pad × List Out :=
  if g.dragging = true ∨ (s.cfg.clickpad = true ∧ g.held = true ∧ s.thumb.st = .finger) then
    let r := s.gestEnd now true
    ({ r.1 with gest := { r.1.gest with count := 1, pending := 0 } }, r.2)
  else (s, [])

/-- `tp_gesture_post_events`.  Models: /repo/src/evdev-mt-touchpad-gestures.c:737-770. -/
def Pad.gestPost (s : Pad) (g : Frame) (d : Nat → Nat) (now : Nat) : Pad × List Out :=
  if s.gest.count = 0 then (s, [])
  else
    let r := s.oneFinger g now
    let s := r.1
    if s.gest.pending ≠ 0 then (s, r.2)
    else if s.gest.count = 1 then (s, r.2 ++ if g.motion then s.postMotion else [])
    else if s.gest.count = 2 ∨ s.gest.count = 3 ∨ s.gest.count = 4 then
      let q := s.postGesture g d now
      (q.1, r.2 ++ q.2)
    else (s, r.2)

/-! ### A frame -/

/-- The touches are told what the frame says about them. -/
def takeAll (now : Nat) : List Finger → List View → List Finger
  | t :: ts, v :: vs => t.take v now :: takeAll now ts vs
  | ts, _ => ts

/-- `tp_process_state` up to the thumbs.  Models: /repo/src/evdev-mt-touchpad.c:1709-1820. -/
def Pad.process (s : Pad) (vs : List View) (g : Frame) (now : Nat) : Pad :=
  let old := s.fingers
  let s := { s with touches := takeAll now s.touches vs }
  let s := s.processAll (decide (s.fingers ≠ old) || g.reset) now 0 vs
  if s.cfg.thumbs && s.touches.any (fun t => t.dirty && t.st == .begin) && decide (2 ≤ s.fingers) then s.thumbMulti else s

/-- `tp_button_handle_state`, as far as it matters here (C31). -/
def noteActive : List Finger → List View → List Finger
  | t :: ts, v :: vs => { t with active := v.active } :: noteActive ts vs
  | ts, _ => ts

def Pad.buttons (s : Pad) (vs : List View) : Pad := { s with touches := noteActive s.touches vs }

/-- `tp_pin_fingers`.  Models: /repo/src/evdev-mt-touchpad.c:803-812. -/
def Pad.pin (s : Pad) (g : Frame) : Pad :=
  if g.press && s.cfg.clickpad then { s with touches := s.touches.map fun t => { t with pinned := true } } else s

/-- A click always stops edge scrolling.  Models: /repo/src/evdev-mt-touchpad-buttons.c:1205-1207. -/
def Pad.clicked (s : Pad) (g : Frame) : Pad × List Out := if g.click then s.each Finger.edgeStop else (s, [])

/-- `tp_post_events` after tapping and the buttons; what those send is modelled elsewhere (C15-C17, C31).
Models: /repo/src/evdev-mt-touchpad.c:1855-1881. -/
def Pad.postRest (s : Pad) (g : Frame) (d : Nat → Nat) (now : Nat) : Pad × List Out :=
  if s.suspended then (s, [])
  else if g.ignore || s.trk.active || s.dwt.active then
    let r := s.each Finger.edgeStop
    let q := r.1.gestEnd now true
    (q.1, r.2 ++ q.2)
  else
    let r := s.each (fun t => s.edgePost t now)
    let q := r.1.gestPost g d now
    (q.1, r.2 ++ q.2)

/-- `tp_post_events`.  Models: /repo/src/evdev-mt-touchpad.c:1855-1881. -/
def Pad.postEvents (s : Pad) (g : Frame) (d : Nat → Nat) (now : Nat) : Pad × List Out :=
  let r := s.clicked g
  let q := r.1.postRest g d now
  (q.1, r.2 ++ q.2)

/-- One touch in `tp_post_process_state`.  Simplified: whether the touch is hovering or gone after it ended is part of
the next frame's input.  Models: /repo/src/evdev-mt-touchpad.c:1822-1853. -/
def Finger.settle (t : Finger) (hovers : Bool) : Finger :=
  if t.dirty then
    { t with dirty := false, st := match t.st with | .end_ => if hovers then .hovering else .none | .begin => .update | x => x }
  else t

/-- `tp_post_process_state`.  Models: /repo/src/evdev-mt-touchpad.c:1822-1853. -/
def Pad.settle (s : Pad) (hovers : Nat → Bool) : Pad :=
  let s := { s with touches := s.touches.map fun t => t.settle (hovers t.index) }
  if s.fingers = 0 then s.thumbReset else s

/-- `tp_process_state` up to `tp_gesture_handle_state`: what the touches are taken for.
Models: /repo/src/evdev-mt-touchpad.c:1718-1817. -/
def Pad.judge (s : Pad) (vs : List View) (g : Frame) (now : Nat) : Pad × List Out :=
  let s := (s.process vs g now).buttons vs
  let r := s.each (fun t => s.edgeState t now)
  (r.1.pin g, r.2)

/-- `tp_handle_state`; `hovers i`: the touch `i`, if it ended, is hovering now.
Models: /repo/src/evdev-mt-touchpad.c:1901-1912. -/
def Pad.frame (s : Pad) (vs : List View) (g : Frame) (hovers : Nat → Bool) (now : Nat) : Pad × List Out :=
  let d := fun i => match vs[i]? with | some v => v.gestDirs | none => 0
  let r := s.judge vs g now
  let q := r.1.gestState now
  let p := q.1.postEvents g d now
  (p.1.settle hovers, r.2 ++ q.2 ++ p.2)

/-! ### Everything else that can happen -/

/-- `tp_end_sequence` and `tp_end_touch` for every touch; everything else about the touch is as given.
Models: /repo/src/evdev-mt-touchpad.c:2049-2052. -/
def lifted : List Finger → List View → List View
  | [], _ => []
  | t :: ts, vs =>
    { vs.headD { st := .none } with st := if t.down then .end_ else .none, dirty := t.st != .none } :: lifted ts vs.tail

/-- `tp_clear_state`: releasing the buttons may be a click, the touches end, and a frame is processed.
Models: /repo/src/evdev-mt-touchpad.c:2027-2057. -/
def Pad.clear (s : Pad) (vs : List View) (g : Frame) (now : Nat) : Pad × List Out :=
  let r := s.clicked g
  let q := r.1.thumbReset.frame (lifted r.1.touches vs) { g with click := false } (fun _ => false) now
  (q.1, r.2 ++ q.2)

/-- `tp_stop_actions`.  Models: /repo/src/evdev-mt-touchpad.c:451-457. -/
def Pad.stopActions (s : Pad) (now : Nat) : Pad × List Out :=
  let r := s.each Finger.edgeStop
  let q := r.1.gestEnd now true
  ({ q.1 with tapOff := true }, r.2 ++ q.2)

/-- `tp_key_is_modifier`.  Models: /repo/src/evdev-mt-touchpad.c:2239-2260. -/
def isModifier (code : Nat) : Bool :=
  match code with
  | 29 | 97 | 56 | 100 | 42 | 54 | 464 | 58 | 15 | 127 | 126 | 125 => true
  | _ => false

/-- `tp_key_ignore_for_dwt`; `KEY_F1` is 59.  Models: /repo/src/evdev-mt-touchpad.c:2262-2273. -/
def isIgnoredKey (code : Nat) : Bool := if isModifier code then false else decide (59 ≤ code)

/-- `tp_keyboard_event`, for a key event of a paired keyboard.  Models: /repo/src/evdev-mt-touchpad.c:2275-2333. -/
def Pad.keyEvent (s : Pad) (code : Nat) (press : Bool) (now : Nat) : Pad × List Out :=
  if press = false then
    ({ s with dwt := { s.dwt with keys := s.dwt.keys.filter (· != code), mods := s.dwt.mods.filter (· != code) } }, [])
  else if s.dwt.enabled = false then (s, [])
  else if isIgnoredKey code then (s, [])
  else if isModifier code then ({ s with dwt := { s.dwt with mods := code :: s.dwt.mods } }, [])
  else if s.dwt.active then
    ({ s with dwt := { s.dwt with last := now, keys := code :: s.dwt.keys, timer := some (now + 500000) } }, [])
  else if s.dwt.mods ≠ [] then (s, [])
  else
    let r := s.stopActions now
    ({ r.1 with dwt := { r.1.dwt with active := true, last := now, keys := code :: r.1.dwt.keys, timer := some (now + 200000) } }, r.2)

/-- `tp_keyboard_timeout`.  Models: /repo/src/evdev-mt-touchpad.c:2217-2237. -/
def Pad.keyTimeout (s : Pad) (now : Nat) : Pad :=
  if s.dwt.enabled = true ∧ s.dwt.keys ≠ [] then
    { s with dwt := { s.dwt with timer := some (now + 500000), last := now } }
  else { s with tapOff := false, dwt := { s.dwt with active := false, timer := none } }

/-- `tp_trackpoint_event`.  Models: /repo/src/evdev-mt-touchpad.c:2187-2215. -/
def Pad.trkEvent (s : Pad) (now : Nat) : Pad × List Out :=
  let s := { s with trk := { s.trk with last := now, count := s.trk.count + 1 } }
  if s.trk.count < 3 then ({ s with trk := { s.trk with timer := some (now + 40000) } }, [])
  else
    let r := if s.trk.active then (s, []) else s.stopActions now
    ({ r.1 with trk := { r.1.trk with active := true, timer := some (now + 300000) } }, r.2)

/-- `tp_trackpoint_timeout`.  Models: /repo/src/evdev-mt-touchpad.c:2175-2185. -/
def Pad.trkTimeout (s : Pad) : Pad :=
  if s.trk.active then { s with tapOff := false, trk := { s.trk with active := false, count := 0, timer := none } }
  else { s with trk := { s.trk with count := 0, timer := none } }

/-- `tp_gesture_finger_count_switch_timeout`.  Models: /repo/src/evdev-mt-touchpad-gestures.c:832-843. -/
def Pad.gestTimeout (s : Pad) (now : Nat) : Pad × List Out :=
  let s := { s with gest := { s.gest with timer := none } }
  if s.gest.pending = 0 then (s, [])
  else
    let r := s.gestEnd now true
    ({ r.1 with gest := { r.1.gest with count := r.1.gest.pending, pending := 0 } }, r.2)

/-- `tp_edge_scroll_handle_timeout` for a touch.  Models: /repo/src/evdev-mt-touchpad-edge-scroll.c:296-302. -/
def Pad.edgeTimeout (s : Pad) (i : Nat) (now : Nat) : Pad × List Out :=
  match s.touches[i]? with
  | none => (s, [])
  | some t =>
    let r := s.edgeEvent { t with edgeTimer := none } .timeout now
    (s.put i r.1, r.2)

/-- `tp_scroll_config_scroll_method_set_method`.  Models: /repo/src/evdev-mt-touchpad.c:3068-3085. -/
def Pad.setMethod (s : Pad) (m : Method) (now : Nat) : Pad × List Out :=
  if m = s.method then (s, [])
  else
    let r := s.each Finger.edgeStop
    let q := r.1.stopTwoFinger now
    ({ q.1 with method := m }, r.2 ++ q.2)

/-- A paired keyboard was removed or suspended: its part of `tp_interface_device_removed`.
Models: /repo/src/evdev-mt-touchpad.c:2629-2634. -/
def Pad.unpair (s : Pad) (k : Nat) : Pad :=
  if k ∈ s.dwt.paired then
    { s with dwt := { s.dwt with paired := s.dwt.paired.filter (· != k), active := false } }
  else s

/-- A timer goes off only if it is armed and its time has come. -/
def due (timer : Option Nat) (now : Nat) : Bool :=
  match timer with
  | some e => decide (e ≤ now)
  | none => false

/-- What can happen.  `frame`: the end of a frame of events; `clear`: `tp_clear_state`, after which there is no touch;
`suspended b`: the device is marked as suspended or not; `key k ..`: a key of the keyboard `k`; `pair k`, `unpair k`: the
keyboard came or went; `trackpoint`: an event of the trackpoint other than a button; `arbitrate`: a pen came near
(after `clear`), `arbitrateEnd`: it left; the timers; and the configuration calls. -/
inductive Op where
  | frame (now : Nat) (vs : List View) (g : Frame) (hovers : Nat → Bool)
  | clear (now : Nat) (vs : List View) (g : Frame)
  | suspended (b : Bool)
  | key (now : Nat) (k code : Nat) (press : Bool)
  | pair (k : Nat)
  | unpair (k : Nat)
  | keyTimeout (now : Nat)
  | trackpoint (now : Nat)
  | trkTimeout (now : Nat)
  | gestTimeout (now : Nat)
  | edgeTimeout (now : Nat) (i : Nat)
  | arbitrate (now : Nat) (vs : List View) (g : Frame)
  | arbitrateEnd (now : Nat)
  | arbTimeout (now : Nat)
  | setMethod (now : Nat) (m : Method)
  | setDwt (b : Bool)
  | setAreas (b : Bool)

/-- One operation.  Simplified: the two kinds of arbitration, everywhere and in a rectangle, are one.
Models: /repo/src/evdev-mt-touchpad.c:3150-3168, /repo/src/evdev-mt-touchpad.c:2773-2804, /repo/src/evdev-mt-touchpad.c:2764-2771, /repo/src/evdev-mt-touchpad.c:2357-2390. -/
def step (s : Pad) : Op → Pad × List Out
  | .frame now vs g hovers => s.frame vs g hovers now
  | .clear now vs g => s.clear vs g now
  | .suspended b => ({ s with suspended := b }, [])
  | .key now k code press => if k ∈ s.dwt.paired then s.keyEvent code press now else (s, [])
  | .pair k => ({ s with dwt := { s.dwt with paired := k :: s.dwt.paired } }, [])
  | .unpair k => (s.unpair k, [])
  | .keyTimeout now => if due s.dwt.timer now then (s.keyTimeout now, []) else (s, [])
  | .trackpoint now => if s.cfg.monitorTrackpoint then s.trkEvent now else (s, [])
  | .trkTimeout now => if due s.trk.timer now then (s.trkTimeout, []) else (s, [])
  | .gestTimeout now => if due s.gest.timer now then s.gestTimeout now else (s, [])
  | .edgeTimeout now i => if due (s.touch i).edgeTimer now then s.edgeTimeout i now else (s, [])
  | .arbitrate now vs g =>
    if s.arb then (s, [])
    else
      let r := { s with arbTimer := none }.clear vs g now
      ({ r.1 with arb := true }, r.2)
  | .arbitrateEnd now => if s.arb then ({ s with arbTimer := some (now + 90000) }, []) else (s, [])
  | .arbTimeout now => if due s.arbTimer now then ({ s with arb := false, arbTimer := none }, []) else (s, [])
  | .setMethod now m => s.setMethod m now
  | .setDwt b => ({ s with dwt := { s.dwt with enabled := b } }, [])
  | .setAreas b => ({ s with areas := b }, [])

/-- A history: the final state and everything that was sent. -/
def run (s : Pad) : List Op → Pad × List Out
  | [] => (s, [])
  | op :: ops =>
    let r := step s op
    let q := run r.1 ops
    (q.1, r.2 ++ q.2)

/-- A new touchpad with `n` touches.  `dwt`: disabling while typing is available.
Models: /repo/src/evdev-mt-touchpad.c:3228-3242, /repo/src/evdev-mt-touchpad.c:3125-3142, /repo/src/evdev-mt-touchpad-gestures.c:881-901, /repo/src/evdev-mt-touchpad.c:2846-2854. -/
def init (c : Config) (n : Nat) (m : Method) (dwt areas : Bool) : Pad :=
  { cfg := c, touches := (List.range n).map fun i => { index := i }, method := m, areas := areas, dwt := { enabled := dwt }, scroll := Scroll.init c.arith }

end Libinput.Motion
