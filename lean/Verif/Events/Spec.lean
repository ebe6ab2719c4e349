import Verif.Events.Model

/-
What the caller may expect of an event, in terms of what the device posted. Nothing here refers to the
structures in which events are kept.
-/
namespace Libinput.Events.Spec

/-- The kinds of events: each has its own structure and its own accessors. -/
inductive Family where
  | notify | keyboard | pointer | touch | gesture | tool | pad | switch
deriving DecidableEq, Repr

/-- The family and the type of an event. -/
def kind : Post → Family × Ty
  | .added => (.notify, .deviceAdded)
  | .removed => (.notify, .deviceRemoved)
  | .key .. => (.keyboard, .keyboardKey)
  | .motion .. => (.pointer, .pointerMotion)
  | .motionAbsolute .. => (.pointer, .pointerMotionAbsolute)
  | .button .. => (.pointer, .pointerButton)
  | .axis .. => (.pointer, .pointerAxis)
  | .touchDown .. => (.touch, .touchDown)
  | .touchMotion .. => (.touch, .touchMotion)
  | .touchUp .. => (.touch, .touchUp)
  | .touchCancel .. => (.touch, .touchCancel)
  | .touchFrame .. => (.touch, .touchFrame)
  | .toolAxis .. => (.tool, .tabletToolAxis)
  | .toolProximity .. => (.tool, .tabletToolProximity)
  | .toolTip .. => (.tool, .tabletToolTip)
  | .toolButton .. => (.tool, .tabletToolButton)
  | .padButton .. => (.pad, .tabletPadButton)
  | .padRing .. => (.pad, .tabletPadRing)
  | .padStrip .. => (.pad, .tabletPadStrip)
  | .padKey .. => (.pad, .tabletPadKey)
  | .swipeBegin .. => (.gesture, .gestureSwipeBegin)
  | .swipe .. => (.gesture, .gestureSwipeUpdate)
  | .swipeEnd .. => (.gesture, .gestureSwipeEnd)
  | .pinchBegin .. => (.gesture, .gesturePinchBegin)
  | .pinch .. => (.gesture, .gesturePinchUpdate)
  | .pinchEnd .. => (.gesture, .gesturePinchEnd)
  | .switch .. => (.switch, .switchToggle)

/-- When the event happened, in microseconds. -/
def time : Post → Option Nat
  | .added | .removed => none
  | .key t .. | .motion t .. | .motionAbsolute t .. | .button t .. | .axis t ..
  | .touchDown t .. | .touchMotion t .. | .touchUp t .. | .touchCancel t .. | .touchFrame t ..
  | .toolAxis t .. | .toolProximity t .. | .toolTip t .. | .toolButton t ..
  | .padButton t .. | .padRing t .. | .padStrip t .. | .padKey t ..
  | .swipeBegin t .. | .swipe t .. | .swipeEnd t .. | .pinchBegin t .. | .pinch t .. | .pinchEnd t ..
  | .switch t .. => some t

/-- Of a tool: which, whether it is in proximity, whether its tip is down, which axes changed, all axes. -/
structure ToolFacts where
  tool : Nat
  near : Nat
  tip : Nat
  changed : ToolAxis → Bool
  axes : Axes

/-- A tool whose tip touches or which moves or whose buttons are pressed is in proximity; when it comes
or goes its tip is up; pressing a button changes no axis. -/
def toolFacts : Post → Option ToolFacts
  | .toolAxis _ tool tip changed axes => some ⟨tool, 1, tip, changed, axes⟩
  | .toolProximity _ tool state changed axes => some ⟨tool, state, 0, changed, axes⟩
  | .toolTip _ tool tip changed axes => some ⟨tool, 1, tip, changed, axes⟩
  | .toolButton _ tool tip axes .. => some ⟨tool, 1, tip, fun _ => false, axes⟩
  | _ => none

/-- Of a gesture: fingers, movement, unaccelerated movement, rotation. -/
structure GestureFacts where
  fingers : Nat
  dx : Rat
  dy : Rat
  unaccelX : Rat
  unaccelY : Rat

/-- Only an update moves. -/
def gestureFacts : Post → Option GestureFacts
  | .swipeBegin _ n | .pinchBegin _ n | .swipeEnd _ n _ | .pinchEnd _ n .. => some ⟨n, 0, 0, 0, 0⟩
  | .swipe _ n dx dy ux uy | .pinch _ n dx dy ux uy .. => some ⟨n, dx, dy, ux, uy⟩
  | _ => none

/-- Where a touch is and which one. -/
def touchSlots : Post → Option (Int × Int)
  | .touchDown _ s ss .. | .touchMotion _ s ss .. | .touchUp _ s ss | .touchCancel _ s ss => some (s, ss)
  | _ => none

def touchPoint : Post → Option (Int × Int)
  | .touchDown _ _ _ x y | .touchMotion _ _ _ x y => some (x, y)
  | _ => none

/-- The mode group a pad's event belongs to and its mode when it was posted. -/
def padMode : Post → Option (Nat × Nat)
  | .padButton _ _ _ g m | .padRing _ _ _ _ g m | .padStrip _ _ _ _ g m => some (g, m)
  | _ => none

/-- A position in millimetres from the edge of the device. -/
def mm (a : Abs) (v : Int) : Rat := ((v : Rat) - (a.min : Rat)) / (a.res : Rat)

/-- A position on a screen of `size` pixels along the axis. -/
def onScreen (a : Abs) (v : Int) (size : Nat) : Rat :=
  ((v : Rat) - (a.min : Rat)) * (size : Rat) / ((a.max : Rat) - (a.min : Rat) + 1)

/-- Milliseconds, which are given in 32 bits. -/
def ms (us : Nat) : Int := ((us / 1000 % 2 ^ 32 : Nat) : Int)

def flag (b : Bool) : Val := .int (if b then 1 else 0)

/-- The event itself, for the functions that convert between an event and the event of a family. -/
def self (f : Family) (p : Post) : Option Val := if (kind p).1 = f then some (.ptr (some .event)) else none

def timeMs (f : Family) (p : Post) : Option Val := if (kind p).1 = f then (time p).map fun t => .int (ms t) else none

def timeUs (f : Family) (p : Post) : Option Val := if (kind p).1 = f then (time p).map fun t => .int t else none

/-- What an event of a device with these axes has to say to each accessor; `none`: an event of this type
has no such thing. -/
def told (ax ay : Abs) (p : Post) : Acc → Option Val
  | .getPointerEvent | .pointerGetBaseEvent => self .pointer p
  | .getKeyboardEvent | .keyboardGetBaseEvent => self .keyboard p
  | .getTouchEvent | .touchGetBaseEvent => self .touch p
  | .getGestureEvent | .gestureGetBaseEvent => self .gesture p
  | .getTabletToolEvent | .tabletToolGetBaseEvent => self .tool p
  | .getTabletPadEvent | .tabletPadGetBaseEvent => self .pad p
  | .getDeviceNotifyEvent | .deviceNotifyGetBaseEvent => self .notify p
  | .getSwitchEvent | .switchGetBaseEvent => self .switch p
  | .keyboardGetTime => timeMs .keyboard p
  | .keyboardGetTimeUsec => timeUs .keyboard p
  | .pointerGetTime => timeMs .pointer p
  | .pointerGetTimeUsec => timeUs .pointer p
  | .touchGetTime => timeMs .touch p
  | .touchGetTimeUsec => timeUs .touch p
  | .gestureGetTime => timeMs .gesture p
  | .gestureGetTimeUsec => timeUs .gesture p
  | .tabletToolGetTime => timeMs .tool p
  | .tabletToolGetTimeUsec => timeUs .tool p
  | .tabletPadGetTime => timeMs .pad p
  | .tabletPadGetTimeUsec => timeUs .pad p
  | .switchGetTime => timeMs .switch p
  | .switchGetTimeUsec => timeUs .switch p
  | .keyboardGetKey => match p with | .key _ k _ _ => some (.int k) | _ => none
  | .keyboardGetKeyState => match p with | .key _ _ s _ => some (.int s) | _ => none
  | .keyboardGetSeatKeyCount => match p with | .key _ _ _ c => some (.int c) | _ => none
  | .pointerGetDx => match p with | .motion _ dx _ _ _ => some (.real dx) | _ => none
  | .pointerGetDy => match p with | .motion _ _ dy _ _ => some (.real dy) | _ => none
  | .pointerGetDxUnaccelerated => match p with | .motion _ _ _ rx _ => some (.real rx) | _ => none
  | .pointerGetDyUnaccelerated => match p with | .motion _ _ _ _ ry => some (.real ry) | _ => none
  | .pointerGetAbsoluteX => match p with | .motionAbsolute _ x _ => some (.real (mm ax x)) | _ => none
  | .pointerGetAbsoluteY => match p with | .motionAbsolute _ _ y => some (.real (mm ay y)) | _ => none
  | .pointerGetAbsoluteXTransformed w => match p with | .motionAbsolute _ x _ => some (.real (onScreen ax x w)) | _ => none
  | .pointerGetAbsoluteYTransformed h => match p with | .motionAbsolute _ _ y => some (.real (onScreen ay y h)) | _ => none
  | .pointerGetButton => match p with | .button _ b _ _ => some (.int b) | _ => none
  | .pointerGetButtonState => match p with | .button _ _ s _ => some (.int s) | _ => none
  | .pointerGetSeatButtonCount => match p with | .button _ _ _ c => some (.int c) | _ => none
  -- axis 0 is the vertical and axis 1 the horizontal one; there are no others
  | .pointerHasAxis n => match p with | .axis _ axes .. => some (flag (n < 2 && axes.testBit n)) | _ => none
  | .pointerGetAxisValue n => match p with
    | .axis _ axes _ dx dy _ _ =>
      if n = 0 ∧ axes.testBit 0 = true then some (.real dy) else if n = 1 ∧ axes.testBit 1 = true then some (.real dx) else none
    | _ => none
  | .pointerGetAxisValueDiscrete n => match p with
    | .axis _ axes _ _ _ ex ey =>
      if n = 0 ∧ axes.testBit 0 = true then some (.real (ey : Rat)) else if n = 1 ∧ axes.testBit 1 = true then some (.real (ex : Rat)) else none
    | _ => none
  | .pointerGetAxisSource => match p with | .axis _ _ source .. => some (.int source) | _ => none
  | .touchGetSlot => (touchSlots p).map fun s => .int s.1
  | .touchGetSeatSlot => (touchSlots p).map fun s => .int s.2
  | .touchGetX => (touchPoint p).map fun q => .real (mm ax q.1)
  | .touchGetY => (touchPoint p).map fun q => .real (mm ay q.2)
  | .touchGetXTransformed w => (touchPoint p).map fun q => .real (onScreen ax q.1 w)
  | .touchGetYTransformed h => (touchPoint p).map fun q => .real (onScreen ay q.2 h)
  | .gestureGetFingerCount => (gestureFacts p).map fun g => .int g.fingers
  | .gestureGetCancelled => match p with | .swipeEnd _ _ c | .pinchEnd _ _ _ c => some (flag c) | _ => none
  | .gestureGetDx => (gestureFacts p).map fun g => .real g.dx
  | .gestureGetDy => (gestureFacts p).map fun g => .real g.dy
  | .gestureGetDxUnaccelerated => (gestureFacts p).map fun g => .real g.unaccelX
  | .gestureGetDyUnaccelerated => (gestureFacts p).map fun g => .real g.unaccelY
  | .gestureGetScale => match p with
    | .pinchBegin .. => some (.real 1)
    | .pinch _ _ _ _ _ _ scale _ => some (.real scale)
    | .pinchEnd _ _ scale _ => some (.real scale)
    | _ => none
  | .gestureGetAngleDelta => match p with | .pinch _ _ _ _ _ _ _ angle => some (.real angle) | _ => none
  | .tabletToolXHasChanged => (toolFacts p).map fun f => flag (f.changed .x)
  | .tabletToolYHasChanged => (toolFacts p).map fun f => flag (f.changed .y)
  | .tabletToolPressureHasChanged => (toolFacts p).map fun f => flag (f.changed .pressure)
  | .tabletToolDistanceHasChanged => (toolFacts p).map fun f => flag (f.changed .distance)
  | .tabletToolTiltXHasChanged => (toolFacts p).map fun f => flag (f.changed .tiltX)
  | .tabletToolTiltYHasChanged => (toolFacts p).map fun f => flag (f.changed .tiltY)
  | .tabletToolRotationHasChanged => (toolFacts p).map fun f => flag (f.changed .rotation)
  | .tabletToolSliderHasChanged => (toolFacts p).map fun f => flag (f.changed .slider)
  | .tabletToolSizeMajorHasChanged => (toolFacts p).map fun f => flag (f.changed .major)
  | .tabletToolSizeMinorHasChanged => (toolFacts p).map fun f => flag (f.changed .minor)
  | .tabletToolWheelHasChanged => (toolFacts p).map fun f => flag (f.changed .wheel)
  | .tabletToolGetX => (toolFacts p).map fun f => .real (mm ax f.axes.x)
  | .tabletToolGetY => (toolFacts p).map fun f => .real (mm ay f.axes.y)
  | .tabletToolGetXTransformed w => (toolFacts p).map fun f => .real (onScreen ax f.axes.x w)
  | .tabletToolGetYTransformed h => (toolFacts p).map fun f => .real (onScreen ay f.axes.y h)
  | .tabletToolGetDx => (toolFacts p).map fun f => .real f.axes.dx
  | .tabletToolGetDy => (toolFacts p).map fun f => .real f.axes.dy
  | .tabletToolGetPressure => (toolFacts p).map fun f => .real f.axes.pressure
  | .tabletToolGetDistance => (toolFacts p).map fun f => .real f.axes.distance
  | .tabletToolGetTiltX => (toolFacts p).map fun f => .real f.axes.tiltX
  | .tabletToolGetTiltY => (toolFacts p).map fun f => .real f.axes.tiltY
  | .tabletToolGetRotation => (toolFacts p).map fun f => .real f.axes.rotation
  | .tabletToolGetSliderPosition => (toolFacts p).map fun f => .real f.axes.slider
  | .tabletToolGetSizeMajor => (toolFacts p).map fun f => .real f.axes.major
  | .tabletToolGetSizeMinor => (toolFacts p).map fun f => .real f.axes.minor
  | .tabletToolGetWheelDelta => (toolFacts p).map fun f => .real f.axes.wheel
  | .tabletToolGetWheelDeltaDiscrete => (toolFacts p).map fun f => .int f.axes.wheelDiscrete
  | .tabletToolGetTool => (toolFacts p).map fun f => .ptr (some (.tool f.tool))
  | .tabletToolGetProximityState => (toolFacts p).map fun f => .int f.near
  | .tabletToolGetTipState => (toolFacts p).map fun f => .int f.tip
  | .tabletToolGetButton => match p with | .toolButton _ _ _ _ b _ _ => some (.int b) | _ => none
  | .tabletToolGetButtonState => match p with | .toolButton _ _ _ _ _ s _ => some (.int s) | _ => none
  | .tabletToolGetSeatButtonCount => match p with | .toolButton _ _ _ _ _ _ c => some (.int c) | _ => none
  | .switchGetSwitch => match p with | .switch _ sw _ => some (.int sw) | _ => none
  | .switchGetSwitchState => match p with | .switch _ _ s => some (.int s) | _ => none
  | .tabletPadGetRingPosition => match p with | .padRing _ _ v _ _ _ => some (.real v) | _ => none
  | .tabletPadGetRingNumber => match p with | .padRing _ n _ _ _ _ => some (.int n) | _ => none
  | .tabletPadGetRingSource => match p with | .padRing _ _ _ source _ _ => some (.int source) | _ => none
  | .tabletPadGetStripPosition => match p with | .padStrip _ _ v _ _ _ => some (.real v) | _ => none
  | .tabletPadGetStripNumber => match p with | .padStrip _ n _ _ _ _ => some (.int n) | _ => none
  | .tabletPadGetStripSource => match p with | .padStrip _ _ _ source _ _ => some (.int source) | _ => none
  | .tabletPadGetButtonNumber => match p with | .padButton _ b _ _ _ => some (.int b) | _ => none
  | .tabletPadGetButtonState => match p with | .padButton _ _ s _ _ => some (.int s) | _ => none
  | .tabletPadGetKey => match p with | .padKey _ k _ => some (.int k) | _ => none
  | .tabletPadGetKeyState => match p with | .padKey _ _ s => some (.int s) | _ => none
  | .tabletPadGetMode => (padMode p).map fun g => .int g.2
  | .tabletPadGetModeGroup => (padMode p).map fun g => .ptr (some (.group g.1))

/-- What kind of value each accessor gives: the empty one, for events that have no such thing. The two
sources of a pad's rings and strips are the exception: they are told as unknown, which is 1. -/
def empty : Acc → Val
  | .getPointerEvent | .pointerGetBaseEvent | .getKeyboardEvent | .keyboardGetBaseEvent | .getTouchEvent | .touchGetBaseEvent
  | .getGestureEvent | .gestureGetBaseEvent | .getTabletToolEvent | .tabletToolGetBaseEvent | .getTabletPadEvent
  | .tabletPadGetBaseEvent | .getDeviceNotifyEvent | .deviceNotifyGetBaseEvent | .getSwitchEvent | .switchGetBaseEvent
  | .tabletToolGetTool | .tabletPadGetModeGroup => .ptr none
  | .pointerGetDx | .pointerGetDy | .pointerGetDxUnaccelerated | .pointerGetDyUnaccelerated | .pointerGetAbsoluteX
  | .pointerGetAbsoluteY | .pointerGetAbsoluteXTransformed _ | .pointerGetAbsoluteYTransformed _ | .pointerGetAxisValue _
  | .pointerGetAxisValueDiscrete _ | .touchGetX | .touchGetY | .touchGetXTransformed _ | .touchGetYTransformed _
  | .gestureGetDx | .gestureGetDy | .gestureGetDxUnaccelerated | .gestureGetDyUnaccelerated | .gestureGetScale
  | .gestureGetAngleDelta | .tabletToolGetX | .tabletToolGetY | .tabletToolGetXTransformed _ | .tabletToolGetYTransformed _
  | .tabletToolGetDx | .tabletToolGetDy | .tabletToolGetPressure | .tabletToolGetDistance | .tabletToolGetTiltX
  | .tabletToolGetTiltY | .tabletToolGetRotation | .tabletToolGetSliderPosition | .tabletToolGetSizeMajor
  | .tabletToolGetSizeMinor | .tabletToolGetWheelDelta | .tabletPadGetRingPosition | .tabletPadGetStripPosition => .real 0
  | .tabletPadGetRingSource | .tabletPadGetStripSource => .int 1
  | _ => .int 0

/-- An axis with a resolution and a range. -/
def Sane (a : Abs) : Prop := a.res ≠ 0 ∧ a.min ≤ a.max

/-- Events with positions come from devices that have axes. -/
def HasPosition : Post → Prop
  | .motionAbsolute .. | .touchDown .. | .touchMotion .. | .toolAxis .. | .toolProximity .. | .toolTip .. | .toolButton .. => True
  | _ => False

/-- What a device must be capable of to post an event. -/
def needs : Family → Option Cap
  | .keyboard => some .keyboard
  | .pointer => some .pointer
  | .touch => some .touch
  | .gesture => some .gesture
  | .switch => some .switch
  | .tool | .pad | .notify => none

/-- What an event keeps alive. -/
def keeps (d : Device) (p : Post) : List Ref :=
  ((toolFacts p).map fun f => Ref.tool f.tool).toList ++ ((padMode p).map fun g => Ref.group g.1).toList ++ [.device d.id]

end Libinput.Events.Spec
