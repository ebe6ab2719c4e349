/-
The events of the API: the functions with which the devices post them and the functions with which
the caller asks them. Whatever would read memory outside of an event's structure or a null pointer, or
abort the program, gives `none`.
-/
namespace Libinput.Events

/-- `enum libinput_event_type`. /repo/src/libinput.h:716-904 -/
inductive Ty where
  | none | deviceAdded | deviceRemoved | keyboardKey
  | pointerMotion | pointerMotionAbsolute | pointerButton | pointerAxis
  | touchDown | touchUp | touchMotion | touchCancel | touchFrame
  | tabletToolAxis | tabletToolProximity | tabletToolTip | tabletToolButton
  | tabletPadButton | tabletPadRing | tabletPadStrip | tabletPadKey
  | gestureSwipeBegin | gestureSwipeUpdate | gestureSwipeEnd
  | gesturePinchBegin | gesturePinchUpdate | gesturePinchEnd
  | switchToggle
deriving DecidableEq, Repr

/-- `struct input_absinfo` of an axis: the parts the accessors read. /repo/include/linux/linux/input.h:83-90 -/
structure Abs where
  min : Int
  max : Int
  res : Int
deriving DecidableEq, Repr

/-- `enum libinput_device_capability`. /repo/src/libinput.h:191-199 -/
inductive Cap where
  | keyboard | pointer | touch | tabletTool | tabletPad | gesture | switch
deriving DecidableEq, Repr

/-- The device of an event: its axes (`abs.absinfo_x`, `abs.absinfo_y`, null without such an axis) and its
capabilities (`evdev_device_has_capability`). /repo/src/evdev.h:187-202, /repo/src/evdev.c:2500-2522 -/
structure Device where
  id : Nat
  absX : Option Abs
  absY : Option Abs
  caps : List Cap
deriving DecidableEq, Repr

/-- `enum libinput_tablet_tool_axis`. /repo/src/libinput-private.h:342-354 -/
inductive ToolAxis where
  | x | y | distance | pressure | tiltX | tiltY | rotation | slider | wheel | major | minor
deriving DecidableEq, Repr

/-- `struct tablet_axes`. Floating-point numbers are modelled as rationals. /repo/src/libinput-private.h:358-369 -/
structure Axes where
  x : Int
  y : Int
  dx : Rat
  dy : Rat
  distance : Rat
  pressure : Rat
  tiltX : Rat
  tiltY : Rat
  rotation : Rat
  slider : Rat
  wheel : Rat
  wheelDiscrete : Int
  major : Rat
  minor : Rat
deriving DecidableEq, Repr

/-- `struct libinput_event_keyboard`. /repo/src/libinput.c:161-167 -/
structure Keyboard where
  time : Nat := 0
  key : Nat := 0
  seatKeyCount : Nat := 0
  state : Nat := 0
deriving DecidableEq, Repr

/-- `struct libinput_event_pointer`. /repo/src/libinput.c:169-181 -/
structure Pointer where
  time : Nat := 0
  dx : Rat := 0
  dy : Rat := 0
  rawX : Rat := 0
  rawY : Rat := 0
  absX : Int := 0
  absY : Int := 0
  discreteX : Int := 0
  discreteY : Int := 0
  button : Nat := 0
  seatButtonCount : Nat := 0
  state : Nat := 0
  source : Nat := 0
  axes : Nat := 0
deriving DecidableEq, Repr

/-- `struct libinput_event_touch`. /repo/src/libinput.c:183-189 -/
structure Touch where
  time : Nat := 0
  slot : Int := 0
  seatSlot : Int := 0
  x : Int := 0
  y : Int := 0
deriving DecidableEq, Repr

/-- `struct libinput_event_gesture`. /repo/src/libinput.c:191-200 -/
structure Gesture where
  time : Nat := 0
  fingerCount : Nat := 0
  cancelled : Nat := 0
  dx : Rat := 0
  dy : Rat := 0
  unaccelX : Rat := 0
  unaccelY : Rat := 0
  scale : Rat := 0
  angle : Rat := 0
deriving DecidableEq, Repr

/-- `struct libinput_event_tablet_tool`. The array of bits `changed_axes` is modelled as a function; the tool
by a number. /repo/src/libinput.c:202-213 -/
structure Tool where
  button : Nat := 0
  state : Nat := 0
  seatButtonCount : Nat := 0
  time : Nat := 0
  axes : Axes
  changed : ToolAxis → Bool := fun _ => false
  tool : Nat
  proximityState : Nat := 0
  tipState : Nat := 0

/-- `struct libinput_event_tablet_pad`. /repo/src/libinput.c:215-238 -/
structure Pad where
  mode : Nat := 0
  modeGroup : Option Nat := none
  time : Nat := 0
  buttonNumber : Nat := 0
  buttonState : Nat := 0
  keyCode : Nat := 0
  keyState : Nat := 0
  ringSource : Nat := 0
  ringPosition : Rat := 0
  ringNumber : Nat := 0
  stripSource : Nat := 0
  stripPosition : Rat := 0
  stripNumber : Nat := 0
deriving DecidableEq, Repr

/-- `struct libinput_event_switch`. /repo/src/libinput.c:240-245 -/
structure Switch where
  time : Nat := 0
  sw : Nat := 0
  state : Nat := 0
deriving DecidableEq, Repr

/-- What memory was allocated for an event besides `struct libinput_event`. /repo/src/libinput.c:157-245 -/
inductive Body where
  | notify
  | keyboard (f : Keyboard)
  | pointer (f : Pointer)
  | touch (f : Touch)
  | gesture (f : Gesture)
  | tool (f : Tool)
  | pad (f : Pad)
  | switch (f : Switch)

/-- `struct libinput_event` and the structure that begins with it. /repo/src/libinput-private.h:409-412 -/
structure Event where
  type : Ty
  device : Device
  body : Body

/-- What an accessor may point to: the event itself, a tool, a mode group. /repo/src/libinput.c:358-3555 -/
inductive Ref where
  | event | tool (n : Nat) | group (n : Nat) | device (n : Nat)
deriving DecidableEq, Repr

/-- What an accessor returns: an integer or an enumerator, a floating-point number (modelled as a rational)
or a pointer. /repo/src/libinput.c:358-3555 -/
inductive Val where
  | int (v : Int)
  | real (v : Rat)
  | ptr (p : Option Ref)
deriving DecidableEq, Repr

/-! ## What the accessors use -/

/-- `event_type_to_str`: aborts without a type. The name itself is not modelled. /repo/src/libinput.c:79-114 -/
def eventTypeToStr (type : Ty) : Option Unit := if type = .none then none else some ()

/-- `check_event_type`: the loop over the permitted types, and the name for the message if none of them is
it. The message is not modelled. /repo/src/libinput.c:116-148 -/
def checkEventType (type : Ty) : List Ty → Option Bool
  | [] => (eventTypeToStr type).map fun _ => false
  | p :: ps => if p = type then some true else checkEventType type ps

/-- `require_event_type`: aborts without a type, returns the given value for a type that is not permitted.
/repo/src/libinput.c:43-46 -/
def requireEventType (e : Event) (permitted : List Ty) (ret : Val) (go : Option Val) : Option Val :=
  if e.type = .none then none
  else match checkEventType e.type permitted with
    | none => none
    | some true => go
    | some false => some ret

/-- Reading a `struct libinput_event_keyboard`. /repo/src/libinput.c:161-167 -/
def readKeyboard (e : Event) (go : Keyboard → Option Val) : Option Val :=
  match e.body with | .keyboard f => go f | _ => none

/-- Reading a `struct libinput_event_pointer`. /repo/src/libinput.c:169-181 -/
def readPointer (e : Event) (go : Pointer → Option Val) : Option Val :=
  match e.body with | .pointer f => go f | _ => none

/-- Reading a `struct libinput_event_touch`. /repo/src/libinput.c:183-189 -/
def readTouch (e : Event) (go : Touch → Option Val) : Option Val :=
  match e.body with | .touch f => go f | _ => none

/-- Reading a `struct libinput_event_gesture`. /repo/src/libinput.c:191-200 -/
def readGesture (e : Event) (go : Gesture → Option Val) : Option Val :=
  match e.body with | .gesture f => go f | _ => none

/-- Reading a `struct libinput_event_tablet_tool`. /repo/src/libinput.c:202-213 -/
def readTool (e : Event) (go : Tool → Option Val) : Option Val :=
  match e.body with | .tool f => go f | _ => none

/-- Reading a `struct libinput_event_tablet_pad`. /repo/src/libinput.c:215-238 -/
def readPad (e : Event) (go : Pad → Option Val) : Option Val :=
  match e.body with | .pad f => go f | _ => none

/-- Reading a `struct libinput_event_switch`. /repo/src/libinput.c:240-245 -/
def readSwitch (e : Event) (go : Switch → Option Val) : Option Val :=
  match e.body with | .switch f => go f | _ => none

/-- `us2ms`: the quotient is cut to 32 bits. /repo/src/util-time.h:66-70 -/
def us2ms (us : Nat) : Nat := us / 1000 % 4294967296

/-- `bit_is_set` on `changed_axes`. /repo/src/util-bits.h:45-49 -/
def bitIsSet (changed : ToolAxis → Bool) (axis : ToolAxis) : Int := if changed axis then 1 else 0

/-- `LIBINPUT_POINTER_AXIS_SCROLL_VERTICAL`. /repo/src/libinput.h:247 -/
def scrollVertical : Nat := 0

/-- `LIBINPUT_POINTER_AXIS_SCROLL_HORIZONTAL`. /repo/src/libinput.h:248 -/
def scrollHorizontal : Nat := 1

/-- The part of `libinput_event_pointer_has_axis` after the check of the type; the other two accessors of
axes call it after the same check. /repo/src/libinput.c:691-699 -/
def hasAxis (f : Pointer) (axis : Nat) : Int :=
  if axis = scrollHorizontal ∨ axis = scrollVertical then (if f.axes.testBit axis then 1 else 0) else 0

/-- `evdev_convert_to_mm`. A resolution of 0 gives infinity or no number at all in the code, `none` here.
/repo/src/evdev.h:629-634 -/
def convertToMm (a : Option Abs) (v : Int) : Option Rat :=
  match a with
  | some a => if a.res = 0 then none else some ((v - a.min : Int) / (a.res : Rat))
  | none => none

/-- `scale_axis`; a range of no values gives `none`. /repo/src/evdev.c:354-359 -/
def scaleAxis (a : Option Abs) (v : Int) (to : Nat) : Option Rat :=
  match a with
  | some a =>
    if a.max - a.min + 1 = 0 then none else some (((v - a.min : Int) : Rat) * (to : Rat) / ((a.max - a.min + 1 : Int) : Rat))
  | none => none

/-- `evdev_device_transform_x`. /repo/src/evdev.c:361-367 -/
def transformX (d : Device) (x : Int) (width : Nat) : Option Rat := scaleAxis d.absX x width

/-- `evdev_device_transform_y`. /repo/src/evdev.c:369-375 -/
def transformY (d : Device) (y : Int) (height : Nat) : Option Rat := scaleAxis d.absY y height

/-! ## The accessors -/

/-- `libinput_event_get_pointer_event`. /repo/src/libinput.c:358-370 -/
def getPointerEvent (e : Event) : Option Val :=
  requireEventType e [.pointerMotion, .pointerMotionAbsolute, .pointerButton, .pointerAxis] (.ptr none) <|
  some (.ptr (some .event))

/-- `libinput_event_get_keyboard_event`. /repo/src/libinput.c:372-381 -/
def getKeyboardEvent (e : Event) : Option Val :=
  requireEventType e [.keyboardKey] (.ptr none) <|
  some (.ptr (some .event))

/-- `libinput_event_get_touch_event`. /repo/src/libinput.c:383-395 -/
def getTouchEvent (e : Event) : Option Val :=
  requireEventType e [.touchDown, .touchUp, .touchMotion, .touchCancel, .touchFrame] (.ptr none) <|
  some (.ptr (some .event))

/-- `libinput_event_get_gesture_event`. /repo/src/libinput.c:397-411 -/
def getGestureEvent (e : Event) : Option Val :=
  requireEventType e [.gestureSwipeBegin, .gestureSwipeUpdate, .gestureSwipeEnd, .gesturePinchBegin, .gesturePinchUpdate, .gesturePinchEnd] (.ptr none) <|
  some (.ptr (some .event))

/-- `libinput_event_get_tablet_tool_event`. /repo/src/libinput.c:413-425 -/
def getTabletToolEvent (e : Event) : Option Val :=
  requireEventType e [.tabletToolAxis, .tabletToolProximity, .tabletToolTip, .tabletToolButton] (.ptr none) <|
  some (.ptr (some .event))

/-- `libinput_event_get_tablet_pad_event`. /repo/src/libinput.c:427-439 -/
def getTabletPadEvent (e : Event) : Option Val :=
  requireEventType e [.tabletPadRing, .tabletPadStrip, .tabletPadButton, .tabletPadKey] (.ptr none) <|
  some (.ptr (some .event))

/-- `libinput_event_get_device_notify_event`. /repo/src/libinput.c:441-451 -/
def getDeviceNotifyEvent (e : Event) : Option Val :=
  requireEventType e [.deviceAdded, .deviceRemoved] (.ptr none) <|
  some (.ptr (some .event))

/-- `libinput_event_get_switch_event`. /repo/src/libinput.c:453-462 -/
def getSwitchEvent (e : Event) : Option Val :=
  requireEventType e [.switchToggle] (.ptr none) <|
  some (.ptr (some .event))

/-- `libinput_event_keyboard_get_time`. /repo/src/libinput.c:464-473 -/
def keyboardGetTime (e : Event) : Option Val :=
  requireEventType e [.keyboardKey] (.int 0) <|
  readKeyboard e fun f => some (.int (us2ms f.time))

/-- `libinput_event_keyboard_get_time_usec`. /repo/src/libinput.c:475-484 -/
def keyboardGetTimeUsec (e : Event) : Option Val :=
  requireEventType e [.keyboardKey] (.int 0) <|
  readKeyboard e fun f => some (.int f.time)

/-- `libinput_event_keyboard_get_key`. /repo/src/libinput.c:486-495 -/
def keyboardGetKey (e : Event) : Option Val :=
  requireEventType e [.keyboardKey] (.int 0) <|
  readKeyboard e fun f => some (.int f.key)

/-- `libinput_event_keyboard_get_key_state`. /repo/src/libinput.c:497-506 -/
def keyboardGetKeyState (e : Event) : Option Val :=
  requireEventType e [.keyboardKey] (.int 0) <|
  readKeyboard e fun f => some (.int f.state)

/-- `libinput_event_keyboard_get_seat_key_count`. /repo/src/libinput.c:508-518 -/
def keyboardGetSeatKeyCount (e : Event) : Option Val :=
  requireEventType e [.keyboardKey] (.int 0) <|
  readKeyboard e fun f => some (.int f.seatKeyCount)

/-- `libinput_event_pointer_get_time`. /repo/src/libinput.c:520-532 -/
def pointerGetTime (e : Event) : Option Val :=
  requireEventType e [.pointerMotion, .pointerMotionAbsolute, .pointerButton, .pointerAxis] (.int 0) <|
  readPointer e fun f => some (.int (us2ms f.time))

/-- `libinput_event_pointer_get_time_usec`. /repo/src/libinput.c:534-546 -/
def pointerGetTimeUsec (e : Event) : Option Val :=
  requireEventType e [.pointerMotion, .pointerMotionAbsolute, .pointerButton, .pointerAxis] (.int 0) <|
  readPointer e fun f => some (.int f.time)

/-- `libinput_event_pointer_get_dx`. /repo/src/libinput.c:548-557 -/
def pointerGetDx (e : Event) : Option Val :=
  requireEventType e [.pointerMotion] (.real 0) <|
  readPointer e fun f => some (.real f.dx)

/-- `libinput_event_pointer_get_dy`. /repo/src/libinput.c:559-568 -/
def pointerGetDy (e : Event) : Option Val :=
  requireEventType e [.pointerMotion] (.real 0) <|
  readPointer e fun f => some (.real f.dy)

/-- `libinput_event_pointer_get_dx_unaccelerated`. /repo/src/libinput.c:570-580 -/
def pointerGetDxUnaccelerated (e : Event) : Option Val :=
  requireEventType e [.pointerMotion] (.real 0) <|
  readPointer e fun f => some (.real f.rawX)

/-- `libinput_event_pointer_get_dy_unaccelerated`. /repo/src/libinput.c:582-592 -/
def pointerGetDyUnaccelerated (e : Event) : Option Val :=
  requireEventType e [.pointerMotion] (.real 0) <|
  readPointer e fun f => some (.real f.rawY)

/-- `libinput_event_pointer_get_absolute_x`. /repo/src/libinput.c:594-605 -/
def pointerGetAbsoluteX (e : Event) : Option Val :=
  requireEventType e [.pointerMotionAbsolute] (.real 0) <|
  readPointer e fun f => (convertToMm e.device.absX f.absX).map .real

/-- `libinput_event_pointer_get_absolute_y`. /repo/src/libinput.c:607-618 -/
def pointerGetAbsoluteY (e : Event) : Option Val :=
  requireEventType e [.pointerMotionAbsolute] (.real 0) <|
  readPointer e fun f => (convertToMm e.device.absY f.absY).map .real

/-- `libinput_event_pointer_get_absolute_x_transformed`. /repo/src/libinput.c:620-633 -/
def pointerGetAbsoluteXTransformed (width : Nat) (e : Event) : Option Val :=
  requireEventType e [.pointerMotionAbsolute] (.real 0) <|
  readPointer e fun f => (transformX e.device f.absX width).map .real

/-- `libinput_event_pointer_get_absolute_y_transformed`. /repo/src/libinput.c:635-648 -/
def pointerGetAbsoluteYTransformed (height : Nat) (e : Event) : Option Val :=
  requireEventType e [.pointerMotionAbsolute] (.real 0) <|
  readPointer e fun f => (transformY e.device f.absY height).map .real

/-- `libinput_event_pointer_get_button`. /repo/src/libinput.c:650-659 -/
def pointerGetButton (e : Event) : Option Val :=
  requireEventType e [.pointerButton] (.int 0) <|
  readPointer e fun f => some (.int f.button)

/-- `libinput_event_pointer_get_button_state`. /repo/src/libinput.c:661-670 -/
def pointerGetButtonState (e : Event) : Option Val :=
  requireEventType e [.pointerButton] (.int 0) <|
  readPointer e fun f => some (.int f.state)

/-- `libinput_event_pointer_get_seat_button_count`. /repo/src/libinput.c:672-682 -/
def pointerGetSeatButtonCount (e : Event) : Option Val :=
  requireEventType e [.pointerButton] (.int 0) <|
  readPointer e fun f => some (.int f.seatButtonCount)

/-- `libinput_event_pointer_has_axis`. /repo/src/libinput.c:684-700 -/
def pointerHasAxis (axis : Nat) (e : Event) : Option Val :=
  requireEventType e [.pointerAxis] (.int 0) <|
  readPointer e fun f => some (.int (hasAxis f axis))

/-- `libinput_event_pointer_get_axis_value`. /repo/src/libinput.c:702-728 -/
def pointerGetAxisValue (axis : Nat) (e : Event) : Option Val :=
  requireEventType e [.pointerAxis] (.real 0) <|
  readPointer e fun f => some (.real (
    if hasAxis f axis = 0 then 0
    else if axis = scrollHorizontal then f.dx
    else if axis = scrollVertical then f.dy else 0))

/-- `libinput_event_pointer_get_axis_value_discrete`. /repo/src/libinput.c:730-755 -/
def pointerGetAxisValueDiscrete (axis : Nat) (e : Event) : Option Val :=
  requireEventType e [.pointerAxis] (.real 0) <|
  readPointer e fun f => some (.real (
    if hasAxis f axis = 0 then 0
    else if axis = scrollHorizontal then (f.discreteX : Rat)
    else if axis = scrollVertical then (f.discreteY : Rat) else 0))

/-- `libinput_event_pointer_get_axis_source`. /repo/src/libinput.c:757-766 -/
def pointerGetAxisSource (e : Event) : Option Val :=
  requireEventType e [.pointerAxis] (.int 0) <|
  readPointer e fun f => some (.int f.source)

/-- `libinput_event_touch_get_time`. /repo/src/libinput.c:768-781 -/
def touchGetTime (e : Event) : Option Val :=
  requireEventType e [.touchDown, .touchUp, .touchMotion, .touchCancel, .touchFrame] (.int 0) <|
  readTouch e fun f => some (.int (us2ms f.time))

/-- `libinput_event_touch_get_time_usec`. /repo/src/libinput.c:783-796 -/
def touchGetTimeUsec (e : Event) : Option Val :=
  requireEventType e [.touchDown, .touchUp, .touchMotion, .touchCancel, .touchFrame] (.int 0) <|
  readTouch e fun f => some (.int f.time)

/-- `libinput_event_touch_get_slot`. /repo/src/libinput.c:798-810 -/
def touchGetSlot (e : Event) : Option Val :=
  requireEventType e [.touchDown, .touchUp, .touchMotion, .touchCancel] (.int 0) <|
  readTouch e fun f => some (.int f.slot)

/-- `libinput_event_touch_get_seat_slot`. /repo/src/libinput.c:812-824 -/
def touchGetSeatSlot (e : Event) : Option Val :=
  requireEventType e [.touchDown, .touchUp, .touchMotion, .touchCancel] (.int 0) <|
  readTouch e fun f => some (.int f.seatSlot)

/-- `libinput_event_touch_get_x`. /repo/src/libinput.c:826-838 -/
def touchGetX (e : Event) : Option Val :=
  requireEventType e [.touchDown, .touchMotion] (.real 0) <|
  readTouch e fun f => (convertToMm e.device.absX f.x).map .real

/-- `libinput_event_touch_get_x_transformed`. /repo/src/libinput.c:840-853 -/
def touchGetXTransformed (width : Nat) (e : Event) : Option Val :=
  requireEventType e [.touchDown, .touchMotion] (.real 0) <|
  readTouch e fun f => (transformX e.device f.x width).map .real

/-- `libinput_event_touch_get_y_transformed`. /repo/src/libinput.c:855-868 -/
def touchGetYTransformed (height : Nat) (e : Event) : Option Val :=
  requireEventType e [.touchDown, .touchMotion] (.real 0) <|
  readTouch e fun f => (transformY e.device f.y height).map .real

/-- `libinput_event_touch_get_y`. /repo/src/libinput.c:870-882 -/
def touchGetY (e : Event) : Option Val :=
  requireEventType e [.touchDown, .touchMotion] (.real 0) <|
  readTouch e fun f => (convertToMm e.device.absY f.y).map .real

/-- `libinput_event_gesture_get_time`. /repo/src/libinput.c:884-898 -/
def gestureGetTime (e : Event) : Option Val :=
  requireEventType e [.gesturePinchBegin, .gesturePinchUpdate, .gesturePinchEnd, .gestureSwipeBegin, .gestureSwipeUpdate, .gestureSwipeEnd] (.int 0) <|
  readGesture e fun f => some (.int (us2ms f.time))

/-- `libinput_event_gesture_get_time_usec`. /repo/src/libinput.c:900-914 -/
def gestureGetTimeUsec (e : Event) : Option Val :=
  requireEventType e [.gesturePinchBegin, .gesturePinchUpdate, .gesturePinchEnd, .gestureSwipeBegin, .gestureSwipeUpdate, .gestureSwipeEnd] (.int 0) <|
  readGesture e fun f => some (.int f.time)

/-- `libinput_event_gesture_get_finger_count`. /repo/src/libinput.c:916-930 -/
def gestureGetFingerCount (e : Event) : Option Val :=
  requireEventType e [.gesturePinchBegin, .gesturePinchUpdate, .gesturePinchEnd, .gestureSwipeBegin, .gestureSwipeUpdate, .gestureSwipeEnd] (.int 0) <|
  readGesture e fun f => some (.int f.fingerCount)

/-- `libinput_event_gesture_get_cancelled`. /repo/src/libinput.c:932-942 -/
def gestureGetCancelled (e : Event) : Option Val :=
  requireEventType e [.gesturePinchEnd, .gestureSwipeEnd] (.int 0) <|
  readGesture e fun f => some (.int f.cancelled)

/-- `libinput_event_gesture_get_dx`. /repo/src/libinput.c:944-958 -/
def gestureGetDx (e : Event) : Option Val :=
  requireEventType e [.gesturePinchBegin, .gesturePinchUpdate, .gesturePinchEnd, .gestureSwipeBegin, .gestureSwipeUpdate, .gestureSwipeEnd] (.real 0) <|
  readGesture e fun f => some (.real f.dx)

/-- `libinput_event_gesture_get_dy`. /repo/src/libinput.c:960-974 -/
def gestureGetDy (e : Event) : Option Val :=
  requireEventType e [.gesturePinchBegin, .gesturePinchUpdate, .gesturePinchEnd, .gestureSwipeBegin, .gestureSwipeUpdate, .gestureSwipeEnd] (.real 0) <|
  readGesture e fun f => some (.real f.dy)

/-- `libinput_event_gesture_get_dx_unaccelerated`. /repo/src/libinput.c:976-991 -/
def gestureGetDxUnaccelerated (e : Event) : Option Val :=
  requireEventType e [.gesturePinchBegin, .gesturePinchUpdate, .gesturePinchEnd, .gestureSwipeBegin, .gestureSwipeUpdate, .gestureSwipeEnd] (.real 0) <|
  readGesture e fun f => some (.real f.unaccelX)

/-- `libinput_event_gesture_get_dy_unaccelerated`. /repo/src/libinput.c:993-1008 -/
def gestureGetDyUnaccelerated (e : Event) : Option Val :=
  requireEventType e [.gesturePinchBegin, .gesturePinchUpdate, .gesturePinchEnd, .gestureSwipeBegin, .gestureSwipeUpdate, .gestureSwipeEnd] (.real 0) <|
  readGesture e fun f => some (.real f.unaccelY)

/-- `libinput_event_gesture_get_scale`. /repo/src/libinput.c:1010-1021 -/
def gestureGetScale (e : Event) : Option Val :=
  requireEventType e [.gesturePinchBegin, .gesturePinchUpdate, .gesturePinchEnd] (.real 0) <|
  readGesture e fun f => some (.real f.scale)

/-- `libinput_event_gesture_get_angle_delta`. /repo/src/libinput.c:1023-1034 -/
def gestureGetAngleDelta (e : Event) : Option Val :=
  requireEventType e [.gesturePinchBegin, .gesturePinchUpdate, .gesturePinchEnd] (.real 0) <|
  readGesture e fun f => some (.real f.angle)

/-- `libinput_event_tablet_tool_x_has_changed`. /repo/src/libinput.c:1036-1050 -/
def tabletToolXHasChanged (e : Event) : Option Val :=
  requireEventType e [.tabletToolAxis, .tabletToolTip, .tabletToolButton, .tabletToolProximity] (.int 0) <|
  readTool e fun f => some (.int (bitIsSet f.changed .x))

/-- `libinput_event_tablet_tool_y_has_changed`. /repo/src/libinput.c:1052-1066 -/
def tabletToolYHasChanged (e : Event) : Option Val :=
  requireEventType e [.tabletToolAxis, .tabletToolTip, .tabletToolButton, .tabletToolProximity] (.int 0) <|
  readTool e fun f => some (.int (bitIsSet f.changed .y))

/-- `libinput_event_tablet_tool_pressure_has_changed`. /repo/src/libinput.c:1068-1082 -/
def tabletToolPressureHasChanged (e : Event) : Option Val :=
  requireEventType e [.tabletToolAxis, .tabletToolTip, .tabletToolButton, .tabletToolProximity] (.int 0) <|
  readTool e fun f => some (.int (bitIsSet f.changed .pressure))

/-- `libinput_event_tablet_tool_distance_has_changed`. /repo/src/libinput.c:1084-1098 -/
def tabletToolDistanceHasChanged (e : Event) : Option Val :=
  requireEventType e [.tabletToolAxis, .tabletToolTip, .tabletToolButton, .tabletToolProximity] (.int 0) <|
  readTool e fun f => some (.int (bitIsSet f.changed .distance))

/-- `libinput_event_tablet_tool_tilt_x_has_changed`. /repo/src/libinput.c:1100-1114 -/
def tabletToolTiltXHasChanged (e : Event) : Option Val :=
  requireEventType e [.tabletToolAxis, .tabletToolTip, .tabletToolButton, .tabletToolProximity] (.int 0) <|
  readTool e fun f => some (.int (bitIsSet f.changed .tiltX))

/-- `libinput_event_tablet_tool_tilt_y_has_changed`. /repo/src/libinput.c:1116-1130 -/
def tabletToolTiltYHasChanged (e : Event) : Option Val :=
  requireEventType e [.tabletToolAxis, .tabletToolTip, .tabletToolButton, .tabletToolProximity] (.int 0) <|
  readTool e fun f => some (.int (bitIsSet f.changed .tiltY))

/-- `libinput_event_tablet_tool_rotation_has_changed`. /repo/src/libinput.c:1132-1146 -/
def tabletToolRotationHasChanged (e : Event) : Option Val :=
  requireEventType e [.tabletToolAxis, .tabletToolTip, .tabletToolButton, .tabletToolProximity] (.int 0) <|
  readTool e fun f => some (.int (bitIsSet f.changed .rotation))

/-- `libinput_event_tablet_tool_slider_has_changed`. /repo/src/libinput.c:1148-1162 -/
def tabletToolSliderHasChanged (e : Event) : Option Val :=
  requireEventType e [.tabletToolAxis, .tabletToolTip, .tabletToolButton, .tabletToolProximity] (.int 0) <|
  readTool e fun f => some (.int (bitIsSet f.changed .slider))

/-- `libinput_event_tablet_tool_size_major_has_changed`. /repo/src/libinput.c:1164-1178 -/
def tabletToolSizeMajorHasChanged (e : Event) : Option Val :=
  requireEventType e [.tabletToolAxis, .tabletToolTip, .tabletToolButton, .tabletToolProximity] (.int 0) <|
  readTool e fun f => some (.int (bitIsSet f.changed .major))

/-- `libinput_event_tablet_tool_size_minor_has_changed`. /repo/src/libinput.c:1180-1194 -/
def tabletToolSizeMinorHasChanged (e : Event) : Option Val :=
  requireEventType e [.tabletToolAxis, .tabletToolTip, .tabletToolButton, .tabletToolProximity] (.int 0) <|
  readTool e fun f => some (.int (bitIsSet f.changed .minor))

/-- `libinput_event_tablet_tool_wheel_has_changed`. /repo/src/libinput.c:1196-1210 -/
def tabletToolWheelHasChanged (e : Event) : Option Val :=
  requireEventType e [.tabletToolAxis, .tabletToolTip, .tabletToolButton, .tabletToolProximity] (.int 0) <|
  readTool e fun f => some (.int (bitIsSet f.changed .wheel))

/-- `libinput_event_tablet_tool_get_x`. /repo/src/libinput.c:1212-1227 -/
def tabletToolGetX (e : Event) : Option Val :=
  requireEventType e [.tabletToolAxis, .tabletToolTip, .tabletToolButton, .tabletToolProximity] (.real 0) <|
  readTool e fun f => (convertToMm e.device.absX f.axes.x).map .real

/-- `libinput_event_tablet_tool_get_y`. /repo/src/libinput.c:1229-1244 -/
def tabletToolGetY (e : Event) : Option Val :=
  requireEventType e [.tabletToolAxis, .tabletToolTip, .tabletToolButton, .tabletToolProximity] (.real 0) <|
  readTool e fun f => (convertToMm e.device.absY f.axes.y).map .real

/-- `libinput_event_tablet_tool_get_dx`. /repo/src/libinput.c:1246-1258 -/
def tabletToolGetDx (e : Event) : Option Val :=
  requireEventType e [.tabletToolAxis, .tabletToolTip, .tabletToolButton, .tabletToolProximity] (.real 0) <|
  readTool e fun f => some (.real f.axes.dx)

/-- `libinput_event_tablet_tool_get_dy`. /repo/src/libinput.c:1260-1272 -/
def tabletToolGetDy (e : Event) : Option Val :=
  requireEventType e [.tabletToolAxis, .tabletToolTip, .tabletToolButton, .tabletToolProximity] (.real 0) <|
  readTool e fun f => some (.real f.axes.dy)

/-- `libinput_event_tablet_tool_get_pressure`. /repo/src/libinput.c:1274-1286 -/
def tabletToolGetPressure (e : Event) : Option Val :=
  requireEventType e [.tabletToolAxis, .tabletToolTip, .tabletToolButton, .tabletToolProximity] (.real 0) <|
  readTool e fun f => some (.real f.axes.pressure)

/-- `libinput_event_tablet_tool_get_distance`. /repo/src/libinput.c:1288-1300 -/
def tabletToolGetDistance (e : Event) : Option Val :=
  requireEventType e [.tabletToolAxis, .tabletToolTip, .tabletToolButton, .tabletToolProximity] (.real 0) <|
  readTool e fun f => some (.real f.axes.distance)

/-- `libinput_event_tablet_tool_get_tilt_x`. /repo/src/libinput.c:1302-1314 -/
def tabletToolGetTiltX (e : Event) : Option Val :=
  requireEventType e [.tabletToolAxis, .tabletToolTip, .tabletToolButton, .tabletToolProximity] (.real 0) <|
  readTool e fun f => some (.real f.axes.tiltX)

/-- `libinput_event_tablet_tool_get_tilt_y`. /repo/src/libinput.c:1316-1328 -/
def tabletToolGetTiltY (e : Event) : Option Val :=
  requireEventType e [.tabletToolAxis, .tabletToolTip, .tabletToolButton, .tabletToolProximity] (.real 0) <|
  readTool e fun f => some (.real f.axes.tiltY)

/-- `libinput_event_tablet_tool_get_rotation`. /repo/src/libinput.c:1330-1342 -/
def tabletToolGetRotation (e : Event) : Option Val :=
  requireEventType e [.tabletToolAxis, .tabletToolTip, .tabletToolButton, .tabletToolProximity] (.real 0) <|
  readTool e fun f => some (.real f.axes.rotation)

/-- `libinput_event_tablet_tool_get_slider_position`. /repo/src/libinput.c:1344-1356 -/
def tabletToolGetSliderPosition (e : Event) : Option Val :=
  requireEventType e [.tabletToolAxis, .tabletToolTip, .tabletToolButton, .tabletToolProximity] (.real 0) <|
  readTool e fun f => some (.real f.axes.slider)

/-- `libinput_event_tablet_tool_get_size_major`. /repo/src/libinput.c:1358-1370 -/
def tabletToolGetSizeMajor (e : Event) : Option Val :=
  requireEventType e [.tabletToolAxis, .tabletToolTip, .tabletToolButton, .tabletToolProximity] (.real 0) <|
  readTool e fun f => some (.real f.axes.major)

/-- `libinput_event_tablet_tool_get_size_minor`. /repo/src/libinput.c:1372-1384 -/
def tabletToolGetSizeMinor (e : Event) : Option Val :=
  requireEventType e [.tabletToolAxis, .tabletToolTip, .tabletToolButton, .tabletToolProximity] (.real 0) <|
  readTool e fun f => some (.real f.axes.minor)

/-- `libinput_event_tablet_tool_get_wheel_delta`. /repo/src/libinput.c:1386-1398 -/
def tabletToolGetWheelDelta (e : Event) : Option Val :=
  requireEventType e [.tabletToolAxis, .tabletToolTip, .tabletToolButton, .tabletToolProximity] (.real 0) <|
  readTool e fun f => some (.real f.axes.wheel)

/-- `libinput_event_tablet_tool_get_wheel_delta_discrete`. /repo/src/libinput.c:1400-1413 -/
def tabletToolGetWheelDeltaDiscrete (e : Event) : Option Val :=
  requireEventType e [.tabletToolAxis, .tabletToolTip, .tabletToolButton, .tabletToolProximity] (.int 0) <|
  readTool e fun f => some (.int f.axes.wheelDiscrete)

/-- `libinput_event_tablet_tool_get_x_transformed`. /repo/src/libinput.c:1415-1432 -/
def tabletToolGetXTransformed (width : Nat) (e : Event) : Option Val :=
  requireEventType e [.tabletToolAxis, .tabletToolTip, .tabletToolButton, .tabletToolProximity] (.real 0) <|
  readTool e fun f => (transformX e.device f.axes.x width).map .real

/-- `libinput_event_tablet_tool_get_y_transformed`. /repo/src/libinput.c:1434-1451 -/
def tabletToolGetYTransformed (height : Nat) (e : Event) : Option Val :=
  requireEventType e [.tabletToolAxis, .tabletToolTip, .tabletToolButton, .tabletToolProximity] (.real 0) <|
  readTool e fun f => (transformY e.device f.axes.y height).map .real

/-- `libinput_event_tablet_tool_get_tool`. /repo/src/libinput.c:1453-1465 -/
def tabletToolGetTool (e : Event) : Option Val :=
  requireEventType e [.tabletToolAxis, .tabletToolTip, .tabletToolButton, .tabletToolProximity] (.ptr none) <|
  readTool e fun f => some (.ptr (some (.tool f.tool)))

/-- `libinput_event_tablet_tool_get_proximity_state`. /repo/src/libinput.c:1467-1479 -/
def tabletToolGetProximityState (e : Event) : Option Val :=
  requireEventType e [.tabletToolAxis, .tabletToolTip, .tabletToolButton, .tabletToolProximity] (.int 0) <|
  readTool e fun f => some (.int f.proximityState)

/-- `libinput_event_tablet_tool_get_tip_state`. /repo/src/libinput.c:1481-1493 -/
def tabletToolGetTipState (e : Event) : Option Val :=
  requireEventType e [.tabletToolAxis, .tabletToolTip, .tabletToolButton, .tabletToolProximity] (.int 0) <|
  readTool e fun f => some (.int f.tipState)

/-- `libinput_event_tablet_tool_get_time`. /repo/src/libinput.c:1495-1507 -/
def tabletToolGetTime (e : Event) : Option Val :=
  requireEventType e [.tabletToolAxis, .tabletToolTip, .tabletToolButton, .tabletToolProximity] (.int 0) <|
  readTool e fun f => some (.int (us2ms f.time))

/-- `libinput_event_tablet_tool_get_time_usec`. /repo/src/libinput.c:1509-1521 -/
def tabletToolGetTimeUsec (e : Event) : Option Val :=
  requireEventType e [.tabletToolAxis, .tabletToolTip, .tabletToolButton, .tabletToolProximity] (.int 0) <|
  readTool e fun f => some (.int f.time)

/-- `libinput_event_tablet_tool_get_button`. /repo/src/libinput.c:1523-1532 -/
def tabletToolGetButton (e : Event) : Option Val :=
  requireEventType e [.tabletToolButton] (.int 0) <|
  readTool e fun f => some (.int f.button)

/-- `libinput_event_tablet_tool_get_button_state`. /repo/src/libinput.c:1534-1543 -/
def tabletToolGetButtonState (e : Event) : Option Val :=
  requireEventType e [.tabletToolButton] (.int 0) <|
  readTool e fun f => some (.int f.state)

/-- `libinput_event_tablet_tool_get_seat_button_count`. /repo/src/libinput.c:1545-1554 -/
def tabletToolGetSeatButtonCount (e : Event) : Option Val :=
  requireEventType e [.tabletToolButton] (.int 0) <|
  readTool e fun f => some (.int f.seatButtonCount)

/-- `libinput_event_switch_get_base_event`. /repo/src/libinput.c:1673-1682 -/
def switchGetBaseEvent (e : Event) : Option Val :=
  requireEventType e [.switchToggle] (.ptr none) <|
  some (.ptr (some .event))

/-- `libinput_event_switch_get_switch`. /repo/src/libinput.c:1684-1693 -/
def switchGetSwitch (e : Event) : Option Val :=
  requireEventType e [.switchToggle] (.int 0) <|
  readSwitch e fun f => some (.int f.sw)

/-- `libinput_event_switch_get_switch_state`. /repo/src/libinput.c:1695-1704 -/
def switchGetSwitchState (e : Event) : Option Val :=
  requireEventType e [.switchToggle] (.int 0) <|
  readSwitch e fun f => some (.int f.state)

/-- `libinput_event_switch_get_time`. /repo/src/libinput.c:1706-1715 -/
def switchGetTime (e : Event) : Option Val :=
  requireEventType e [.switchToggle] (.int 0) <|
  readSwitch e fun f => some (.int (us2ms f.time))

/-- `libinput_event_switch_get_time_usec`. /repo/src/libinput.c:1717-1726 -/
def switchGetTimeUsec (e : Event) : Option Val :=
  requireEventType e [.switchToggle] (.int 0) <|
  readSwitch e fun f => some (.int f.time)

/-- `libinput_event_device_notify_get_base_event`. /repo/src/libinput.c:3298-3308 -/
def deviceNotifyGetBaseEvent (e : Event) : Option Val :=
  requireEventType e [.deviceAdded, .deviceRemoved] (.ptr none) <|
  some (.ptr (some .event))

/-- `libinput_event_keyboard_get_base_event`. /repo/src/libinput.c:3310-3319 -/
def keyboardGetBaseEvent (e : Event) : Option Val :=
  requireEventType e [.keyboardKey] (.ptr none) <|
  some (.ptr (some .event))

/-- `libinput_event_pointer_get_base_event`. /repo/src/libinput.c:3321-3333 -/
def pointerGetBaseEvent (e : Event) : Option Val :=
  requireEventType e [.pointerMotion, .pointerMotionAbsolute, .pointerButton, .pointerAxis] (.ptr none) <|
  some (.ptr (some .event))

/-- `libinput_event_touch_get_base_event`. /repo/src/libinput.c:3335-3348 -/
def touchGetBaseEvent (e : Event) : Option Val :=
  requireEventType e [.touchDown, .touchUp, .touchMotion, .touchCancel, .touchFrame] (.ptr none) <|
  some (.ptr (some .event))

/-- `libinput_event_gesture_get_base_event`. /repo/src/libinput.c:3350-3364 -/
def gestureGetBaseEvent (e : Event) : Option Val :=
  requireEventType e [.gestureSwipeBegin, .gestureSwipeUpdate, .gestureSwipeEnd, .gesturePinchBegin, .gesturePinchUpdate, .gesturePinchEnd] (.ptr none) <|
  some (.ptr (some .event))

/-- `libinput_event_tablet_tool_get_base_event`. /repo/src/libinput.c:3366-3378 -/
def tabletToolGetBaseEvent (e : Event) : Option Val :=
  requireEventType e [.tabletToolAxis, .tabletToolTip, .tabletToolProximity, .tabletToolButton] (.ptr none) <|
  some (.ptr (some .event))

/-- `libinput_event_tablet_pad_get_ring_position`. /repo/src/libinput.c:3380-3389 -/
def tabletPadGetRingPosition (e : Event) : Option Val :=
  requireEventType e [.tabletPadRing] (.real 0) <|
  readPad e fun f => some (.real f.ringPosition)

/-- `libinput_event_tablet_pad_get_ring_number`. /repo/src/libinput.c:3391-3400 -/
def tabletPadGetRingNumber (e : Event) : Option Val :=
  requireEventType e [.tabletPadRing] (.int 0) <|
  readPad e fun f => some (.int f.ringNumber)

/-- `libinput_event_tablet_pad_get_ring_source`. /repo/src/libinput.c:3402-3411 -/
def tabletPadGetRingSource (e : Event) : Option Val :=
  requireEventType e [.tabletPadRing] (.int 1) <|
  readPad e fun f => some (.int f.ringSource)

/-- `libinput_event_tablet_pad_get_strip_position`. /repo/src/libinput.c:3413-3422 -/
def tabletPadGetStripPosition (e : Event) : Option Val :=
  requireEventType e [.tabletPadStrip] (.real 0) <|
  readPad e fun f => some (.real f.stripPosition)

/-- `libinput_event_tablet_pad_get_strip_number`. /repo/src/libinput.c:3424-3433 -/
def tabletPadGetStripNumber (e : Event) : Option Val :=
  requireEventType e [.tabletPadStrip] (.int 0) <|
  readPad e fun f => some (.int f.stripNumber)

/-- `libinput_event_tablet_pad_get_strip_source`. /repo/src/libinput.c:3435-3444 -/
def tabletPadGetStripSource (e : Event) : Option Val :=
  requireEventType e [.tabletPadStrip] (.int 1) <|
  readPad e fun f => some (.int f.stripSource)

/-- `libinput_event_tablet_pad_get_button_number`. /repo/src/libinput.c:3446-3455 -/
def tabletPadGetButtonNumber (e : Event) : Option Val :=
  requireEventType e [.tabletPadButton] (.int 0) <|
  readPad e fun f => some (.int f.buttonNumber)

/-- `libinput_event_tablet_pad_get_button_state`. /repo/src/libinput.c:3457-3466 -/
def tabletPadGetButtonState (e : Event) : Option Val :=
  requireEventType e [.tabletPadButton] (.int 0) <|
  readPad e fun f => some (.int f.buttonState)

/-- `libinput_event_tablet_pad_get_key`. /repo/src/libinput.c:3468-3477 -/
def tabletPadGetKey (e : Event) : Option Val :=
  requireEventType e [.tabletPadKey] (.int 0) <|
  readPad e fun f => some (.int f.keyCode)

/-- `libinput_event_tablet_pad_get_key_state`. /repo/src/libinput.c:3479-3488 -/
def tabletPadGetKeyState (e : Event) : Option Val :=
  requireEventType e [.tabletPadKey] (.int 0) <|
  readPad e fun f => some (.int f.keyState)

/-- `libinput_event_tablet_pad_get_mode`. /repo/src/libinput.c:3490-3501 -/
def tabletPadGetMode (e : Event) : Option Val :=
  requireEventType e [.tabletPadRing, .tabletPadStrip, .tabletPadButton] (.int 0) <|
  readPad e fun f => some (.int f.mode)

/-- `libinput_event_tablet_pad_get_mode_group`. /repo/src/libinput.c:3503-3514 -/
def tabletPadGetModeGroup (e : Event) : Option Val :=
  requireEventType e [.tabletPadRing, .tabletPadStrip, .tabletPadButton] (.ptr none) <|
  readPad e fun f => some (.ptr (f.modeGroup.map .group))

/-- `libinput_event_tablet_pad_get_time`. /repo/src/libinput.c:3516-3528 -/
def tabletPadGetTime (e : Event) : Option Val :=
  requireEventType e [.tabletPadRing, .tabletPadStrip, .tabletPadButton, .tabletPadKey] (.int 0) <|
  readPad e fun f => some (.int (us2ms f.time))

/-- `libinput_event_tablet_pad_get_time_usec`. /repo/src/libinput.c:3530-3542 -/
def tabletPadGetTimeUsec (e : Event) : Option Val :=
  requireEventType e [.tabletPadRing, .tabletPadStrip, .tabletPadButton, .tabletPadKey] (.int 0) <|
  readPad e fun f => some (.int f.time)

/-- `libinput_event_tablet_pad_get_base_event`. /repo/src/libinput.c:3544-3556 -/
def tabletPadGetBaseEvent (e : Event) : Option Val :=
  requireEventType e [.tabletPadRing, .tabletPadStrip, .tabletPadButton, .tabletPadKey] (.ptr none) <|
  some (.ptr (some .event))

/-- The functions with which a caller asks an event something; the number is the axis, width or
height given by the caller. /repo/src/libinput.c:358-1553, /repo/src/libinput.c:1673-1724, /repo/src/libinput.c:3298-3555 -/
inductive Acc where
  | getPointerEvent
  | getKeyboardEvent
  | getTouchEvent
  | getGestureEvent
  | getTabletToolEvent
  | getTabletPadEvent
  | getDeviceNotifyEvent
  | getSwitchEvent
  | keyboardGetTime
  | keyboardGetTimeUsec
  | keyboardGetKey
  | keyboardGetKeyState
  | keyboardGetSeatKeyCount
  | pointerGetTime
  | pointerGetTimeUsec
  | pointerGetDx
  | pointerGetDy
  | pointerGetDxUnaccelerated
  | pointerGetDyUnaccelerated
  | pointerGetAbsoluteX
  | pointerGetAbsoluteY
  | pointerGetAbsoluteXTransformed (n : Nat)
  | pointerGetAbsoluteYTransformed (n : Nat)
  | pointerGetButton
  | pointerGetButtonState
  | pointerGetSeatButtonCount
  | pointerHasAxis (n : Nat)
  | pointerGetAxisValue (n : Nat)
  | pointerGetAxisValueDiscrete (n : Nat)
  | pointerGetAxisSource
  | touchGetTime
  | touchGetTimeUsec
  | touchGetSlot
  | touchGetSeatSlot
  | touchGetX
  | touchGetXTransformed (n : Nat)
  | touchGetYTransformed (n : Nat)
  | touchGetY
  | gestureGetTime
  | gestureGetTimeUsec
  | gestureGetFingerCount
  | gestureGetCancelled
  | gestureGetDx
  | gestureGetDy
  | gestureGetDxUnaccelerated
  | gestureGetDyUnaccelerated
  | gestureGetScale
  | gestureGetAngleDelta
  | tabletToolXHasChanged
  | tabletToolYHasChanged
  | tabletToolPressureHasChanged
  | tabletToolDistanceHasChanged
  | tabletToolTiltXHasChanged
  | tabletToolTiltYHasChanged
  | tabletToolRotationHasChanged
  | tabletToolSliderHasChanged
  | tabletToolSizeMajorHasChanged
  | tabletToolSizeMinorHasChanged
  | tabletToolWheelHasChanged
  | tabletToolGetX
  | tabletToolGetY
  | tabletToolGetDx
  | tabletToolGetDy
  | tabletToolGetPressure
  | tabletToolGetDistance
  | tabletToolGetTiltX
  | tabletToolGetTiltY
  | tabletToolGetRotation
  | tabletToolGetSliderPosition
  | tabletToolGetSizeMajor
  | tabletToolGetSizeMinor
  | tabletToolGetWheelDelta
  | tabletToolGetWheelDeltaDiscrete
  | tabletToolGetXTransformed (n : Nat)
  | tabletToolGetYTransformed (n : Nat)
  | tabletToolGetTool
  | tabletToolGetProximityState
  | tabletToolGetTipState
  | tabletToolGetTime
  | tabletToolGetTimeUsec
  | tabletToolGetButton
  | tabletToolGetButtonState
  | tabletToolGetSeatButtonCount
  | switchGetBaseEvent
  | switchGetSwitch
  | switchGetSwitchState
  | switchGetTime
  | switchGetTimeUsec
  | deviceNotifyGetBaseEvent
  | keyboardGetBaseEvent
  | pointerGetBaseEvent
  | touchGetBaseEvent
  | gestureGetBaseEvent
  | tabletToolGetBaseEvent
  | tabletPadGetRingPosition
  | tabletPadGetRingNumber
  | tabletPadGetRingSource
  | tabletPadGetStripPosition
  | tabletPadGetStripNumber
  | tabletPadGetStripSource
  | tabletPadGetButtonNumber
  | tabletPadGetButtonState
  | tabletPadGetKey
  | tabletPadGetKeyState
  | tabletPadGetMode
  | tabletPadGetModeGroup
  | tabletPadGetTime
  | tabletPadGetTimeUsec
  | tabletPadGetBaseEvent
deriving DecidableEq, Repr

/-- Calls an accessor. `none`: memory outside of the event or a null pointer would be read, or the
program aborts. /repo/src/libinput.c:358-1553, /repo/src/libinput.c:1673-1724, /repo/src/libinput.c:3298-3555 -/
def access (e : Event) : Acc → Option Val
  | .getPointerEvent => getPointerEvent e
  | .getKeyboardEvent => getKeyboardEvent e
  | .getTouchEvent => getTouchEvent e
  | .getGestureEvent => getGestureEvent e
  | .getTabletToolEvent => getTabletToolEvent e
  | .getTabletPadEvent => getTabletPadEvent e
  | .getDeviceNotifyEvent => getDeviceNotifyEvent e
  | .getSwitchEvent => getSwitchEvent e
  | .keyboardGetTime => keyboardGetTime e
  | .keyboardGetTimeUsec => keyboardGetTimeUsec e
  | .keyboardGetKey => keyboardGetKey e
  | .keyboardGetKeyState => keyboardGetKeyState e
  | .keyboardGetSeatKeyCount => keyboardGetSeatKeyCount e
  | .pointerGetTime => pointerGetTime e
  | .pointerGetTimeUsec => pointerGetTimeUsec e
  | .pointerGetDx => pointerGetDx e
  | .pointerGetDy => pointerGetDy e
  | .pointerGetDxUnaccelerated => pointerGetDxUnaccelerated e
  | .pointerGetDyUnaccelerated => pointerGetDyUnaccelerated e
  | .pointerGetAbsoluteX => pointerGetAbsoluteX e
  | .pointerGetAbsoluteY => pointerGetAbsoluteY e
  | .pointerGetAbsoluteXTransformed n => pointerGetAbsoluteXTransformed n e
  | .pointerGetAbsoluteYTransformed n => pointerGetAbsoluteYTransformed n e
  | .pointerGetButton => pointerGetButton e
  | .pointerGetButtonState => pointerGetButtonState e
  | .pointerGetSeatButtonCount => pointerGetSeatButtonCount e
  | .pointerHasAxis n => pointerHasAxis n e
  | .pointerGetAxisValue n => pointerGetAxisValue n e
  | .pointerGetAxisValueDiscrete n => pointerGetAxisValueDiscrete n e
  | .pointerGetAxisSource => pointerGetAxisSource e
  | .touchGetTime => touchGetTime e
  | .touchGetTimeUsec => touchGetTimeUsec e
  | .touchGetSlot => touchGetSlot e
  | .touchGetSeatSlot => touchGetSeatSlot e
  | .touchGetX => touchGetX e
  | .touchGetXTransformed n => touchGetXTransformed n e
  | .touchGetYTransformed n => touchGetYTransformed n e
  | .touchGetY => touchGetY e
  | .gestureGetTime => gestureGetTime e
  | .gestureGetTimeUsec => gestureGetTimeUsec e
  | .gestureGetFingerCount => gestureGetFingerCount e
  | .gestureGetCancelled => gestureGetCancelled e
  | .gestureGetDx => gestureGetDx e
  | .gestureGetDy => gestureGetDy e
  | .gestureGetDxUnaccelerated => gestureGetDxUnaccelerated e
  | .gestureGetDyUnaccelerated => gestureGetDyUnaccelerated e
  | .gestureGetScale => gestureGetScale e
  | .gestureGetAngleDelta => gestureGetAngleDelta e
  | .tabletToolXHasChanged => tabletToolXHasChanged e
  | .tabletToolYHasChanged => tabletToolYHasChanged e
  | .tabletToolPressureHasChanged => tabletToolPressureHasChanged e
  | .tabletToolDistanceHasChanged => tabletToolDistanceHasChanged e
  | .tabletToolTiltXHasChanged => tabletToolTiltXHasChanged e
  | .tabletToolTiltYHasChanged => tabletToolTiltYHasChanged e
  | .tabletToolRotationHasChanged => tabletToolRotationHasChanged e
  | .tabletToolSliderHasChanged => tabletToolSliderHasChanged e
  | .tabletToolSizeMajorHasChanged => tabletToolSizeMajorHasChanged e
  | .tabletToolSizeMinorHasChanged => tabletToolSizeMinorHasChanged e
  | .tabletToolWheelHasChanged => tabletToolWheelHasChanged e
  | .tabletToolGetX => tabletToolGetX e
  | .tabletToolGetY => tabletToolGetY e
  | .tabletToolGetDx => tabletToolGetDx e
  | .tabletToolGetDy => tabletToolGetDy e
  | .tabletToolGetPressure => tabletToolGetPressure e
  | .tabletToolGetDistance => tabletToolGetDistance e
  | .tabletToolGetTiltX => tabletToolGetTiltX e
  | .tabletToolGetTiltY => tabletToolGetTiltY e
  | .tabletToolGetRotation => tabletToolGetRotation e
  | .tabletToolGetSliderPosition => tabletToolGetSliderPosition e
  | .tabletToolGetSizeMajor => tabletToolGetSizeMajor e
  | .tabletToolGetSizeMinor => tabletToolGetSizeMinor e
  | .tabletToolGetWheelDelta => tabletToolGetWheelDelta e
  | .tabletToolGetWheelDeltaDiscrete => tabletToolGetWheelDeltaDiscrete e
  | .tabletToolGetXTransformed n => tabletToolGetXTransformed n e
  | .tabletToolGetYTransformed n => tabletToolGetYTransformed n e
  | .tabletToolGetTool => tabletToolGetTool e
  | .tabletToolGetProximityState => tabletToolGetProximityState e
  | .tabletToolGetTipState => tabletToolGetTipState e
  | .tabletToolGetTime => tabletToolGetTime e
  | .tabletToolGetTimeUsec => tabletToolGetTimeUsec e
  | .tabletToolGetButton => tabletToolGetButton e
  | .tabletToolGetButtonState => tabletToolGetButtonState e
  | .tabletToolGetSeatButtonCount => tabletToolGetSeatButtonCount e
  | .switchGetBaseEvent => switchGetBaseEvent e
  | .switchGetSwitch => switchGetSwitch e
  | .switchGetSwitchState => switchGetSwitchState e
  | .switchGetTime => switchGetTime e
  | .switchGetTimeUsec => switchGetTimeUsec e
  | .deviceNotifyGetBaseEvent => deviceNotifyGetBaseEvent e
  | .keyboardGetBaseEvent => keyboardGetBaseEvent e
  | .pointerGetBaseEvent => pointerGetBaseEvent e
  | .touchGetBaseEvent => touchGetBaseEvent e
  | .gestureGetBaseEvent => gestureGetBaseEvent e
  | .tabletToolGetBaseEvent => tabletToolGetBaseEvent e
  | .tabletPadGetRingPosition => tabletPadGetRingPosition e
  | .tabletPadGetRingNumber => tabletPadGetRingNumber e
  | .tabletPadGetRingSource => tabletPadGetRingSource e
  | .tabletPadGetStripPosition => tabletPadGetStripPosition e
  | .tabletPadGetStripNumber => tabletPadGetStripNumber e
  | .tabletPadGetStripSource => tabletPadGetStripSource e
  | .tabletPadGetButtonNumber => tabletPadGetButtonNumber e
  | .tabletPadGetButtonState => tabletPadGetButtonState e
  | .tabletPadGetKey => tabletPadGetKey e
  | .tabletPadGetKeyState => tabletPadGetKeyState e
  | .tabletPadGetMode => tabletPadGetMode e
  | .tabletPadGetModeGroup => tabletPadGetModeGroup e
  | .tabletPadGetTime => tabletPadGetTime e
  | .tabletPadGetTimeUsec => tabletPadGetTimeUsec e
  | .tabletPadGetBaseEvent => tabletPadGetBaseEvent e

/-! ## Posting events -/

/-- The calls with which an event comes to be, with what they are given. `count` is what
`update_seat_key_count` and `update_seat_button_count` returned, `mode` the mode of the group at that
moment. Gestures begin with what `tp_gesture_start` gives. /repo/src/libinput.c:2246-2921,
/repo/src/evdev-mt-touchpad-gestures.c:107-139 -/
inductive Post where
  | added
  | removed
  | key (time key state count : Nat)
  | motion (time : Nat) (dx dy rawX rawY : Rat)
  | motionAbsolute (time : Nat) (x y : Int)
  | button (time button state count : Nat)
  | axis (time axes source : Nat) (dx dy : Rat) (discreteX discreteY : Int)
  | touchDown (time : Nat) (slot seatSlot x y : Int)
  | touchMotion (time : Nat) (slot seatSlot x y : Int)
  | touchUp (time : Nat) (slot seatSlot : Int)
  | touchCancel (time : Nat) (slot seatSlot : Int)
  | touchFrame (time : Nat)
  | toolAxis (time tool tip : Nat) (changed : ToolAxis → Bool) (axes : Axes)
  | toolProximity (time tool state : Nat) (changed : ToolAxis → Bool) (axes : Axes)
  | toolTip (time tool tip : Nat) (changed : ToolAxis → Bool) (axes : Axes)
  | toolButton (time tool tip : Nat) (axes : Axes) (button state count : Nat)
  | padButton (time button state group mode : Nat)
  | padRing (time number : Nat) (value : Rat) (source group mode : Nat)
  | padStrip (time number : Nat) (value : Rat) (source group mode : Nat)
  | padKey (time key state : Nat)
  | swipeBegin (time fingers : Nat)
  | swipe (time fingers : Nat) (dx dy unaccelX unaccelY : Rat)
  | swipeEnd (time fingers : Nat) (cancelled : Bool)
  | pinchBegin (time fingers : Nat)
  | pinch (time fingers : Nat) (dx dy unaccelX unaccelY scale angle : Rat)
  | pinchEnd (time fingers : Nat) (scale : Rat) (cancelled : Bool)
  | switch (time sw state : Nat)

/-- `gesture_notify`: the structure. /repo/src/libinput.c:2826-2836 -/
def gesture (time fingers : Nat) (cancelled : Bool) (dx dy unaccelX unaccelY scale angle : Rat) : Body :=
  .gesture { time := time, fingerCount := fingers, cancelled := if cancelled then 1 else 0, dx := dx, dy := dy, unaccelX := unaccelX, unaccelY := unaccelY, scale := scale, angle := angle }

/-- The type and the structure each of the functions posts. /repo/src/libinput.c:2246-2921 -/
def build : Post → Ty × Body
  -- /repo/src/libinput.c:2246-2262
  | .added => (.deviceAdded, .notify)
  -- /repo/src/libinput.c:2264-2280
  | .removed => (.deviceRemoved, .notify)
  -- /repo/src/libinput.c:2325-2351
  | .key t k s c => (.keyboardKey, .keyboard { time := t, key := k, state := s, seatKeyCount := c })
  -- /repo/src/libinput.c:2353-2375
  | .motion t dx dy rx ry => (.pointerMotion, .pointer { time := t, dx := dx, dy := dy, rawX := rx, rawY := ry })
  -- /repo/src/libinput.c:2377-2397
  | .motionAbsolute t x y => (.pointerMotionAbsolute, .pointer { time := t, absX := x, absY := y })
  -- /repo/src/libinput.c:2399-2427
  | .button t b s c => (.pointerButton, .pointer { time := t, button := b, state := s, seatButtonCount := c })
  -- /repo/src/libinput.c:2429-2455
  | .axis t axes source dx dy ex ey =>
    (.pointerAxis, .pointer { time := t, dx := dx, dy := dy, source := source, axes := axes, discreteX := ex, discreteY := ey })
  -- /repo/src/libinput.c:2457-2481
  | .touchDown t s ss x y => (.touchDown, .touch { time := t, slot := s, seatSlot := ss, x := x, y := y })
  -- /repo/src/libinput.c:2483-2507
  | .touchMotion t s ss x y => (.touchMotion, .touch { time := t, slot := s, seatSlot := ss, x := x, y := y })
  -- /repo/src/libinput.c:2509-2531
  | .touchUp t s ss => (.touchUp, .touch { time := t, slot := s, seatSlot := ss })
  -- /repo/src/libinput.c:2533-2555
  | .touchCancel t s ss => (.touchCancel, .touch { time := t, slot := s, seatSlot := ss })
  -- /repo/src/libinput.c:2557-2575
  | .touchFrame t => (.touchFrame, .touch { time := t })
  -- /repo/src/libinput.c:2577-2605
  | .toolAxis t tool tip changed axes =>
    (.tabletToolAxis, .tool { time := t, tool := tool, proximityState := 1, tipState := tip, axes := axes, changed := changed })
  -- /repo/src/libinput.c:2607-2634
  | .toolProximity t tool state changed axes =>
    (.tabletToolProximity, .tool { time := t, tool := tool, tipState := 0, proximityState := state, axes := axes, changed := changed })
  -- /repo/src/libinput.c:2636-2663
  | .toolTip t tool tip changed axes =>
    (.tabletToolTip, .tool { time := t, tool := tool, tipState := tip, proximityState := 1, axes := axes, changed := changed })
  -- /repo/src/libinput.c:2665-2698
  | .toolButton t tool tip axes b s c =>
    (.tabletToolButton, .tool { time := t, tool := tool, button := b, state := s, seatButtonCount := c, proximityState := 1, tipState := tip, axes := axes })
  -- /repo/src/libinput.c:2700-2726
  | .padButton t b s g m => (.tabletPadButton, .pad { time := t, buttonNumber := b, buttonState := s, modeGroup := some g, mode := m })
  -- /repo/src/libinput.c:2728-2756
  | .padRing t n v source g m =>
    (.tabletPadRing, .pad { time := t, ringNumber := n, ringPosition := v, ringSource := source, modeGroup := some g, mode := m })
  -- /repo/src/libinput.c:2758-2786
  | .padStrip t n v source g m =>
    (.tabletPadStrip, .pad { time := t, stripNumber := n, stripPosition := v, stripSource := source, modeGroup := some g, mode := m })
  -- /repo/src/libinput.c:2788-2808
  | .padKey t k s => (.tabletPadKey, .pad { time := t, keyCode := k, keyState := s })
  -- /repo/src/libinput.c:2842-2852
  | .swipeBegin t n => (.gestureSwipeBegin, gesture t n false 0 0 0 0 0 0)
  | .swipe t n dx dy ux uy => (.gestureSwipeUpdate, gesture t n false dx dy ux uy 0 0)
  -- /repo/src/libinput.c:2854-2864
  | .swipeEnd t n c => (.gestureSwipeEnd, gesture t n c 0 0 0 0 0 0)
  -- /repo/src/libinput.c:2866-2878
  | .pinchBegin t n => (.gesturePinchBegin, gesture t n false 0 0 0 0 1 0)
  | .pinch t n dx dy ux uy scale angle => (.gesturePinchUpdate, gesture t n false dx dy ux uy scale angle)
  -- /repo/src/libinput.c:2880-2891
  | .pinchEnd t n scale c => (.gesturePinchEnd, gesture t n c 0 0 0 0 scale 0)
  -- /repo/src/libinput.c:2893-2921
  | .switch t sw s => (.switchToggle, .switch { time := t, sw := sw, state := s })

/-- The capability each of the functions asks for with `device_has_cap` before it allocates anything; those
for tablets and for devices that come and go ask for none. /repo/src/libinput.c:2282-2921 -/
def capOf : Post → Option Cap
  | .added | .removed => none
  | .key .. => some .keyboard
  | .motion .. | .motionAbsolute .. | .button .. | .axis .. => some .pointer
  | .touchDown .. | .touchMotion .. | .touchUp .. | .touchCancel .. | .touchFrame .. => some .touch
  | .toolAxis .. | .toolProximity .. | .toolTip .. | .toolButton .. => none
  | .padButton .. | .padRing .. | .padStrip .. | .padKey .. => none
  | .swipeBegin .. | .swipe .. | .swipeEnd .. | .pinchBegin .. | .pinch .. | .pinchEnd .. => some .gesture
  | .switch .. => some .switch

/-- `device_has_cap` (what it logs is not modelled). /repo/src/libinput.c:2284-2323 -/
def deviceHasCap (d : Device) (c : Cap) : Bool := decide (c ∈ d.caps)

/-- A call of one of the functions: the event it posts, if any, with what `init_event_base` fills in.
/repo/src/libinput.c:2202-2209, /repo/src/libinput.c:2208-2244 -/
def post (d : Device) (p : Post) : Option Event :=
  match capOf p with
  | some c => if deviceHasCap d c then some ⟨(build p).1, d, (build p).2⟩ else none
  | none => some ⟨(build p).1, d, (build p).2⟩

/-! ## References -/

/-- The references posting takes: the tool (`libinput_tablet_tool_ref`), the mode group
(`libinput_tablet_pad_mode_group_ref`) and the device (`libinput_post_event`).
/repo/src/libinput.c:2577-2808, /repo/src/libinput.c:2923-2974 -/
def taken (d : Device) : Post → List Ref
  | .toolAxis _ tool .. | .toolProximity _ tool .. | .toolTip _ tool .. | .toolButton _ tool .. => [.tool tool, .device d.id]
  | .padButton _ _ _ g _ | .padRing _ _ _ _ g _ | .padStrip _ _ _ _ g _ => [.group g, .device d.id]
  | _ => [.device d.id]

/-- `libinput_event_tablet_tool_destroy`, on what `libinput_event_get_tablet_tool_event` gives.
/repo/src/libinput.c:1915-1919 -/
def toolDestroy (e : Event) : Option (List Ref) :=
  match getTabletToolEvent e with
  | some (.ptr (some .event)) => match e.body with | .tool f => some [.tool f.tool] | _ => none
  | _ => none

/-- `libinput_event_tablet_pad_destroy`, on what `libinput_event_get_tablet_pad_event` gives.
`libinput_tablet_pad_mode_group_unref` of a null pointer would read it.
/repo/src/libinput.c:1921-1926 -/
def padDestroy (e : Event) : Option (List Ref) :=
  match getTabletPadEvent e with
  | some (.ptr (some .event)) =>
    if e.type ≠ .tabletPadKey then
      match e.body with | .pad f => f.modeGroup.map fun g => [.group g] | _ => none
    else some []
  | _ => none

/-- `libinput_event_destroy`: the references it gives back. /repo/src/libinput.c:1928-1957 -/
def destroy (e : Event) : Option (List Ref) :=
  let first := match e.type with
    | .tabletToolProximity | .tabletToolAxis | .tabletToolTip | .tabletToolButton => toolDestroy e
    | .tabletPadRing | .tabletPadStrip | .tabletPadButton | .tabletPadKey => padDestroy e
    | _ => some []
  first.map fun r => r ++ [.device e.device.id]

end Libinput.Events
