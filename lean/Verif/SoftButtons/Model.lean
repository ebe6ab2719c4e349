/-
Model of the software buttons of a clickpad (evdev-mt-touchpad-buttons.c): the areas, the state machine of every
touch, which button a physical click becomes, and where its press and release are sent.
Simplified: the touchpad is a clickpad (`tp->buttons.is_clickpad`) with only `BTN_LEFT`; the edges of the areas are
given numbers (the code computes them from the size in mm with floating point); the touches come from the rest of the
touchpad code as a list of views, one per touch, as they are when `tp_button_handle_state` runs.
-/
namespace Libinput.SoftButtons

/-- `INT_MAX`, `INT_MIN`. -/
def INT_MAX : Int := 2147483647
def INT_MIN : Int := -2147483648

/-- Button codes (linux/input-event-codes.h). -/
def BTN_LEFT : Nat := 0x110
def BTN_RIGHT : Nat := 0x111
def BTN_MIDDLE : Nat := 0x112

/-- `struct device_coords`. -/
abbrev Pt := Int × Int

/-- The area events of `enum button_event`.  Models: /repo/src/evdev-mt-touchpad.h:81-93. -/
inductive Zone where
  | bottomR | bottomM | bottomL | topR | topM | topL | area
deriving DecidableEq, Repr

/-- `enum button_event`.  Models: /repo/src/evdev-mt-touchpad.h:81-93. -/
inductive Event where
  | inZone (z : Zone) | up | press | release | timeout
deriving DecidableEq, Repr

/-- `enum button_state`.  Models: /repo/src/evdev-mt-touchpad.h:95-103. -/
inductive BState where
  | none | area | bottom | top | topNew | topToIgnore | ignore
deriving DecidableEq, Repr

/-- `enum touch_state`.  Models: /repo/src/evdev-mt-touchpad.h:47-54. -/
inductive TState where
  | none | hovering | begin | update | maybeEnd | end_
deriving DecidableEq, Repr

/-- What the rest of the touchpad code says about a touch in a frame.  `thumb`: `tp_thumb_ignored`; `palm`:
`palm.state != PALM_NONE`.  Models: /repo/src/evdev-mt-touchpad.h:181-187. -/
structure View where
  ts : TState
  dirty : Bool
  pt : Pt
  thumb : Bool := false
  palm : Bool := false
deriving DecidableEq, Repr

/-- The `button` part of `struct tp_touch`; `current == 0` is `none`; `timer`: when it expires, if set.
Models: /repo/src/evdev-mt-touchpad.h:232-241. -/
structure Touch where
  bs : BState := .none
  cur : Option Zone := none
  initial : Pt := (0, 0)
  initTime : Nat := 0
  moved : Bool := false
  timer : Option Nat := none
deriving DecidableEq, Repr

/-- `enum libinput_config_click_method`. -/
inductive Method where
  | areas | clickfinger | none
deriving DecidableEq, Repr

/-- What the size of the touchpad gives.  `top`: top edge of the bottom buttons; `half`: their middle; `midL`, `midR`:
edges of the middle button; `upper`, `upperBig`: lower edge of the top buttons, normal and enlarged; `upL`, `upR`:
their inner edges; `xres`, `yres`: units per mm; `ymax`, `height`: greatest y, `abs.dimensions.y`;
`far`: two points are more than 5 mm apart (floating point, any predicate here).
Models: /repo/src/evdev-mt-touchpad-buttons.c:641-699, /repo/src/evdev-mt-touchpad-buttons.c:701-731. -/
structure Geo where
  top : Int
  half : Int
  midL : Int
  midR : Int
  upper : Int
  upperBig : Int
  upL : Int
  upR : Int
  xres : Int
  yres : Int
  ymax : Int
  height : Int
  far : Pt → Pt → Bool

/-- The edges in use: `bottom_area` and `top_area`.
Models: /repo/src/evdev-mt-touchpad.h:376-390. -/
structure Edges where
  top : Int
  right : Int
  mid : Int
  upper : Int
  upL : Int
  upR : Int
deriving DecidableEq, Repr

/-- The `buttons` part of `struct tp_dispatch`, with what it needs of the device.  `emul`, `emulWant`:
`middlebutton.enabled`, `.want_enabled`; `left`, `leftWant`: `left_handed.enabled`, `.want_enabled`; `down`, `old`:
`buttons.state`, `.old_state` (only bit 0 occurs on a clickpad); `qPress`, `qRelease`: bits of `queued`; `trackpoint`:
one is paired; `suspended`: `device->is_suspended`.  Models: /repo/src/evdev-mt-touchpad.h:362-396. -/
structure Pad where
  geo : Geo
  hasTop : Bool
  edges : Edges
  method : Method
  emul : Bool
  emulWant : Bool
  left : Bool
  leftWant : Bool
  down : Bool
  old : Bool
  qPress : Bool
  qRelease : Bool
  pending : Bool
  active : Nat
  activeTop : Bool
  trackpoint : Bool
  suspended : Bool
  touches : List Touch

/-- Who gets a button event. -/
inductive Dest where
  | touchpad | trackpoint
deriving DecidableEq, Repr

/-- A button event sent by `tp_notify_clickpadbutton`. -/
structure Note where
  time : Nat
  dest : Dest
  code : Nat
  pressed : Bool
deriving DecidableEq, Repr

/-- `is_inside_bottom_button_area`.  Models: /repo/src/evdev-mt-touchpad-buttons.c:80-85. -/
def inBottom (e : Edges) (p : Pt) : Bool := decide (p.2 ≥ e.top)

/-- `is_inside_bottom_right_area`.  Models: /repo/src/evdev-mt-touchpad-buttons.c:87-93. -/
def inBottomR (e : Edges) (p : Pt) : Bool := inBottom e p && decide (p.1 > e.right)

/-- `is_inside_bottom_middle_area`.  Models: /repo/src/evdev-mt-touchpad-buttons.c:95-102. -/
def inBottomM (e : Edges) (p : Pt) : Bool := inBottom e p && !inBottomR e p && decide (p.1 > e.mid)

/-- `is_inside_top_button_area`.  Models: /repo/src/evdev-mt-touchpad-buttons.c:113-118. -/
def inTop (e : Edges) (p : Pt) : Bool := decide (p.2 ≤ e.upper)

/-- `is_inside_top_right_area`.  Models: /repo/src/evdev-mt-touchpad-buttons.c:120-126. -/
def inTopR (e : Edges) (p : Pt) : Bool := inTop e p && decide (p.1 > e.upR)

/-- `is_inside_top_middle_area`.  Models: /repo/src/evdev-mt-touchpad-buttons.c:136-143. -/
def inTopM (e : Edges) (p : Pt) : Bool := inTop e p && decide (p.1 ≥ e.upL) && decide (p.1 ≤ e.upR)

/-- `DEFAULT_BUTTON_ENTER_TIMEOUT`, `DEFAULT_BUTTON_LEAVE_TIMEOUT` in µs.
Models: /repo/src/evdev-mt-touchpad-buttons.c:34-35. -/
def enterTimeout : Nat := 100000
def leaveTimeout : Nat := 300000

/-- `tp_button_set_state`; `z` is the event if it is an area event (only those are stored).
Models: /repo/src/evdev-mt-touchpad-buttons.c:167-201. -/
def setState (t : Touch) (bs : BState) (z : Option Zone) (time : Nat) : Touch :=
  let t := { t with bs := bs, timer := none }
  match bs with
  | .none => { t with cur := none }
  | .area => { t with cur := some .area }
  | .bottom => { t with cur := z }
  | .top => t
  | .topNew => { t with cur := z, timer := some (time + enterTimeout) }
  | .topToIgnore => { t with timer := some (time + leaveTimeout) }
  | .ignore => { t with cur := none }

/-- Which part of the touchpad an area event belongs to: the case groups of the handlers. -/
inductive Part where
  | bottom | top | main
deriving DecidableEq, Repr

/-- The case groups `IN_BOTTOM_*`, `IN_TOP_*`, `IN_AREA` of the handlers. -/
def Zone.part : Zone → Part
  | .bottomR | .bottomM | .bottomL => .bottom
  | .topR | .topM | .topL => .top
  | .area => .main

/-- `tp_button_none_handle_event`.  Models: /repo/src/evdev-mt-touchpad-buttons.c:203-231. -/
def noneEvent (t : Touch) (ev : Event) (time : Nat) : Touch :=
  match ev with
  | .inZone z =>
    match z.part with
    | .bottom => setState t .bottom (some z) time
    | .top => setState t .topNew (some z) time
    | .main => setState t .area (some z) time
  | .up => setState t .none none time
  | .press | .release | .timeout => t

/-- `tp_button_area_handle_event`.  Models: /repo/src/evdev-mt-touchpad-buttons.c:233-256. -/
def areaEvent (t : Touch) (ev : Event) (time : Nat) : Touch :=
  match ev with
  | .inZone _ => t
  | .up => setState t .none none time
  | .press | .release | .timeout => t

/-- `tp_button_bottom_handle_event` for the touch itself; the flag says that the other touches are released.
Models: /repo/src/evdev-mt-touchpad-buttons.c:288-327. -/
def bottomEvent (t : Touch) (ev : Event) (time : Nat) : Touch × Bool :=
  match ev with
  | .inZone z =>
    match z.part with
    | .bottom => (if some z ≠ t.cur then setState t .bottom (some z) time else t, false)
    | .top | .main => (setState t .area (some z) time, true)
  | .up => (setState t .none none time, false)
  | .press | .release | .timeout => (t, false)

/-- `tp_button_top_handle_event`.  Models: /repo/src/evdev-mt-touchpad-buttons.c:329-362. -/
def topEvent (t : Touch) (ev : Event) (time : Nat) : Touch :=
  match ev with
  | .inZone z =>
    match z.part with
    | .bottom | .main => setState t .topToIgnore (some z) time
    | .top => if some z ≠ t.cur then setState t .topNew (some z) time else t
  | .up => setState t .none none time
  | .press | .release | .timeout => t

/-- `tp_button_top_new_handle_event`.  Models: /repo/src/evdev-mt-touchpad-buttons.c:364-401. -/
def topNewEvent (t : Touch) (ev : Event) (time : Nat) : Touch :=
  match ev with
  | .inZone z =>
    match z.part with
    | .bottom | .main => setState t .area (some z) time
    | .top => if some z ≠ t.cur then setState t .topNew (some z) time else t
  | .up => setState t .none none time
  | .press => setState t .top none time
  | .release => t
  | .timeout => setState t .top none time

/-- `tp_button_top_to_ignore_handle_event`.
Models: /repo/src/evdev-mt-touchpad-buttons.c:403-441. -/
def topToIgnoreEvent (t : Touch) (ev : Event) (time : Nat) : Touch :=
  match ev with
  | .inZone z =>
    match z.part with
    | .top => if some z = t.cur then setState t .top (some z) time else setState t .topNew (some z) time
    | .bottom | .main => t
  | .up => setState t .none none time
  | .press | .release => t
  | .timeout => setState t .ignore none time

/-- `tp_button_ignore_handle_event`.  Models: /repo/src/evdev-mt-touchpad-buttons.c:443-469. -/
def ignoreEvent (t : Touch) (ev : Event) (time : Nat) : Touch :=
  match ev with
  | .inZone _ => t
  | .up => setState t .none none time
  | .press => { t with cur := some .area }
  | .release | .timeout => t

/-- `tp_button_handle_event` for the touch itself; the flag says that the other touches are released.
Models: /repo/src/evdev-mt-touchpad-buttons.c:471-510. -/
def handleEvent (t : Touch) (ev : Event) (time : Nat) : Touch × Bool :=
  match t.bs with
  | .none => (noneEvent t ev time, false)
  | .area => (areaEvent t ev time, false)
  | .bottom => bottomEvent t ev time
  | .top => (topEvent t ev time, false)
  | .topNew => (topNewEvent t ev time, false)
  | .topToIgnore => (topToIgnoreEvent t ev time, false)
  | .ignore => (ignoreEvent t ev time, false)

/-- One round of `tp_button_release_other_bottom_touches`.
Models: /repo/src/evdev-mt-touchpad-buttons.c:263-286. -/
def releaseOther (start : Nat) (t : Touch) : Touch :=
  if t.bs ≠ .bottom ∨ t.moved then t
  else
    let d := if start > t.initTime then start - t.initTime else t.initTime - start
    if d > 80000 then t else { t with moved := true }

/-- The area event for a point, as chosen in `tp_button_handle_state`.
Models: /repo/src/evdev-mt-touchpad-buttons.c:568-587. -/
def zoneOf (e : Edges) (p : Pt) : Zone :=
  if inBottom e p then
    if inBottomR e p then .bottomR else if inBottomM e p then .bottomM else .bottomL
  else if inTop e p then
    if inTopR e p then .topR else if inTopM e p then .topM else .topL
  else .area

/-- `tp_button_check_for_movement` for the touch itself; the flag says that the other touches are released.
Models: /repo/src/evdev-mt-touchpad-buttons.c:512-546. -/
def checkMovement (g : Geo) (t : Touch) (p : Pt) : Touch × Bool :=
  if t.moved then (t, false)
  else if t.bs = .bottom ∧ g.far p t.initial then ({ t with moved := true }, true) else (t, false)

/-- The part of `tp_button_handle_state` up to the button events for one touch; the flags say that the other touches
are released, first because of movement, then because the touch left the bottom buttons.
Models: /repo/src/evdev-mt-touchpad-buttons.c:557-590. -/
def moveOne (g : Geo) (e : Edges) (v : View) (time : Nat) (t : Touch) : Touch × Bool :=
  let t := if v.ts = .begin then { t with initial := v.pt, initTime := time, moved := false } else t
  if v.ts = .end_ then handleEvent t .up time
  else if v.dirty then
    let (t, r1) := if inBottom e v.pt then checkMovement g t v.pt else (t, false)
    let (t, r2) := handleEvent t (.inZone (zoneOf e v.pt)) time
    (t, r1 || r2)
  else (t, false)

/-- One round of the loop of `tp_button_handle_state` for the touch itself.
Models: /repo/src/evdev-mt-touchpad-buttons.c:548-597. -/
def handleOne (g : Geo) (e : Edges) (qp qr : Bool) (v : View) (time : Nat) (t : Touch) : Touch × Bool :=
  if v.ts = .none ∨ v.ts = .hovering then (t, false)
  else
    let (t, r) := moveOne g e v time t
    let t := if qr then (handleEvent t .release time).1 else t
    let t := if qp then (handleEvent t .press time).1 else t
    (t, r)

/-- The loop of `tp_button_handle_state`, touch `i` first: `done` are the touches before it, in reverse.  A touch that
releases the others marks those before and after it (itself it has marked or left the bottom buttons).
Simplified: when a touch both moved and left, the others are marked once instead of twice.
Models: /repo/src/evdev-mt-touchpad-buttons.c:548-597. -/
def handleLoop (g : Geo) (e : Edges) (qp qr : Bool) (time : Nat) :
    List Touch → List View → List Touch → List Touch
  | done, v :: vs, t :: ts =>
    let (t', r) := handleOne g e qp qr v time t
    if r then
      handleLoop g e qp qr time (t' :: done.map (releaseOther t'.initTime)) vs
        (ts.map (releaseOther t'.initTime))
    else handleLoop g e qp qr time (t' :: done) vs ts
  | done, _, ts => done.reverse ++ ts

/-- `tp_button_handle_state`.  Models: /repo/src/evdev-mt-touchpad-buttons.c:548-597. -/
def handleState (s : Pad) (time : Nat) (vs : List View) : Pad :=
  { s with touches := handleLoop s.geo s.edges s.qPress s.qRelease time [] vs s.touches }

/-- `tp_process_button` for `BTN_LEFT`.  Models: /repo/src/evdev-mt-touchpad-buttons.c:607-629. -/
def processButton (s : Pad) (value : Bool) : Pad :=
  if value then { s with down := true, qPress := true } else { s with down := false, qRelease := true }

/-- `tp_release_all_buttons`.  Models: /repo/src/evdev-mt-touchpad-buttons.c:631-639. -/
def releaseAll (s : Pad) : Pad :=
  if s.down then { s with down := false, qRelease := true } else s

/-- `tp_init_softbuttons`.  Models: /repo/src/evdev-mt-touchpad-buttons.c:641-699. -/
def initSoftbuttons (s : Pad) : Pad :=
  if s.emulWant then
    { s with edges := { s.edges with top := s.geo.top, right := s.geo.half, mid := INT_MAX } }
  else { s with edges := { s.edges with top := s.geo.top, right := s.geo.midR, mid := s.geo.midL } }

/-- `tp_init_top_softbuttons`; `big`: with multiplier 3.0.
Models: /repo/src/evdev-mt-touchpad-buttons.c:701-731. -/
def initTop (s : Pad) (big : Bool) : Pad :=
  if s.hasTop then
    { s with edges := { s.edges with
        upper := if big then s.geo.upperBig else s.geo.upper, upL := s.geo.upL, upR := s.geo.upR } }
  else { s with edges := { s.edges with upper := INT_MIN } }

/-- `tp_switch_click_method`.  Models: /repo/src/evdev-mt-touchpad-buttons.c:752-775. -/
def switchMethod (s : Pad) : Pad :=
  match s.method with
  | .areas => initSoftbuttons s
  | .clickfinger | .none => { s with edges := { s.edges with top := INT_MAX } }

/-- `tp_button_config_click_set_method`.
Models: /repo/src/evdev-mt-touchpad-buttons.c:777-788. -/
def setMethod (s : Pad) (m : Method) : Pad := switchMethod { s with method := m }

/-- `tp_clickpad_middlebutton_apply_config`.
Models: /repo/src/evdev-mt-touchpad-buttons.c:830-847. -/
def applyMiddle (s : Pad) : Pad :=
  if s.down then s
  else if s.emulWant = s.emul then s
  else
    let s := { s with emul := s.emulWant }
    if s.method = .areas then initSoftbuttons s else s

/-- `tp_clickpad_middlebutton_set`.  Models: /repo/src/evdev-mt-touchpad-buttons.c:855-875. -/
def setMiddle (s : Pad) (b : Bool) : Pad := applyMiddle { s with emulWant := b }

/-- `tp_change_to_left_handed`.  Models: /repo/src/evdev-mt-touchpad.c:3773-3789. -/
def applyLeft (s : Pad) : Pad :=
  if s.leftWant = s.left then s else if s.down then s else { s with left := s.leftWant }

/-- `evdev_to_left_handed`.  Models: /repo/src/evdev.h:654-665. -/
def toLeft (s : Pad) (b : Nat) : Nat :=
  if s.left then
    if b = BTN_LEFT then BTN_RIGHT else if b = BTN_RIGHT then BTN_LEFT else b
  else b

/-- `tp_clickfinger_within_distance` for two touches that are not ignored thumbs.  The code divides by the resolution
in floating point and compares with 40, 30 and 20; with `int` values that is the comparison of the products.
Models: /repo/src/evdev-mt-touchpad-buttons.c:1067-1120. -/
def together (g : Geo) (a b : Pt) : Bool :=
  let x := (a.1 - b.1).natAbs
  let y := (a.2 - b.2).natAbs
  if (x : Int) > 40 * g.xres ∨ (y : Int) > 30 * g.yres then false
  else if (y : Int) ≤ 20 * g.yres then true
  else if Int.tdiv g.height g.yres < 50 then true
  else
    let low := g.ymax - 20 * g.yres
    decide (a.2 > low) == decide (b.2 > low)

/-- `tp_clickfinger_set_button`; 0 is no button.
Models: /repo/src/evdev-mt-touchpad-buttons.c:1122-1171. -/
def clickfinger (g : Geo) (vs : List View) : Nat :=
  let fs := vs.filter fun v => (v.ts == .begin || v.ts == .update) && !v.thumb && !v.palm
  let n := match fs with
    | [a, b] => if together g a.pt b.pt then 2 else 1
    | fs => fs.length
  match n with
  | 0 | 1 => BTN_LEFT
  | 2 => BTN_RIGHT
  | 3 => BTN_MIDDLE
  | _ => 0

/-- `tp_notify_clickpadbutton`; stopping edge scrolling is left out.
Models: /repo/src/evdev-mt-touchpad-buttons.c:1173-1224. -/
def notify (s : Pad) (time : Nat) (vs : List View) (button : Nat) (isTop pressed : Bool) : Pad × List Note :=
  if s.trackpoint ∧ isTop then (s, [⟨time, .trackpoint, button, pressed⟩])
  else if s.trackpoint ∧ s.suspended then (s, [])
  else if s.method = .clickfinger ∧ pressed then
    let button := clickfinger s.geo vs
    let s := { s with active := button }
    if button = 0 then (s, []) else (s, [⟨time, .touchpad, button, pressed⟩])
  else (s, [⟨time, .touchpad, button, pressed⟩])

/-- `area` has one of the bits `LEFT` (`MIDDLE`, `RIGHT`) for this touch.
Models: /repo/src/evdev-mt-touchpad-buttons.c:1246-1268. -/
def isL (z : Option Zone) : Bool := z == some .topL || z == some .bottomL
def isM (z : Option Zone) : Bool := z == some .topM || z == some .bottomM
def isR (z : Option Zone) : Bool := z == some .topR || z == some .bottomR
def isT (z : Option Zone) : Bool := z == some .topL || z == some .topM || z == some .topR

/-- The choice of the button in `tp_post_clickpadbutton_buttons`.
Models: /repo/src/evdev-mt-touchpad-buttons.c:1280-1300. -/
def choose (s : Pad) : Nat :=
  let zs := s.touches.map Touch.cur
  let top := zs.any isT
  if (s.emul || top) && zs.any isL && zs.any isR then (if top then BTN_MIDDLE else toLeft s BTN_MIDDLE)
  else if zs.any isM then (if top then BTN_MIDDLE else toLeft s BTN_MIDDLE)
  else if zs.any isR then (if top then BTN_RIGHT else toLeft s BTN_RIGHT)
  else if zs.any isL then (if top then BTN_LEFT else toLeft s BTN_LEFT)
  else BTN_LEFT

/-- `tp_post_clickpadbutton_buttons`.
Models: /repo/src/evdev-mt-touchpad-buttons.c:1226-1320. -/
def postButtons (s : Pad) (time : Nat) (vs : List View) : Pad × List Note :=
  if !s.pending && s.down == s.old then (s, [])
  else if s.down then
    let zs := s.touches.map Touch.cur
    if !zs.any Option.isSome && s.method != .clickfinger then ({ s with pending := true }, [])
    else
      let button := choose s
      let top := zs.any isT
      let s := { s with active := button, activeTop := top, pending := false }
      if button ≠ 0 then notify s time vs button top true else (s, [])
  else
    let button := s.active
    let top := s.activeTop
    let s := { s with active := 0, activeTop := false, pending := false }
    if button ≠ 0 then notify s time vs button top false else (s, [])

/-- The button part of `tp_post_process_state`.  Models: /repo/src/evdev-mt-touchpad.c:1822-1853. -/
def postProcess (s : Pad) : Pad := { s with old := s.down, qPress := false, qRelease := false }

/-- The button part of `tp_handle_state`.  Models: /repo/src/evdev-mt-touchpad.c:1901-1912. -/
def handleFrame (s : Pad) (time : Nat) (vs : List View) : Pad × List Note :=
  let s := handleState s time vs
  let (s, ns) := postButtons s time vs
  (applyMiddle (postProcess s), ns)

/-- The button part of `tp_clear_state`; `vs` are the touches after `tp_end_sequence`.
Models: /repo/src/evdev-mt-touchpad.c:2027-2057. -/
def clearState (s : Pad) (time : Nat) (vs : List View) : Pad × List Note :=
  handleFrame (releaseAll s) time vs

/-- What can happen.  `button`: the kernel reports the physical button; `frame`: the end of a frame, with the touches;
`timeout`: the timer of a touch fires; `suspend`, `resume`: `tp_suspend` for the first reason, `tp_resume` for the
last one, with the touches as they are after `tp_end_sequence`; `applyLeft`: some button release of the touchpad was
reported, so the left-handed setting is applied. -/
inductive Op where
  | button (value : Bool)
  | frame (time : Nat) (vs : List View)
  | timeout (time : Nat) (i : Nat)
  | setMethod (m : Method)
  | setMiddle (b : Bool)
  | setLeft (b : Bool)
  | applyLeft
  | suspend (time : Nat) (vs : List View)
  | resume (time : Nat) (vs : List View)
  | addTrackpoint
  | removeTrackpoint

/-- A touchpad without top buttons is really suspended: its device is closed, nothing is read from it.
Models: /repo/src/evdev.c:2764-2789. -/
def Pad.closed (s : Pad) : Bool := s.suspended && !s.hasTop

/-- One operation.  `timeout`: /repo/src/evdev-mt-touchpad-buttons.c:599-605, only if the timer is set and
due (timer.c); `suspend`, `resume`: /repo/src/evdev-mt-touchpad.c:2059-2086, /repo/src/evdev-mt-touchpad.c:2153-2173, with
`evdev_device_suspend` clearing the state a second time; `addTrackpoint`: /repo/src/evdev-mt-touchpad.c:2392-2417
for a trackpoint it pairs with; `removeTrackpoint`: /repo/src/evdev-mt-touchpad.c:2617-2626. -/
def step (s : Pad) : Op → Pad × List Note
  | .button v => if s.closed then (s, []) else (processButton s v, [])
  | .frame t vs => if s.closed then (s, []) else handleFrame s t vs
  | .timeout now i =>
    match s.touches[i]? with
    | none => (s, [])
    | some t =>
      match t.timer with
      | none => (s, [])
      | some e =>
        if e ≤ now then
          ({ s with touches := s.touches.set i (handleEvent { t with timer := none } .timeout now).1 }, [])
        else (s, [])
  | .setMethod m => (setMethod s m, [])
  | .setMiddle b => (setMiddle s b, [])
  | .setLeft b => (applyLeft { s with leftWant := b }, [])
  | .applyLeft => (applyLeft s, [])
  | .suspend t vs =>
    if s.suspended then (s, [])
    else
      let (s, ns) := clearState s t vs
      if s.hasTop then (initTop { s with suspended := true } true, ns)
      else
        let (s, ms) := clearState s t (vs.map fun v => { v with ts := .none, dirty := false })
        ({ s with suspended := true }, ns ++ ms)
  | .resume t vs =>
    if !s.suspended then (s, [])
    else if s.hasTop then
      let (s, ns) := clearState s t vs
      ({ initTop s false with suspended := false }, ns)
    else ({ s with suspended := false }, [])
  | .addTrackpoint =>
    if s.trackpoint then (s, []) else ({ s with activeTop := false, trackpoint := true }, [])
  | .removeTrackpoint =>
    if !s.trackpoint then (s, [])
    else if s.active ≠ 0 ∧ s.activeTop then ({ s with active := 0, activeTop := false, trackpoint := false }, [])
    else ({ s with trackpoint := false }, [])

/-- A history: the state at its end, and the button events of every operation. -/
def run (s : Pad) : List Op → Pad × List (List Note)
  | [] => (s, [])
  | op :: ops =>
    let (s1, ns) := step s op
    let (s2, nss) := run s1 ops
    (s2, ns :: nss)

/-- A new clickpad with `n` touches, after `tp_init_buttons` (`tp_init_middlebutton_emulation` does not enable the
emulation by default).  Models: /repo/src/evdev-mt-touchpad-buttons.c:970-1019. -/
def init (g : Geo) (hasTop : Bool) (m : Method) (n : Nat) : Pad :=
  initTop (switchMethod
    { geo := g, hasTop := hasTop, edges := ⟨0, 0, 0, 0, 0, 0⟩, method := m, emul := false, emulWant := false,
      left := false, leftWant := false, down := false, old := false, qPress := false, qRelease := false,
      pending := false, active := 0, activeTop := false, trackpoint := false, suspended := false,
      touches := List.replicate n {} }) false

end Libinput.SoftButtons
