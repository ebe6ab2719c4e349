/-
Model of evdev-totem.c: a dial that stands on the screen.

Simplifications.  Of `struct libinput_tablet_tool` only whether it exists; the tool of a slot is known by the number of the slot.  Movements (`dx`, `dy`) are those given to
the acceleration, which is the subject of `Verif.Accel`.  Sizes are rational numbers, `none` standing for what is not a number (division by zero).  What libevdev knows of the
slots is part of the state: it is updated by every event before libinput sees it.  Time and log messages are left out; allocations do not fail.
-/
namespace Libinput.Totem

/-- What libevdev knows of a slot. -/
structure Kern where
  tracking : Int := -1
  x : Int := 0
  y : Int := 0
  orient : Int := 0
  major : Int := 0
  minor : Int := 0
deriving DecidableEq, Repr

/-- The axes of the device: the resolutions of its sizes, its position axes, and its identity.  `group`: the device group, if it has one. -/
structure Device where
  resMajor : Nat := 0
  resMinor : Nat := 0
  minX : Int := 0
  resX : Int := 1
  minY : Int := 0
  resY : Int := 1
  vendor : Nat := 0
  product : Nat := 0
  group : Option Nat := none
deriving DecidableEq, Repr

/-- `enum totem_slot_state`.  Models: /repo/src/evdev-totem.c:27-32 -/
inductive St where
  | none | begin | update | ending
deriving DecidableEq, Repr

/-- The bits of `changed_axes` a totem uses. -/
structure Changed where
  x : Bool := false
  y : Bool := false
  rotation : Bool := false
  major : Bool := false
  minor : Bool := false
deriving DecidableEq, Repr

/-- The part of `struct tablet_axes` a totem uses. -/
structure Axes where
  x : Int := 0
  y : Int := 0
  rotation : Int := 0
  major : Option Rat := some 0
  minor : Option Rat := some 0
deriving DecidableEq, Repr

/-- `struct totem_slot`; `lastX`, `lastY`: `last_point`.  Models: /repo/src/evdev-totem.c:34-43 -/
structure Slot where
  state : St := .none
  tool : Bool := false
  axes : Axes := {}
  changed : Changed := {}
  lastX : Int := 0
  lastY : Int := 0
deriving DecidableEq, Repr

/-- `struct phys_rect`, in mm. -/
structure Rect where
  x : Int
  y : Int
  w : Int
  h : Int
deriving DecidableEq, Repr

/-- `enum evdev_arbitration_state`.  Models: /repo/src/evdev.h:156-160 -/
inductive Arb where
  | notActive | ignoreAll | ignoreRect
deriving DecidableEq, Repr

/-- A device that may be the touch screen below.  `toggle`, `update`: which of the two functions of touch arbitration its interface has. -/
structure Touch where
  id : Nat
  vendor : Nat
  product : Nat
  group : Option Nat
  toggle : Bool
  update : Bool
deriving DecidableEq, Repr

/-- What leaves the totem: events of the tool of slot `i` for the client, with its axes and movement, and calls of the touch device. -/
inductive Ev where
  | prox (i : Nat) (isIn : Bool) (changed : Changed) (a : Axes) (dx dy : Int)
  | tip (i : Nat) (down : Bool) (changed : Changed) (a : Axes) (dx dy : Int)
  | axis (i : Nat) (tip : Bool) (changed : Changed) (a : Axes) (dx dy : Int)
  | button (i : Nat) (tip : Bool) (a : Axes) (dx dy : Int) (pressed : Bool)
  | toggle (dev : Nat) (arb : Arb) (rect : Option Rect)
  | updateRect (dev : Nat) (rect : Option Rect)
deriving DecidableEq, Repr

/-- libevdev (`kern`, `cur`) and `struct totem_dispatch`.  Models: /repo/src/evdev-totem.c:45-60 -/
structure State where
  kern : List Kern
  cur : Nat
  slot : Nat
  slots : List Slot
  touch : Option Touch := none
  now : Bool := false
  prev : Bool := false
  arb : Arb := .notActive
  out : List Ev := []

/-- Kernel events: `EV_ABS`, `BTN_0` and other keys with their value, and the rest. -/
inductive KEv where
  | slot (v : Int)
  | tracking (v : Int)
  | x (v : Int)
  | y (v : Int)
  | orient (v : Int)
  | major (v : Int)
  | minor (v : Int)
  | toolType (v : Int)
  | otherAbs
  | btn0 (v : Int)
  | otherKey (v : Int)
  | misc
deriving DecidableEq, Repr

/-- libevdev: a slot beyond the last counts as the last. -/
def slotOf (n : Nat) (v : Int) : Nat := if v < 0 ∨ (n : Int) ≤ v then n - 1 else v.toNat

/-- libevdev takes note of an event: the current slot, and the values of the slots. -/
def libevdev (c : Nat × List Kern) (e : KEv) : Nat × List Kern :=
  match e with
  | .slot v => (slotOf c.2.length v, c.2)
  | .tracking v => (c.1, c.2.modify c.1 fun k => { k with tracking := v })
  | .x v => (c.1, c.2.modify c.1 fun k => { k with x := v })
  | .y v => (c.1, c.2.modify c.1 fun k => { k with y := v })
  | .orient v => (c.1, c.2.modify c.1 fun k => { k with orient := v })
  | .major v => (c.1, c.2.modify c.1 fun k => { k with major := v })
  | .minor v => (c.1, c.2.modify c.1 fun k => { k with minor := v })
  | _ => c

/-- `evdev_device_units_to_mm`: integers are divided.  Models: /repo/src/evdev.h:880-902 -/
def mm (min res v : Int) : Int := (v - min).tdiv res

/-- The rectangle of `totem_set_touch_device_enabled`, of the first slot that is not in state none.
Models: /repo/src/evdev-totem.c:124-141 -/
def rectOf (D : Device) (slots : List Slot) : Option Rect :=
  (slots.find? fun s => s.state ≠ .none).map fun s => ⟨mm D.minX D.resX s.axes.x - 30, mm D.minY D.resY s.axes.y - 30, 100, 100⟩

/-- `none` is the abort.  Models: /repo/src/evdev-totem.c:108-176 -/
def setTouch (D : Device) (s : State) (enable : Bool) : Option State :=
  match s.touch with
  | none => some s
  | some t =>
    let rect := if enable then none else rectOf D s.slots
    let state := if rect.isSome then Arb.ignoreRect else .notActive
    if enable then some { s with out := s.out ++ (if t.toggle then [.toggle t.id state rect] else []), arb := state }
    else
      match s.arb with
      | .ignoreAll => none
      | .notActive => some { s with out := s.out ++ (if t.toggle then [.toggle t.id state rect] else []), arb := state }
      | .ignoreRect => some { s with out := s.out ++ (if t.update then [.updateRect t.id rect] else []), arb := state }

/-- Models: /repo/src/evdev-totem.c:178-198 and /repo/src/evdev-totem.c:200-258 -/
def process (s : State) (e : KEv) : State :=
  match e with
  | .slot v => { s with slot := if v < 0 ∨ (s.slots.length : Int) ≤ v then s.slots.length - 1 else v.toNat }
  | .tracking v => { s with slots := s.slots.modify s.slot fun x =>
      if v ≥ 0 then { x with state := .begin } else if x.state ≠ .none then { x with state := .ending } else x }
  | .x _ => { s with slots := s.slots.modify s.slot fun x => { x with changed := { x.changed with x := true } } }
  | .y _ => { s with slots := s.slots.modify s.slot fun x => { x with changed := { x.changed with y := true } } }
  | .major _ => { s with slots := s.slots.modify s.slot fun x => { x with changed := { x.changed with major := true } } }
  | .minor _ => { s with slots := s.slots.modify s.slot fun x => { x with changed := { x.changed with minor := true } } }
  | .orient _ => { s with slots := s.slots.modify s.slot fun x => { x with changed := { x.changed with rotation := true } } }
  | .toolType _ => s
  | .otherAbs => s
  | .btn0 v => if v = 2 then s else { s with now := decide (v ≠ 0) }
  | .otherKey _ => s
  | .misc => s

/-- `(double)major/rmajor`. -/
def size (v : Int) (res : Nat) : Option Rat := if res = 0 then none else some ((v : Rat) / (res : Rat))

/-- The new axes, the movement, and whether there was a change.  Models: /repo/src/evdev-totem.c:260-329 -/
def fetch (D : Device) (k : Kern) (x : Slot) : Slot × Int × Int × Bool :=
  if x.changed = {} then (x, 0, 0, false)
  else
    let a := x.axes
    let a := if x.changed.x || x.changed.y then { a with x := k.x, y := k.y } else a
    let a := if x.changed.rotation then { a with rotation := (360 - k.orient).tmod 360 } else a
    let a := if x.changed.major || x.changed.minor then { a with major := size k.major D.resMajor, minor := size k.minor D.resMinor } else a
    ({ x with axes := a }, a.x - x.lastX, a.y - x.lastY, true)

/-- `totem_slot_mark_all_axes_changed`: the axes of /repo/src/evdev-totem.c:76-106.  Models: /repo/src/evdev-totem.c:331-343 -/
def allChanged : Changed := ⟨true, true, true, true, true⟩

/-- Models: /repo/src/evdev-totem.c:352-366 -/
def initAxes (k : Kern) (x : Slot) : Slot := { x with axes := { x.axes with x := k.x, y := k.y }, lastX := k.x, lastY := k.y }

/-- The first switch of `totem_handle_slot_state`; `none` is the failed assertion.
Models: /repo/src/evdev-totem.c:378-391 -/
def prepare (k : Kern) (x : Slot) : Option Slot :=
  match x.state with
  | .begin => some { initAxes k { x with tool := true } with changed := allChanged }
  | .update => if x.tool then some x else none
  | .ending => if x.tool then some x else none
  | .none => some x

/-- The second switch.  Models: /repo/src/evdev-totem.c:396-430 -/
def middle (i : Nat) (x : Slot) (dx dy : Int) (updated : Bool) : Slot × Bool × List Ev :=
  match x.state with
  | .begin => ({ x with state := .update, changed := {} }, true, [.prox i true x.changed x.axes dx dy, .tip i true {} x.axes dx dy])
  | .update => (x, true, if updated then [.axis i true x.changed x.axes dx dy] else [])
  | .ending => (x, false, [])
  | .none => (x, false, [])

/-- The last switch, and what follows it.  Models: /repo/src/evdev-totem.c:460-489 -/
def finish (i : Nat) (x : Slot) (dx dy : Int) : Slot × List Ev :=
  let (x, evs) := match x.state with
    | .ending => ({ x with state := .none, changed := ({} : Changed) }, [Ev.tip i false x.changed x.axes dx dy, .prox i false {} x.axes dx dy])
    | _ => (x, [])
  ({ x with lastX := x.axes.x, lastY := x.axes.y, changed := {} }, evs)

/-- The slot, the last button state and the events; `none` is a failed assertion.  Models: /repo/src/evdev-totem.c:368-490 -/
def handleSlot (D : Device) (now : Bool) (i : Nat) (k : Kern) (x : Slot) (prev : Bool) : Option (Slot × Bool × List Ev) :=
  match prepare k x with
  | none => none
  | some x =>
    if x.state = .none then some (x, prev, [])
    else
      let (x, dx, dy, updated) := fetch D k x
      let (x, tip, evs1) := middle i x dx dy updated
      let evs2 := if now ≠ prev then [Ev.button i tip x.axes dx dy now] else []
      let (x, evs3) := finish i x dx dy
      some (x, now, evs1 ++ evs2 ++ evs3)

/-- The loop of `totem_handle_state`.  Models: /repo/src/evdev-totem.c:492-511 -/
def handleAll (D : Device) (now : Bool) (i : Nat) : List Kern → List Slot → Bool → Option (List Slot × Bool × List Ev)
  | k :: ks, x :: xs, prev =>
    match handleSlot D now i k x prev with
    | none => none
    | some (x, prev, evs) =>
      match handleAll D now (i + 1) ks xs prev with
      | none => none
      | some (xs, prev, evs') => some (x :: xs, prev, evs ++ evs')
  | _, xs, prev => some (xs, prev, [])

/-- `EV_SYN`.  Models: /repo/src/evdev-totem.c:513-547 and /repo/src/evdev-totem.c:492-511 -/
def sync (D : Device) (s : State) : Option State :=
  match handleAll D s.now 0 s.kern s.slots s.prev with
  | none => none
  | some (slots, prev, evs) => setTouch D { s with slots := slots, prev := prev, out := s.out ++ evs } (slots.all fun x => x.state = .none)

/-- The body of the loop of `totem_interface_suspend`.  Models: /repo/src/evdev-totem.c:561-601 -/
def suspendSlot (D : Device) (i : Nat) (k : Kern) (x : Slot) (now : Bool) : Slot × List Ev :=
  if x.tool = false then (x, [])
  else
    let (x, dx, dy, _) := fetch D k x
    let x := { x with changed := {} }
    (x, (if now then [Ev.button i (decide (x.state ≠ .none)) x.axes dx dy false] else []) ++
      (if x.state ≠ .none then [.tip i false x.changed x.axes dx dy] else []) ++ [.prox i false x.changed x.axes dx dy])

/-- The loop.  `now` and `prev` are reset by the first slot that has a tool. -/
def suspendAll (D : Device) (i : Nat) : List Kern → List Slot → Bool → Bool → List Slot × Bool × Bool × List Ev
  | k :: ks, x :: xs, now, prev =>
    let (y, evs) := suspendSlot D i k x now
    let (ys, now', prev', evs') := suspendAll D (i + 1) ks xs (now && !x.tool) (prev && !(now && x.tool))
    (y :: ys, now', prev', evs ++ evs')
  | _, xs, now, prev => (xs, now, prev, [])

/-- Models: /repo/src/evdev-totem.c:549-602 -/
def suspend (D : Device) (s : State) : Option State :=
  let (slots, now, prev, evs) := suspendAll D 0 s.kern s.slots s.now s.prev
  setTouch D { s with slots := slots, now := now, prev := prev, out := s.out ++ evs } true

/-- `evdev_device_resume`: libevdev gets to know the state of the device, libinput does not.  Models: /repo/src/evdev.c:2791-2855 -/
def resume (s : State) (cur : Nat) (kern : List Kern) : State := { s with cur := cur, kern := kern }

/-- Models: /repo/src/evdev-totem.c:613-642 -/
def deviceAdded (D : Device) (s : State) (t : Touch) : State :=
  if t.vendor ≠ D.vendor ∨ t.product ≠ D.product then s
  else if D.group.isSome ∧ t.group.isSome ∧ D.group ≠ t.group then s
  else if s.touch.isSome then s
  else { s with touch := some t }

/-- Models: /repo/src/evdev-totem.c:644-656 -/
def deviceRemoved (D : Device) (s : State) (id : Nat) : Option State :=
  if s.touch.map Touch.id ≠ some id then some s
  else (setTouch D s true).map fun s => { s with touch := none }

/-- The body of the loop of `totem_interface_initial_proximity`.  Models: /repo/src/evdev-totem.c:658-699 -/
def initialSlot (D : Device) (i : Nat) (k : Kern) (x : Slot) : Slot × List Ev :=
  if k.tracking = -1 then (x, [])
  else
    let x := { initAxes k { x with tool := true } with changed := allChanged }
    let (x, dx, dy, _) := fetch D k x
    ({ x with changed := {}, state := .update }, [.prox i true x.changed x.axes dx dy, .tip i true {} x.axes dx dy])

def initialAll (D : Device) (i : Nat) : List Kern → List Slot × List Ev
  | [] => ([], [])
  | k :: ks =>
    let (x, evs) := initialSlot D i k {}
    let (xs, evs') := initialAll D (i + 1) ks
    (x :: xs, evs ++ evs')

/-- A new device, given what libevdev knows of its slots and the devices there are.
Models: /repo/src/evdev-totem.c:799-835, /repo/src/evdev.c:1962-1991 and /repo/src/evdev-totem.c:658-699 -/
def start (D : Device) (cur : Nat) (kern : List Kern) (others : List Touch) : Option State :=
  let s : State := { kern := kern, cur := cur, slot := cur, slots := kern.map fun _ => {} }
  let s := others.foldl (deviceAdded D) s
  let (slots, evs) := initialAll D 0 kern
  setTouch D { s with slots := slots, out := evs } (kern.all fun k => k.tracking = -1)

/-- What libevdev says about a device that may be a totem. -/
structure Caps where
  hasXY : Bool
  hasSlot : Bool
  hasDial : Bool
  hasSize : Bool
  resMajor : Nat
  resMinor : Nat

/-- Models: /repo/src/evdev-totem.c:716-745 -/
def reject (c : Caps) : Bool := !(c.hasXY && c.hasSlot && c.hasDial && c.hasSize && (decide (c.resMajor > 0) || decide (c.resMinor > 0)))

inductive Op where
  | kernel (e : KEv)
  | sync
  | suspend
  | resume (cur : Nat) (kern : List Kern)
  | deviceAdded (t : Touch)
  | deviceRemoved (id : Nat)
deriving DecidableEq, Repr

/-- One step; `none` is a crash.  Suspending and resuming a touch device is adding and removing it.
Models: /repo/src/evdev-totem.c:513-547 and /repo/src/evdev-totem.c:701-714 -/
def step (D : Device) (s : State) : Op → Option State
  | .kernel e =>
    let (cur, kern) := libevdev (s.cur, s.kern) e
    some (process { s with cur := cur, kern := kern } e)
  | .sync => sync D s
  | .suspend => suspend D s
  | .resume cur kern => some (resume s cur kern)
  | .deviceAdded t => some (deviceAdded D s t)
  | .deviceRemoved id => deviceRemoved D s id

def run (D : Device) (s : State) : List Op → Option State
  | [] => some s
  | op :: ops => (step D s op).bind fun s => run D s ops

end Libinput.Totem
