/-
How the motion of a finger on a touchpad becomes the motion of its touch: the motion history, jumps, jitter, rotation, pinning.

The states of the touches (whether a touch is there, hovers, is down) and the number of fingers come from Verif/Touch and are inputs
of a frame here; so are thumbs and palms, which are Verif/Motion's.  The touches are those of slots the kernel has: others never
move the pointer.  `len` stands for `hypot` and `hyst` for `evdev_hysteresis` with its margins, which are parameters.
-/
namespace Libinput.Follow

/-- `struct device_coords`. -/
structure Pt where
  x : Int := 0
  y : Int := 0
deriving DecidableEq, Repr

/-- `struct tp_history_point`.  Models: /repo/src/evdev-mt-touchpad.h:206-209. -/
structure Sample where
  time : Nat := 0
  point : Pt := {}
deriving DecidableEq, Repr

/-- `TOUCHPAD_HISTORY_LENGTH`. -/
def LEN : Nat := 4

/-- `enum touch_state`, without `TOUCH_MAYBE_END`, which no touch is in when the state is processed. -/
inductive St where
  | none | hovering | begin | update | end_
deriving DecidableEq, Repr

/-- What `struct tp_touch` has of this.  `again` is `quirks.reset_motion_history`, `lastMm` is `jumps.last_delta_mm`, `xmoves` is
`hysteresis.x_motion_history`, `speed` and `fast` are `speed.last_speed` and `speed.exceeded_count`. -/
structure Touch where
  st : St := .none
  dirty : Bool := false
  point : Pt := {}
  samples : Nat → Sample := fun _ => {}
  index : Nat := 0
  count : Nat := 0
  again : Bool := false
  lastMm : Rat := 0
  center : Pt := {}
  xmoves : Nat := 0
  pinned : Bool := false
  pinCenter : Pt := {}
  speed : Rat := 0
  fast : Nat := 0

/-- What does not change.  `rx`, `ry` are the resolutions in units per mm.  `jumpsOff` is `jump.detection_disabled`, `wacom`,
`test`, `alps` and `t450` are model flags, `multi` says that it has slots and is not semi-mt. -/
structure Config where
  rx : Nat := 1
  ry : Nat := 1
  xmin : Int := 0
  xmax : Int := 0
  ymin : Int := 0
  ymax : Int := 0
  jumpsOff : Bool := false
  wacom : Bool := false
  test : Bool := false
  alps : Bool := false
  t450 : Bool := false
  multi : Bool := true
  clickpad : Bool := false
  hyst : Pt → Pt → Pt
  len : Rat → Rat → Rat

/-- The states of `struct msc_timestamp`.  Models: /repo/src/evdev-mt-touchpad.h:175-179. -/
inductive Msc where
  | ignore | expectFirst | expectDelay
deriving DecidableEq, Repr

/-- `struct tp_dispatch` without its touches.  `jitter` is `hysteresis.enabled`, `lastMotion` is `hysteresis.last_motion_time`,
`fingers` is `old_nfingers_down`, `idle` is `quirks.nonmotion_event_count`. -/
structure Pad where
  jitter : Bool := false
  lastMotion : Nat := 0
  fingers : Nat := 0
  idle : Nat := 0
  rotate : Bool := false
  wantRotate : Bool := false
  msc : Msc := .ignore
  interval : Nat := 0
deriving DecidableEq, Repr

/-- Where the sample that many before the last is: in C the difference of the `unsigned int` index and the offset wraps modulo
`2 ^ 32`.  Models: /repo/src/evdev-mt-touchpad.c:50-58. -/
def Touch.pos (t : Touch) (offset : Nat) : Nat := (t.index + 2 ^ 32 - offset + LEN) % 2 ^ 32 % LEN

/-- `tp_motion_history_offset`.  Models: /repo/src/evdev-mt-touchpad.c:50-58. -/
def Touch.past (t : Touch) (offset : Nat) : Sample := t.samples (t.pos offset)

/-- `tp_motion_history_push`.  Models: /repo/src/evdev-mt-touchpad.c:140-151. -/
def push (t : Touch) (time : Nat) : Touch :=
  let i := (t.index + 1) % LEN
  { t with count := if t.count < LEN then t.count + 1 else t.count
           samples := fun k => if k = i then { time := time, point := t.point } else t.samples k
           index := i }

/-- `tp_motion_history_reset`.  Models: /repo/src/evdev-mt-touchpad.c:227-231. -/
def reset (t : Touch) : Touch := { t with count := 0 }

/-- `tp_get_delta`.  Models: /repo/src/evdev-mt-touchpad.c:459-474. -/
def delta (t : Touch) : Pt :=
  if t.count ≤ 1 then {}
  else { x := (t.past 0).point.x - (t.past 1).point.x, y := (t.past 0).point.y - (t.past 1).point.y }

/-- The length of a difference in mm, `hypot` of `evdev_device_unit_delta_to_mm`.  Models: /repo/src/evdev.h:852-874. -/
def Config.mm (c : Config) (a b : Pt) : Rat := c.len (((a.x - b.x).natAbs : Rat) / c.rx) (((a.y - b.y).natAbs : Rat) / c.ry)

/-- `rotated`.  Models: /repo/src/evdev-mt-touchpad.c:476-497. -/
def rotated (p : Pad) (min max v : Int) : Int := if p.rotate then max - (v - min) else v

/-- What a frame has for a touch: the position events of its slot, whether other things changed, whether the touch is new
(`tp_new_touch`), whether its history is forgotten because it came down by its pressure or size, and its state. -/
structure View where
  x : Option Int := none
  y : Option Int := none
  other : Bool := false
  fresh : Bool := false
  landed : Bool := false
  st : St := .none
deriving DecidableEq, Repr

/-- Where a touch is after its position events.  Models: /repo/src/evdev-mt-touchpad.c:500-523. -/
def seen (c : Config) (p : Pad) (q : Pt) (v : View) : Pt :=
  { x := match v.x with
         | some x => rotated p c.xmin c.xmax x
         | none => q.x
    y := match v.y with
         | some y => rotated p c.ymin c.ymax y
         | none => q.y }

/-- The events of the touch, in `tp_process_absolute` and `tp_new_touch`; that a touch begins or ends makes it dirty too.
Models: /repo/src/evdev-mt-touchpad.c:499-557, /repo/src/evdev-mt-touchpad.c:313-347. -/
def arrive (c : Config) (p : Pad) (t : Touch) (v : View) : Touch :=
  let t := if v.fresh then { reset t with speed := 0, fast := 0, xmoves := 0, pinned := false } else t
  { t with point := seen c p t.point v
           dirty := v.x.isSome || v.y.isSome || v.other || v.fresh || v.st == .begin || v.st == .end_ }

/-- `tp_motion_history_fix_last`; a touch that does not begin or end in this frame is in `TOUCH_UPDATE` already.
Models: /repo/src/evdev-mt-touchpad.c:1579-1602. -/
def fixLast (t : Touch) (jumping normal time : Nat) : Nat → Touch
  | 0 => t
  | n + 1 =>
    let t := fixLast t jumping normal time n
    { t with samples := fun k => if k = t.pos n then
        { t.samples k with time := time - jumping - normal * n } else t.samples k }

/-- A frame: its time, the number of fingers that are down, the value of `MSC_TIMESTAMP` if there is one, whether the button was
just pressed, and the touches. -/
structure Frame where
  time : Nat
  fingers : Nat
  stamp : Option Nat := none
  press : Bool := false
  views : List View
deriving DecidableEq, Repr

/-- `tp_process_msc_timestamp`: the state, and the interval to go back by if a jump was seen.
Models: /repo/src/evdev-mt-touchpad.c:1604-1684. -/
def mscStep (p : Pad) (now : Nat) : Pad × Option Nat :=
  if now = 0 then ({ p with msc := .expectFirst, interval := 0 }, none)
  else
    match p.msc with
    | .expectFirst =>
      if now > 20000 then ({ p with msc := .ignore }, none)
      else ({ p with msc := .expectDelay, interval := now }, none)
    | .expectDelay =>
      if now > p.interval * 2 then ({ p with msc := .ignore }, some (now - p.interval))
      else (p, none)
    | .ignore => (p, none)

/-- What is queued: `TOUCHPAD_EVENT_MOTION`. -/
def Frame.motion (f : Frame) : Bool := f.views.any (fun v => v.x.isSome || v.y.isSome || v.fresh || v.st == .end_)
/-- `TOUCHPAD_EVENT_OTHERAXIS`. -/
def Frame.others (f : Frame) : Bool := f.views.any (fun v => v.other)

/-- `tp_need_motion_history_reset`: whether, whether `TOUCHPAD_EVENT_MOTION` is still queued, and the count.
Models: /repo/src/evdev-mt-touchpad.c:1452-1484. -/
def needReset (c : Config) (p : Pad) (f : Frame) : Bool × Bool × Nat :=
  if f.fingers ≠ p.fingers then (true, f.motion, p.idle)
  else if c.t450 then
    let r := if f.motion then (decide (p.idle > 10), !decide (p.idle > 10), 0) else (false, false, p.idle)
    (r.1, r.2.1, if f.others && !r.2.1 then r.2.2 + 1 else r.2.2)
  else (false, f.motion, p.idle)

/-- `tp_detect_jumps`.  A time before that of the last sample (whose difference wraps and counts as irregular) is taken for a
difference of 0, which does the same.  Models: /repo/src/evdev-mt-touchpad.c:1486-1568. -/
def jumps (c : Config) (t : Touch) (time : Nat) : Touch × Bool :=
  if c.jumpsOff then (t, false)
  else if c.wacom then (t, false)
  else if t.count = 0 then ({ t with lastMm := 0 }, false)
  else
    let last := t.past 0
    let tdelta := time - last.time
    let ref := if c.test then tdelta else 12000
    if 2 * tdelta > 5 * ref ∨ tdelta = 0 then (t, false)
    else
      let dist := c.mm t.point last.point * ref / tdelta
      let rel := dist - t.lastMm
      if c.alps = true ∧ t.point = { x := 4095, y := 0 } then ({ t with point := last.point }, true)
      else ({ t with lastMm := dist }, decide (dist > 20 ∨ rel > 7))

/-- `tp_detect_wobbling`.  Models: /repo/src/evdev-mt-touchpad.c:164-209. -/
def wobbling (p : Pad) (t : Touch) (fingers : Nat) (motion : Bool) (time : Nat) : Pad × Touch :=
  if fingers ≠ 1 ∨ fingers ≠ p.fingers then (p, t)
  else if p.jitter = true ∨ t.count = 0 then (p, t)
  else if motion = false then (p, { t with xmoves := 0 })
  else
    let dx := (t.past 0).point.x - t.point.x
    let dy := (t.past 0).point.y - t.point.y
    let dtime := time - p.lastMotion
    let p := { p with lastMotion := time }
    if (dx = 0 ∧ dy ≠ 0) ∨ dtime > 40000 then (p, { t with xmoves := 0 })
    else
      let h := t.xmoves / 2
      if dx > 0 then ({ p with jitter := p.jitter || (h % 4 + 4 == 5) }, { t with xmoves := h % 4 + 4 })
      else (p, { t with xmoves := h })

/-- `tp_motion_hysteresis`.  Models: /repo/src/evdev-mt-touchpad.c:211-225. -/
def steady (c : Config) (p : Pad) (t : Touch) : Touch :=
  if p.jitter = false then t
  else
    let q := if t.count > 0 then c.hyst t.point t.center else t.point
    { t with point := q, center := q }

/-- The count of fast events.  Models: /repo/src/evdev-mt-touchpad.c:1778-1783. -/
def countFast (t : Touch) : Touch :=
  { t with fast := if t.speed > 20 then (if t.fast < 15 then t.fast + 1 else t.fast) else t.fast - 1 }

/-- `tp_calculate_motion_speed`; a touch in `TOUCH_UPDATE` only.  Two samples of the same time (a division by zero in C, infinite)
are not looked at.  Models: /repo/src/evdev-mt-touchpad.c:96-138. -/
def calcSpeed (c : Config) (t : Touch) (time : Nat) : Touch :=
  if c.multi = false then t
  else if t.st ≠ .update then t
  else if t.count < 4 then t
  else { t with speed := c.mm t.point (t.past 1).point / ((time - (t.past 1).time : Nat) : Rat) * 1000000 }

/-- `tp_unpin_finger`.  Models: /repo/src/evdev-mt-touchpad.c:782-801. -/
def unpin (c : Config) (t : Touch) : Touch :=
  if t.pinned = false then t
  else if c.mm t.point t.pinCenter ≥ 3 / 2 then { t with pinned := false }
  else t

/-- The times are fixed of touches that were in `TOUCH_UPDATE` and still are.  (Those of a touch that ends because of its pressure
are fixed too in C; nothing depends on them any more.)  Models: /repo/src/evdev-mt-touchpad.c:1660-1668. -/
def fixTouch (f : Frame) (fix : Option (Nat × Nat)) (t : Touch) (v : View) : Touch :=
  match fix with
  | some jn => if t.st = .update ∧ v.st ≠ .end_ then fixLast t jn.1 jn.2 f.time t.count else t
  | none => t

/-- What becomes of a touch before the state is processed: its events, the
fixed times, its beginning, and its end, when it is where it was before.
Models: /repo/src/evdev-mt-touchpad.c:1686-1708, /repo/src/evdev-mt-touchpad.c:349-364. -/
def before (c : Config) (p : Pad) (f : Frame) (fix : Option (Nat × Nat)) (t : Touch) (v : View) : Touch :=
  let t := arrive c p t v
  let t := fixTouch f fix t v
  let t := { t with st := v.st }
  let t := if v.landed then reset t else t
  let t := if v.st = .begin then { t with fast := 0 } else t
  let t := if v.st = .end_ then { t with fast := 0, pinned := false } else t
  if v.st = .end_ ∧ t.count > 0 then { t with point := (t.past 0).point } else t

/-- What the loop of `tp_process_state` does with a touch; thumbs and palms are left out.
Models: /repo/src/evdev-mt-touchpad.c:1722-1796. -/
def process (c : Config) (f : Frame) (want motion : Bool) (p : Pad) (t : Touch) : Pad × Touch :=
  if t.st = .none then (p, t)
  else
    let t := if want then { reset t with again := true }
             else if t.again then { reset t with again := false }
             else t
    if t.dirty = false then (p, push { t with fast := t.fast - 1 } f.time)
    else
      let j := jumps c t f.time
      let t := if j.2 then reset j.1 else j.1
      let w := wobbling p t f.fingers motion f.time
      let t := push (steady c w.1 w.2) f.time
      (w.1, unpin c (calcSpeed c (countFast t) f.time))

/-- The loop. -/
def processAll (c : Config) (f : Frame) (want motion : Bool) : Pad → List Touch → Pad × List Touch
  | p, [] => (p, [])
  | p, t :: ts =>
    let r := process c f want motion p t
    let q := processAll c f want motion r.1 ts
    (q.1, r.2 :: q.2)

/-- `tp_pin_fingers`.  Models: /repo/src/evdev-mt-touchpad.c:803-812. -/
def pin (t : Touch) : Touch := { t with pinned := true, pinCenter := t.point }

/-- What a touch adds to the motion of the pointer, if it is active otherwise.
Models: /repo/src/evdev-mt-touchpad-gestures.c:48-80, /repo/src/evdev-mt-touchpad.c:825-834. -/
def moves (t : Touch) : Pt :=
  if (t.st = .begin ∨ t.st = .update) ∧ t.pinned = false ∧ t.dirty = true then delta t else {}

/-- What happens to touches after a frame: they are not dirty, and what began goes on.  A touch that ended is hovering or not there,
which the next frame says.  Models: /repo/src/evdev-mt-touchpad.c:1823-1853. -/
def after (t : Touch) : Touch :=
  { t with st := if t.st = .begin then .update else t.st, dirty := false }

/-- `tp_apply_rotation`.  Models: /repo/src/evdev-mt-touchpad.c:1883-1899. -/
def applyRotation (p : Pad) : Pad :=
  if p.wantRotate = p.rotate then p
  else if p.fingers ≠ 0 then p
  else { p with rotate := p.wantRotate }

/-- The state of a touchpad. -/
structure State where
  pad : Pad := {}
  touches : List Touch

/-- The timestamp of a frame, if it has one.  Models: /repo/src/evdev-mt-touchpad.c:1686-1692. -/
def mscFrame (p : Pad) (f : Frame) : Pad × Option Nat :=
  match f.stamp with
  | some now => mscStep p now
  | none => (p, none)

/-- Whether a touch begins, and the acceleration filter is restarted.  Models: /repo/src/evdev-mt-touchpad.c:1790-1803. -/
def Frame.begins (f : Frame) : Bool := f.views.any (fun v => v.st == .begin)

/-- What a frame does: the new state, how much each touch moves the pointer, and the times at which the acceleration filter is
restarted.  Models: /repo/src/evdev-mt-touchpad.c:1901-1912, /repo/src/evdev-mt-touchpad.c:1710-1821. -/
def frame (c : Config) (s : State) (f : Frame) : State × List Pt × List Nat :=
  let m := mscFrame s.pad f
  let ts := (s.touches.zip f.views).map (fun tv => before c m.1 f (m.2.map (fun j => (j, m.1.interval))) tv.1 tv.2)
  let p := { m.1 with lastMotion := if f.begins then f.time else m.1.lastMotion }
  let w := needReset c p f
  let r := processAll c f w.1 w.2.1 { p with idle := w.2.2 } ts
  let ts := if f.press && c.clickpad then r.2.map pin else r.2
  ({ pad := applyRotation { r.1 with fingers := f.fingers }, touches := ts.map after }, ts.map moves,
   (match m.2 with
    | some j => [f.time - j]
    | none => []) ++ (if f.begins then [f.time] else []))

/-- A frame, or the left-handed setting (the touchpad's or its tablet's) changing: `tp_change_rotation` of a touchpad that is to be
rotated.  Models: /repo/src/evdev-mt-touchpad.c:2533-2558. -/
inductive Op where
  | frame (f : Frame)
  | left (on : Bool)
deriving DecidableEq, Repr

def step (c : Config) (s : State) : Op → State × List Pt
  | .frame f => ((frame c s f).1, (frame c s f).2.1)
  | .left on => ({ s with pad := applyRotation { s.pad with wantRotate := on } }, [])

/-- The state after a history, and what each frame moved. -/
def run (c : Config) : State → List Op → State × List (List Pt)
  | s, [] => (s, [])
  | s, op :: ops =>
    let r := step c s op
    let q := run c r.1 ops
    (q.1, r.2 :: q.2)

/-- A touchpad with `n` slots. -/
def init (n : Nat) : State := { touches := List.replicate n {} }

end Libinput.Follow
