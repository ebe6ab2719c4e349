/-
Model of the touch part of the fallback dispatch: touchscreen slots, the seat's slot map, palm and
arbitration handling, touch frames (evdev-fallback.c).
Simplified: only devices with the touch capability are modelled; timestamps are left out; points are
reported in device coordinates (`evdev_transform_absolute` is applied to them afterwards).
-/
namespace Libinput.TouchSlots

/-- `struct device_coords`. -/
abbrev Pt := Int × Int

/-- `struct device_coord_rect`. -/
structure Rect where
  x : Int
  y : Int
  w : Int
  h : Int
deriving DecidableEq, Repr

/-- `point_in_rect`.  Models: /repo/src/libinput-private.h:852-860. -/
def Rect.has (r : Rect) (p : Pt) : Bool :=
  decide (p.1 ≥ r.x) && decide (p.1 < r.x + r.w) && decide (p.2 ≥ r.y) && decide (p.2 < r.y + r.h)

/-- `enum mt_slot_state`.  Models: /repo/src/evdev-fallback.h:48-53. -/
inductive SlotState where
  | none | begin | update | «end»
deriving DecidableEq, Repr

/-- `enum palm_state`.  Models: /repo/src/evdev-fallback.h:55-60. -/
inductive Palm where
  | none | new | isPalm | wasPalm
deriving DecidableEq, Repr

/-- `struct mt_slot`; a seat slot of -1 is `none`.  Models: /repo/src/evdev-fallback.h:62-69. -/
structure Slot where
  dirty : Bool
  state : SlotState
  seat : Option Nat
  point : Pt
  center : Pt
  palm : Palm
deriving DecidableEq, Repr

/-- `enum evdev_arbitration_state`.  Models: /repo/src/evdev.h:156-160. -/
inductive Arb where
  | notActive | ignoreRect | ignoreAll
deriving DecidableEq, Repr

/-- The touch part of `struct fallback_dispatch`.  `isMt`: `device->is_mt`; `hyst`: the hysteresis filter if it is
wanted, a function of the hysteresis centre and the new point (any function here); `pDown`, `pUp`, `pMotion`, `pMt`:
the bits of `pending_event`; `armed`: the arbitration timer is set.  Models: /repo/src/evdev-fallback.h:71-161. -/
structure Dev where
  isMt : Bool
  slots : List Slot
  cur : Nat
  hasPalm : Bool
  hyst : Option (Pt → Pt → Pt)
  point : Pt
  seat : Option Nat
  pDown : Bool
  pUp : Bool
  pMotion : Bool
  pMt : Bool
  arb : Arb
  inArb : Bool
  armed : Bool
  rect : Rect

/-- A touch: the device and its slot, `none` for a single-touch device. -/
abbrev Key := Nat × Option Nat

/-- Touch events as the caller sees them. -/
inductive Ev where
  | down (k : Key) (seat : Nat) (p : Pt)
  | motion (k : Key) (seat : Nat) (p : Pt)
  | up (k : Key) (seat : Nat)
  | cancel (k : Key) (seat : Nat)
  | frame (dev : Nat)
deriving DecidableEq, Repr

/-- `seat->slot_map`, a `uint32_t`. -/
abbrev Map := BitVec 32

/-- `ffs(~seat->slot_map) - 1`. -/
def firstFree (m : Map) : Option Nat := (List.range 32).find? fun i => !m.getLsbD i

/-- `slot_map |= bit(i)`. -/
def setBit (m : Map) (i : Nat) : Map := m ||| (1#32 <<< i)

/-- `slot_map &= ~bit(i)`. -/
def clearBit (m : Map) (i : Nat) : Map := m &&& ~~~(1#32 <<< i)

/-- The common part of `fallback_flush_mt_down` and `fallback_flush_st_down`: take the lowest free seat slot.
Models: /repo/src/evdev-fallback.c:297-334, /repo/src/evdev-fallback.c:423-456. -/
def down (m : Map) (seat : Option Nat) (k : Key) (p : Pt) : Map × Option Nat × List Ev :=
  match seat with
  | some _ => (m, seat, [])
  | none =>
    match firstFree m with
    | none => (m, none, [])
    | some i => (setBit m i, some i, [.down k i p])

/-- The common part of the `_up` and `_cancel` functions: give the seat slot back.
Models: /repo/src/evdev-fallback.c:367-393, /repo/src/evdev-fallback.c:395-421,
/repo/src/evdev-fallback.c:480-503, /repo/src/evdev-fallback.c:505-528. -/
def finish (m : Map) (seat : Option Nat) (ev : Nat → Ev) : Map × Option Nat × List Ev :=
  match seat with
  | none => (m, none, [])
  | some i => (clearBit m i, none, [ev i])

/-- `fallback_filter_defuzz_touch`: the slot and whether the motion is discarded.
Models: /repo/src/evdev-fallback.c:135-157. -/
def defuzz (d : Dev) (s : Slot) : Slot × Bool :=
  match d.hyst with
  | none => (s, false)
  | some f =>
    let p := f s.center s.point
    let s := { s with point := p }
    if p = s.center then (s, true) else ({ s with center := p }, false)

/-- `fallback_flush_mt_motion`: the event has the point from before the filter.
Models: /repo/src/evdev-fallback.c:336-365. -/
def motion (d : Dev) (s : Slot) (k : Key) : Slot × List Ev :=
  match s.seat with
  | none => (s, [])
  | some i =>
    let r := defuzz d s
    if r.2 then (r.1, []) else (r.1, [.motion k i s.point])

/-- `fallback_arbitrate_touch`.  Models: /repo/src/evdev-fallback.c:886-899. -/
def arbitrate (d : Dev) (s : Slot) : Bool := d.arb == .ignoreRect && d.rect.has s.point

/-- The state machine's step at the end of a frame.
Models: /repo/src/evdev-fallback.c:955-973. -/
def nextState : SlotState → SlotState
  | .begin => .update
  | .update => .update
  | .end => .none
  | .none => .none

/-- One slot in `fallback_flush_mt_events`: the new map, the slot, the events and the variable `sent`.
Models: the loop body in /repo/src/evdev-fallback.c:901-974. -/
def flushSlot (d : Dev) (m : Map) (k : Key) (s : Slot) (sent : Bool) : Map × Slot × List Ev × Bool :=
  if !s.dirty then (m, s, [], sent)
  else
    let s := { s with dirty := false }
    let r : Map × Slot × List Ev × Bool :=
      match s.palm with
      | .new =>
        if s.state = .begin then (m, { s with palm := .isPalm }, [], sent)
        else
          let r := finish m s.seat (.cancel k)
          (r.1, { s with seat := r.2.1, palm := .isPalm }, r.2.2, !r.2.2.isEmpty)
      | .none =>
        match s.state with
        | .begin =>
          if arbitrate d s then (m, { s with palm := .isPalm }, [], sent)
          else
            let r := down m s.seat k s.point
            (r.1, { s with seat := r.2.1, center := if r.2.2.isEmpty then s.center else s.point }, r.2.2,
             !r.2.2.isEmpty)
        | .update =>
          let r := motion d s k
          (m, r.1, r.2, !r.2.isEmpty)
        | .end =>
          let r := finish m s.seat (.up k)
          (r.1, { s with seat := r.2.1 }, r.2.2, !r.2.2.isEmpty)
        | .none => (m, s, [], sent)
      | _ => (m, s, [], sent)
    (r.1, { r.2.1 with state := nextState r.2.1.state }, r.2.2)

/-- `fallback_flush_mt_events`, the slots from number `i` on.
Models: /repo/src/evdev-fallback.c:901-974. -/
def flushSlots (d : Dev) (dev : Nat) : Map → Nat → List Slot → Bool → Map × List Slot × List Ev × Bool
  | m, _, [], sent => (m, [], [], sent)
  | m, i, s :: ss, sent =>
    let r := flushSlot d m (dev, some i) s sent
    let r' := flushSlots d dev r.1 (i + 1) ss r.2.2.2
    (r'.1, r.2.1 :: r'.2.1, r.2.2.1 ++ r'.2.2.1, r'.2.2.2)

/-- The single-touch part of `fallback_handle_state`: new map, seat slot, events.
Models: /repo/src/evdev-fallback.c:987-1009. -/
def flushSt (d : Dev) (m : Map) (dev : Nat) : Map × Option Nat × List Ev :=
  let r : Map × Option Nat × List Ev :=
    if d.pDown then down m d.seat (dev, none) d.point
    else if d.pMotion then
      match d.seat with
      | none => (m, none, [])
      | some i => (m, some i, [.motion (dev, none) i d.point])
    else (m, d.seat, [])
  if d.pUp then
    let r' := finish r.1 r.2.1 (.up (dev, none))
    (r'.1, r'.2.1, r.2.2 ++ r'.2.2)
  else r

/-- `fallback_handle_state`, the touch part.  Models: /repo/src/evdev-fallback.c:976-1040.  The variable
`need_touch_frame` is overwritten by the multitouch part. -/
def handleState (d : Dev) (m : Map) (dev : Nat) : Map × Dev × List Ev :=
  let st := flushSt d m dev
  let d := { d with seat := st.2.1 }
  let r : Map × Dev × List Ev × Bool :=
    if d.pMt then
      let f := flushSlots d dev st.1 0 d.slots false
      (f.1, { d with slots := f.2.1 }, st.2.2 ++ f.2.2.1, f.2.2.2)
    else (st.1, d, st.2.2, !st.2.2.isEmpty)
  (r.1, { r.2.1 with pDown := false, pUp := false, pMotion := false, pMt := false },
   r.2.2.1 ++ if r.2.2.2 then [.frame dev] else [])

/-- The loop of `cancel_touches` over the slots from number `i` on; `rect = none`: all touches.
Models: /repo/src/evdev-fallback.c:1072-1099. -/
def cancelSlots (dev : Nat) (rect : Option Rect) : Map → Nat → List Slot → Map × List Slot × List Ev
  | m, _, [] => (m, [], [])
  | m, i, s :: ss =>
    let r : Map × Slot × List Ev :=
      if rect.all (·.has s.point) then
        let r := finish m s.seat (.cancel (dev, some i))
        (r.1, { s with seat := r.2.1 }, r.2.2)
      else (m, s, [])
    let r' := cancelSlots dev rect r.1 (i + 1) ss
    (r'.1, r.2.1 :: r'.2.1, r.2.2 ++ r'.2.2)

/-- `cancel_touches`.  Models: /repo/src/evdev-fallback.c:1072-1099. -/
def cancelTouches (d : Dev) (m : Map) (dev : Nat) (rect : Option Rect) : Map × Dev × List Ev :=
  let r := if rect.all (·.has d.point) then finish m d.seat (.cancel (dev, none)) else (m, d.seat, [])
  let f := cancelSlots dev rect r.1 0 d.slots
  (f.1, { d with seat := r.2.1, slots := f.2.1 },
   r.2.2 ++ f.2.2 ++ if (r.2.2 ++ f.2.2).isEmpty then [] else [.frame dev])

/-- What happens to a device. -/
inductive Op where
  /-- kernel events `ABS_MT_SLOT`, `ABS_MT_TRACKING_ID` (with the tool type libevdev has for the slot),
  `ABS_MT_POSITION_X`, `ABS_MT_POSITION_Y`, `ABS_MT_TOOL_TYPE` -/
  | slot (v : Int)
  | tracking (v : Int) (palmTool : Bool)
  | mtX (v : Int)
  | mtY (v : Int)
  | tool (palm : Bool)
  /-- `BTN_TOUCH`, `ABS_X`, `ABS_Y`, `SYN_REPORT` -/
  | touch (v : Int)
  | absX (v : Int)
  | absY (v : Int)
  | syn
  /-- the device is suspended or removed -/
  | suspend
  /-- pen/touch arbitration is switched; its timer, if set, fires; its rectangle moves -/
  | arbitration (which : Arb) (rect : Rect)
  | timeout
  | updateRect (rect : Rect)
deriving DecidableEq, Repr

/-- Change the current slot. -/
def Dev.modify (d : Dev) (f : Slot → Slot) : Dev := { d with slots := d.slots.modify d.cur f }

/-- `fallback_process_touch`.  Models: /repo/src/evdev-fallback.c:597-678. -/
def processTouch (d : Dev) : Op → Dev
  | .slot v => { d with cur := if v < 0 ∨ v ≥ d.slots.length then d.slots.length - 1 else v.toNat }
  | .tracking v palmTool =>
    let d := { d with pMt := true }
    if v ≥ 0 then
      d.modify fun s => { s with
        state := .begin, dirty := true, palm := if d.hasPalm && palmTool then Palm.wasPalm else Palm.none }
    else d.modify fun s => { s with state := .end, dirty := true }
  | .mtX v => { d with pMt := true }.modify fun s => { s with point := (v, s.point.2), dirty := true }
  | .mtY v => { d with pMt := true }.modify fun s => { s with point := (s.point.1, v), dirty := true }
  | .tool palm =>
    { d with pMt := true }.modify fun s => { s with
      palm := if palm then (if s.palm = Palm.none then Palm.new else s.palm)
              else (if s.palm = Palm.isPalm then Palm.wasPalm else s.palm),
      dirty := true }
  | _ => d

/-- `fallback_interface_process`, `fallback_process_absolute`, `fallback_process_key` for `BTN_TOUCH` (key repeat, value
2, is ignored), `fallback_interface_suspend`, `fallback_interface_toggle_touch`, `fallback_arbitration_timeout`,
`fallback_interface_update_rect`.  Simplified: `libinput_now` does not fail; the key releases of
`fallback_return_to_neutral_state` belong to another model.
Models: /repo/src/evdev-fallback.c:1042-1070, /repo/src/evdev-fallback.c:859-870,
/repo/src/evdev-fallback.c:680-697, /repo/src/evdev-fallback.c:530-538,
/repo/src/evdev-fallback.c:540-595, /repo/src/evdev-fallback.c:1151-1165,
/repo/src/evdev-fallback.c:1167-1174, /repo/src/evdev-fallback.c:1249-1288,
/repo/src/evdev-fallback.c:1684-1691, /repo/src/evdev-fallback.c:1231-1247. -/
def devStep (d : Dev) (m : Map) (dev : Nat) : Op → Map × Dev × List Ev
  | .suspend => cancelTouches d m dev none
  | .arbitration which rect =>
    if which = d.arb then (m, d, [])
    else match which with
      | .notActive => (m, { d with armed := true, arb := which }, [])
      | .ignoreRect =>
        let r := cancelTouches d m dev (some rect)
        (r.1, { r.2.1 with rect := rect, arb := which }, r.2.2)
      | .ignoreAll =>
        let r := cancelTouches d m dev none
        (r.1, { r.2.1 with armed := false, inArb := true, arb := which }, r.2.2)
  | .timeout => if d.armed then (m, { d with armed := false, inArb := false }, []) else (m, d, [])
  | .updateRect rect => (m, { d with rect := rect }, [])
  | op =>
    if d.inArb then (m, d, [])
    else match op with
      | .syn => handleState d m dev
      | .touch v =>
        if d.isMt then (m, d, [])
        else if v = 2 then (m, d, [])
        else if v = 0 then (m, { d with pUp := true }, []) else (m, { d with pDown := true }, [])
      | .absX v => if d.isMt then (m, d, []) else (m, { d with point := (v, d.point.2), pMotion := true }, [])
      | .absY v => if d.isMt then (m, d, []) else (m, { d with point := (d.point.1, v), pMotion := true }, [])
      | op => if d.isMt then (m, processTouch d op, []) else (m, d, [])

/-- The seat with its devices. -/
structure Seat where
  map : Map
  devs : List Dev

/-- A new device with `n` slots.  Models: /repo/src/evdev-fallback.c:1576-1637,
/repo/src/evdev-fallback.c:1647-1659.  The initial points do not matter and are 0 here.
The single-touch seat slot is only set up for devices with `ABS_X`, which `evdev_fix_android_mt`
(/repo/src/evdev.c:1595-1613) makes all multitouch devices have. -/
def newDev (isMt : Bool) (n : Nat) (cur : Nat) (hasPalm : Bool) (hyst : Option (Pt → Pt → Pt)) : Dev :=
  ⟨isMt, List.replicate n ⟨false, .none, none, (0, 0), (0, 0), .none⟩, cur, hasPalm, hyst, (0, 0), none,
   false, false, false, false, .notActive, false, false, ⟨0, 0, 0, 0⟩⟩

/-- Something happens on the seat. -/
inductive SeatOp where
  | add (isMt : Bool) (n : Nat) (cur : Nat) (hasPalm : Bool) (hyst : Option (Pt → Pt → Pt))
  | dev (i : Nat) (op : Op)

def step (s : Seat) : SeatOp → Seat × List Ev
  | .add isMt n cur hasPalm hyst => ({ s with devs := s.devs ++ [newDev isMt n cur hasPalm hyst] }, [])
  | .dev i op =>
    match s.devs[i]? with
    | none => (s, [])
    | some d =>
      let r := devStep d s.map i op
      (⟨r.1, s.devs.set i r.2.1⟩, r.2.2)

def run (s : Seat) : List SeatOp → Seat × List Ev
  | [] => (s, [])
  | op :: ops =>
    let r := step s op
    let r' := run r.1 ops
    (r'.1, r.2 ++ r'.2)

/-- A new seat. -/
def start : Seat := ⟨0#32, []⟩

end Libinput.TouchSlots
