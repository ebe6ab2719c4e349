import Verif.SendEvents.Spec
/-
The same for the other devices: the plain send-events mode, and the tablet-mode switch that turns an
internal keyboard or trackpoint off (evdev.c, evdev-fallback.c).
-/
namespace Libinput.SendEvents.Keyboard

/-- A tablet-mode switch of the seat.  Models: `tablet_mode.sw.state` and `is_suspended` of its device. -/
structure Sw where
  id : Nat
  on : Bool
  suspended : Bool
deriving DecidableEq, Repr

/-- The device.  `eligible`: an internal keyboard, or a trackpoint that is not an external mouse, without the
quirk `QUIRK_MODEL_TABLET_MODE_NO_SUSPEND` (/repo/src/evdev-fallback.c:1399-1413); `isOpen`: its file descriptor
is open; `sw`: the switch it listens to. -/
structure Dev where
  eligible : Bool
  mode : Nat
  sw : Option Nat
  isOpen : Bool
  switches : List Sw
deriving DecidableEq, Repr

/-- What the device does: release everything that is down (`fallback_return_to_neutral_state`), close and
open its file descriptor. -/
inductive Act where
  | neutral | close | open
deriving DecidableEq, Repr

/-- `evdev_device_suspend`.  Models: /repo/src/evdev.c:2764-2789,
/repo/src/evdev-fallback.c:1150-1173. -/
def suspend (d : Dev) : Dev × List Act :=
  ({ d with isOpen := false }, [.neutral] ++ if d.isOpen then [.close] else [])

/-- `evdev_device_resume`.  Models: /repo/src/evdev.c:2791-2855.  Simplified: opening succeeds. -/
def resume (d : Dev) : Dev × List Act :=
  if d.isOpen then (d, []) else ({ d with isOpen := true }, [.open])

/-- `fallback_resume`.  Models: /repo/src/evdev-fallback.c:1346-1355. -/
def resumeIfEnabled (d : Dev) : Dev × List Act :=
  if d.mode = DISABLED then (d, []) else resume d

/-- `fallback_pair_tablet_mode`.  Models: /repo/src/evdev-fallback.c:1392-1438. -/
def pair (d : Dev) (s : Sw) : Dev × List Act :=
  if !d.eligible then (d, [])
  else if d.sw ≠ none then (d, [])
  else
    let d := { d with sw := some s.id }
    if s.on then suspend d else (d, [])

/-- `fallback_interface_device_removed`, the part about the tablet-mode switch.
Models: /repo/src/evdev-fallback.c:1468-1474. -/
def removed (d : Dev) (id : Nat) : Dev := if d.sw = some id then { d with sw := none } else d

/-- `libinput_device_config_send_events_set_mode` and `evdev_sendevents_set_mode`.
Models: /repo/src/libinput.c:3849-3861, /repo/src/evdev.c:552-582. -/
def setMode (d : Dev) (mode : Nat) : Status × Dev × List Act :=
  if (ENABLED ||| DISABLED) &&& mode ≠ mode then (.unsupported, d, [])
  else if mode = d.mode then (.success, d, [])
  else if mode = ENABLED then
    (.success, { (resume d).1 with mode := mode }, (resume d).2)
  else if mode = DISABLED then
    (.success, { (suspend d).1 with mode := mode }, (suspend d).2)
  else (.unsupported, d, [])

inductive Op where
  | setMode (mode : Nat)
  | add (id : Nat) (on : Bool)
  | remove (id : Nat)
  | suspend (id : Nat)
  | resume (id : Nat)
  /-- the switch sends a toggle event -/
  | tablet (id : Nat) (on : Bool)
deriving DecidableEq, Repr

def find (d : Dev) (id : Nat) : Option Sw := d.switches.find? fun s => s.id == id

def update (d : Dev) (id : Nat) (f : Sw → Sw) : Dev :=
  { d with switches := d.switches.map fun s => if s.id = id then f s else s }

/-- One operation.  Models: /repo/src/evdev.c:1962-1991 (the part about the existing device),
/repo/src/evdev.c:2857-2889, /repo/src/evdev.c:2724-2762, /repo/src/evdev-fallback.c:1364-1390,
/repo/src/evdev-fallback.c:1440-1446.  Operations about a switch that is not there are ignored, as are events of a
suspended switch. -/
def step (d : Dev) : Op → Dev × List Act
  | .setMode mode => (setMode d mode).2
  | .add id on =>
    if (find d id).isSome then (d, [])
    else pair { d with switches := d.switches ++ [⟨id, on, false⟩] } ⟨id, on, false⟩
  | .remove id =>
    ({ removed d id with switches := d.switches.filter fun s => s.id != id }, [])
  | .suspend id => (update (removed d id) id fun s => { s with suspended := true }, [])
  | .resume id =>
    match find d id with
    | none => (d, [])
    | some s =>
      if s.suspended then
        let r := pair d s
        (update r.1 id fun s => { s with suspended := false }, r.2)
      else (d, [])
  | .tablet id on =>
    match find d id with
    | none => (d, [])
    | some s =>
      if s.suspended then (d, [])
      else
        let d := update d id fun s => { s with on := on }
        if d.sw = some id then
          if on then suspend d else resumeIfEnabled d
        else (d, [])

def run (d : Dev) : List Op → Dev × List Act
  | [] => (d, [])
  | op :: ops => ((run (step d op).1 ops).1, (step d op).2 ++ (run (step d op).1 ops).2)

/-- A device that was just added. -/
def create (eligible : Bool) : Dev := ⟨eligible, ENABLED, none, true, []⟩

/-! ### Specification -/

/-- The caller's mode, and whether the seat's tablet-mode switch exists and is on. -/
structure World where
  mode : Nat
  sw : Option Sw

def next (w : World) : Op → World
  | .setMode m => if m = 0 ∨ m = 1 then { w with mode := m } else w
  | .add id on => if w.sw = none then { w with sw := some ⟨id, on, false⟩ } else w
  | .remove id => { w with sw := w.sw.filter fun s => s.id != id }
  | .suspend id => { w with sw := w.sw.map fun s => if s.id = id then { s with suspended := true } else s }
  | .resume id => { w with sw := w.sw.map fun s => if s.id = id then { s with suspended := false } else s }
  | .tablet id on =>
    { w with sw := w.sw.map fun s => if s.id = id ∧ s.suspended = false then { s with on := on } else s }

def world (ops : List Op) : World := ops.foldl next ⟨0, none⟩

/-- Tablet mode is on. -/
def tabletMode (w : World) : Bool := w.sw.any fun s => s.on && !s.suspended

/-- The seat has one tablet-mode switch at most; while tablet mode is on the switch does not go away and the
caller does not enable the device. -/
def OrdinaryOp (w : World) : Op → Prop
  | .setMode m => tabletMode w = true → m = 0 → w.mode = 0
  | .add _ _ => w.sw = none
  | .remove id => tabletMode w = true → ∀ s, w.sw = some s → s.id ≠ id
  | .suspend id => tabletMode w = true → ∀ s, w.sw = some s → s.id ≠ id
  | _ => True

def Ordinary : World → List Op → Prop
  | _, [] => True
  | w, op :: ops => OrdinaryOp w op ∧ Ordinary (next w op) ops

end Libinput.SendEvents.Keyboard
