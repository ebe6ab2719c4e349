/-
Model of what switches a touchpad or an internal keyboard off and on: the send-events mode, external mice,
the lid and the tablet-mode switch (evdev-mt-touchpad.c, evdev-fallback.c, evdev.c).
-/
namespace Libinput.SendEvents

/-- `LIBINPUT_CONFIG_SEND_EVENTS_*`, bits of a mask.  Models: /repo/src/libinput.h:4814-4842. -/
abbrev ENABLED : Nat := 0
abbrev DISABLED : Nat := 1
abbrev ON_EXTERNAL_MOUSE : Nat := 2

/-- Another device of the seat, as far as the touchpad cares: its tags, whether it is suspended, and the
state of its tablet-mode switch.  Models: `struct evdev_device` (`tags`, `is_suspended`) and
`tablet_mode.sw.state`. -/
structure Other where
  id : Nat
  lid : Bool
  tablet : Bool
  mouse : Bool
  suspended : Bool
  tabletOn : Bool
deriving DecidableEq, Repr

/-- `suspend_reason`, one flag per bit.  Models: /repo/src/evdev-mt-touchpad.h:274-279. -/
structure Reasons where
  mouse : Bool
  sendevents : Bool
  lid : Bool
  tablet : Bool
deriving DecidableEq, Repr

/-- `suspend_reason != 0`. -/
def Reasons.any (r : Reasons) : Bool := r.mouse || r.sendevents || r.lid || r.tablet

/-- `enum suspend_trigger`.  Models: /repo/src/evdev-mt-touchpad.h:274-279. -/
inductive Trigger where
  | mouse | sendevents | lid | tablet
deriving DecidableEq, Repr

def Reasons.has (r : Reasons) : Trigger → Bool
  | .mouse => r.mouse
  | .sendevents => r.sendevents
  | .lid => r.lid
  | .tablet => r.tablet

def Reasons.set (r : Reasons) (b : Bool) : Trigger → Reasons
  | .mouse => { r with mouse := b }
  | .sendevents => { r with sendevents := b }
  | .lid => { r with lid := b }
  | .tablet => { r with tablet := b }

/-- What the touchpad does: `tp_clear_state` (everything is released), closing and opening the device,
changing the top button area, `tp_sync_slots`. -/
inductive Act where
  | clear | close | open | topButtons (enlarged : Bool) | syncSlots
deriving DecidableEq, Repr

/-- The touchpad and its seat.  `internal`: `EVDEV_TAG_INTERNAL_TOUCHPAD` (else external);
`noSuspend`: `QUIRK_MODEL_TABLET_MODE_NO_SUSPEND`; `topButtons`: `buttons.has_topbuttons`;
`isOpen`: the file descriptor is open; `others`: the devices of the seat. -/
structure Tp where
  internal : Bool
  noSuspend : Bool
  topButtons : Bool
  mode : Nat
  reasons : Reasons
  lidDev : Option Nat
  tabletDev : Option Nat
  isSuspended : Bool
  isOpen : Bool
  others : List Other
deriving DecidableEq, Repr

/-- `evdev_device_suspend` of the touchpad.  Models: /repo/src/evdev.c:2764-2789,
/repo/src/evdev.c:2724-2742, /repo/src/evdev-mt-touchpad.c:2088-2095.  What the
notification does to the other devices does not concern the touchpad. -/
def deviceSuspend (d : Tp) : Tp × List Act :=
  ({ d with isSuspended := true, isOpen := false }, [.clear] ++ if d.isOpen then [.close] else [])

/-- `evdev_device_resume` of the touchpad.  Models: /repo/src/evdev.c:2791-2855,
/repo/src/evdev.c:2744-2762.  Simplified: opening the device succeeds. -/
def deviceResume (d : Tp) : Tp × List Act :=
  if d.isOpen then (d, []) else ({ d with isSuspended := false, isOpen := true }, [.open])

/-- `tp_suspend`.  Models: /repo/src/evdev-mt-touchpad.c:2059-2086. -/
def tpSuspend (d : Tp) (tr : Trigger) : Tp × List Act :=
  if d.reasons.has tr then (d, [])
  else if d.reasons.any then ({ d with reasons := d.reasons.set true tr }, [])
  else
    let r :=
      if d.topButtons then ({ d with isSuspended := true }, [.topButtons true])
      else deviceSuspend d
    ({ r.1 with reasons := r.1.reasons.set true tr }, [.clear] ++ r.2)

/-- `tp_resume`.  Models: /repo/src/evdev-mt-touchpad.c:2153-2173. -/
def tpResume (d : Tp) (tr : Trigger) : Tp × List Act :=
  let d := { d with reasons := d.reasons.set false tr }
  if d.reasons.any then (d, [])
  else
    let r :=
      if d.topButtons then ({ d with isSuspended := false }, [.clear, .topButtons false])
      else deviceResume d
    (r.1, r.2 ++ [.syncSlots])

/-- Sequencing. -/
def seq (r : Tp × List Act) (f : Tp → Tp × List Act) : Tp × List Act :=
  ((f r.1).1, r.2 ++ (f r.1).2)

/-- `tp_pair_lid_switch`.  Models: /repo/src/evdev-mt-touchpad.c:2472-2495. -/
def pairLid (d : Tp) (o : Other) : Tp :=
  if !o.lid then d
  else if !d.internal then d
  else if d.lidDev = none then { d with lidDev := some o.id }
  else d

/-- `tp_pair_tablet_mode_switch`.  Models: /repo/src/evdev-mt-touchpad.c:2497-2531. -/
def pairTablet (d : Tp) (o : Other) : Tp × List Act :=
  if !o.tablet then (d, [])
  else if d.tabletDev ≠ none then (d, [])
  else if !d.internal then (d, [])
  else if d.noSuspend then (d, [])
  else
    let d := { d with tabletDev := some o.id }
    if o.tabletOn then tpSuspend d .tablet else (d, [])

/-- `tp_interface_device_added`.  Models: /repo/src/evdev-mt-touchpad.c:2590-2608; trackpoints,
keyboards and tablets are left out. -/
def added (d : Tp) (o : Other) : Tp × List Act :=
  seq (pairTablet (pairLid d o) o) fun d =>
    if d.mode ≠ ON_EXTERNAL_MOUSE then (d, [])
    else if o.mouse then tpSuspend d .mouse
    else (d, [])

/-- `tp_interface_device_removed` (also for a suspended device).
Models: /repo/src/evdev-mt-touchpad.c:2610-2677; trackpoints, keyboards and tablets are left
out. -/
def removed (d : Tp) (id : Nat) : Tp × List Act :=
  seq (seq
    (if d.lidDev = some id then tpResume { d with lidDev := none } .lid else (d, []))
    fun d => if d.tabletDev = some id then tpResume { d with tabletDev := none } .tablet else (d, []))
    fun d =>
      if d.mode = ON_EXTERNAL_MOUSE then
        if d.others.any (fun o => o.id != id && o.mouse) then (d, []) else tpResume d .mouse
      else (d, [])

/-- `tp_suspend_conditional`.  Models: /repo/src/evdev-mt-touchpad.c:3706-3719. -/
def suspendConditional (d : Tp) : Tp × List Act :=
  if d.others.any (fun o => o.mouse) then tpSuspend d .mouse else (d, [])

/-- `enum libinput_config_status`, the two values used here.  Models: /repo/src/libinput.h:4340-4345. -/
inductive Status where
  | success | unsupported
deriving DecidableEq, Repr

/-- `libinput_device_config_send_events_get_modes` for a touchpad.
Models: /repo/src/libinput.c:3838-3847, /repo/src/evdev-mt-touchpad.c:3694-3704. -/
def getModes (d : Tp) : Nat := ENABLED ||| DISABLED ||| (if d.internal then ON_EXTERNAL_MOUSE else 0)

/-- `tp_sendevents_set_mode`.  Models: /repo/src/evdev-mt-touchpad.c:3721-3756. -/
def tpSetMode (d : Tp) (mode : Nat) : Status × Tp × List Act :=
  let mode :=
    if mode &&& DISABLED ≠ 0 ∧ mode &&& ON_EXTERNAL_MOUSE ≠ 0 then mode ^^^ ON_EXTERNAL_MOUSE else mode
  if mode = d.mode then (.success, d, [])
  else if mode = ENABLED then
    let r := seq (tpResume d .sendevents) (tpResume · .mouse)
    (.success, { r.1 with mode := mode }, r.2)
  else if mode = DISABLED then
    let r := seq (tpSuspend d .sendevents) (tpResume · .mouse)
    (.success, { r.1 with mode := mode }, r.2)
  else if mode = ON_EXTERNAL_MOUSE then
    let r := seq (suspendConditional d) (tpResume · .sendevents)
    (.success, { r.1 with mode := mode }, r.2)
  else (.unsupported, d, [])

/-- `libinput_device_config_send_events_set_mode`.
Models: /repo/src/libinput.c:3849-3861. -/
def setMode (d : Tp) (mode : Nat) : Status × Tp × List Act :=
  if getModes d &&& mode ≠ mode then (.unsupported, d, [])
  else tpSetMode d mode

/-- `libinput_device_config_send_events_get_mode`.
Models: /repo/src/libinput.c:3863-3870, /repo/src/evdev-mt-touchpad.c:3758-3765. -/
def getMode (d : Tp) : Nat := d.mode

/-- What can happen to the touchpad's seat. -/
inductive Op where
  | setMode (mode : Nat)
  /-- a device is added to the seat -/
  | add (o : Other)
  /-- a device is removed -/
  | remove (id : Nat)
  /-- a device is suspended (e.g. by its own send-events mode) -/
  | suspend (id : Nat)
  | resume (id : Nat)
  /-- a switch sends a toggle event -/
  | lid (id : Nat) (on : Bool)
  | tablet (id : Nat) (on : Bool)
deriving DecidableEq, Repr

/-- Change the entry of one device. -/
def update (d : Tp) (id : Nat) (f : Other → Other) : Tp :=
  { d with others := d.others.map fun o => if o.id = id then f o else o }

/-- The device with this id. -/
def find (d : Tp) (id : Nat) : Option Other := d.others.find? fun o => o.id == id

/-- One operation.  Models: /repo/src/evdev.c:1962-1991 (the part about the existing touchpad),
/repo/src/evdev.c:2857-2889, /repo/src/evdev.c:2724-2742,
/repo/src/evdev.c:2744-2762, /repo/src/evdev-mt-touchpad.c:2419-2442,
/repo/src/evdev-mt-touchpad.c:2444-2470.  Operations about a device that is not there are
ignored, as are switch events of a suspended device (its file descriptor is closed). -/
def step (d : Tp) : Op → Tp × List Act
  | .setMode mode => (setMode d mode).2
  | .add o =>
    if (find d o.id).isSome then (d, [])
    else
      let o := { o with suspended := false }
      added { d with others := d.others ++ [o] } o
  | .remove id =>
    match find d id with
    | none => (d, [])
    | some o =>
      let r := seq (removed d id) fun d => if o.suspended then (d, []) else removed d id
      ({ r.1 with others := r.1.others.filter fun o => o.id != id }, r.2)
  | .suspend id =>
    match find d id with
    | none => (d, [])
    | some o =>
      if o.suspended then (d, [])
      else
        let r := removed d id
        (update r.1 id fun o => { o with suspended := true }, r.2)
  | .resume id =>
    match find d id with
    | none => (d, [])
    | some o =>
      if o.suspended then
        let r := added d o
        (update r.1 id fun o => { o with suspended := false }, r.2)
      else (d, [])
  | .lid id on =>
    match find d id with
    | none => (d, [])
    | some o =>
      if o.lid && !o.suspended && d.lidDev == some id then
        if on then tpSuspend d .lid else tpResume d .lid
      else (d, [])
  | .tablet id on =>
    match find d id with
    | none => (d, [])
    | some o =>
      if o.tablet && !o.suspended then
        let d := update d id fun o => { o with tabletOn := on }
        if d.tabletDev = some id then
          if on then tpSuspend d .tablet else tpResume d .tablet
        else (d, [])
      else (d, [])

def run (d : Tp) : List Op → Tp × List Act
  | [] => (d, [])
  | op :: ops => seq (step d op) (run · ops)

/-- A touchpad before it is added to the seat.  Models: /repo/src/evdev-mt-touchpad.c:3865-3890. -/
def create (internal noSuspend topButtons : Bool) : Tp :=
  ⟨internal, noSuspend, topButtons, ENABLED, ⟨false, false, false, false⟩, none, none, false, true, []⟩

end Libinput.SendEvents
