import Verif.Totem.Model

/-!
# What a totem should do

In terms of what the kernel says and what the client and the touch screen below see.
-/
namespace Libinput.Totem.Spec
open Libinput.Totem

/-- A totem stands there. -/
def down (k : Kern) : Bool := decide (0 ≤ k.tracking)

/-- The axes of a totem: its position, its angle clockwise in degrees from 0 to 359, and its size in mm. -/
def axesOf (D : Device) (k : Kern) : Axes :=
  { x := k.x, y := k.y, rotation := (-k.orient) % 360, major := if D.resMajor = 0 then none else some ((k.major : Rat) / (D.resMajor : Rat)),
    minor := if D.resMinor = 0 then none else some ((k.minor : Rat) / (D.resMinor : Rat)) }

/-- The axes of the slot that are mentioned by an event. -/
def note (i cur : Nat) (e : KEv) (ch : Changed) : Changed :=
  if cur = i then
    match e with
    | .x _ => { ch with x := true }
    | .y _ => { ch with y := true }
    | .orient _ => { ch with rotation := true }
    | .major _ => { ch with major := true }
    | .minor _ => { ch with minor := true }
    | _ => ch
  else ch

/-- The axes of slot `i` mentioned by the events; `c`: the current slot and what the kernel said before. -/
def mentioned (i : Nat) (c : Nat × List Kern) (ch : Changed) : List KEv → Changed
  | [] => ch
  | e :: es => mentioned i (libevdev c e) (note i c.1 e ch) es

/-- The tracking ids the events give, with their slots. -/
def trackings (c : Nat × List Kern) : List KEv → List (Nat × Int)
  | [] => []
  | e :: es => (match e with | .tracking v => [(c.1, v)] | _ => []) ++ trackings (libevdev c e) es

/-- The button after the events. -/
def button (b : Bool) : List KEv → Bool
  | [] => b
  | .btn0 v :: es => button (if v = 2 then b else decide (v ≠ 0)) es
  | _ :: es => button b es

/-- What the kernel may report: in each slot a totem comes where none was or goes where one was, at most one of both; angles are at most 360. -/
structure Sensible (c : Nat × List Kern) (evs : List KEv) : Prop where
  once : ((trackings c evs).map Prod.fst).Nodup
  turns : ∀ i v, (i, v) ∈ trackings c evs → -1 ≤ v ∧ ∀ k, c.2[i]? = some k → (0 ≤ v ↔ down k = false)
  angles : ∀ v, .orient v ∈ evs → v ≤ 360

/-- The events of a report for the client, about slot `i`: the kernel said `k0` before and says `k1` now; `press`: the button is told. -/
def slotEvents (D : Device) (i : Nat) (k0 k1 : Kern) (ch : Changed) (press : Option Bool) : List Ev :=
  let a := axesOf D k1
  let btn (tip : Bool) (dx dy : Int) := match press with | none => [] | some b => [Ev.button i tip a dx dy b]
  match down k0, down k1 with
  | false, false => []
  | false, true => [.prox i true ⟨true, true, true, true, true⟩ a 0 0, .tip i true {} a 0 0] ++ btn true 0 0
  | true, true => (if ch = {} then [] else [.axis i true ch a (k1.x - k0.x) (k1.y - k0.y)]) ++ btn true (k1.x - k0.x) (k1.y - k0.y)
  | true, false => btn false (k1.x - k0.x) (k1.y - k0.y) ++ [.tip i false ch a (k1.x - k0.x) (k1.y - k0.y), .prox i false {} a (k1.x - k0.x) (k1.y - k0.y)]

/-- All slots, from slot `i` on: the first totem gets the button, if it is different from what was told. -/
def slotsEvents (D : Device) (now : Bool) (ch : Nat → Changed) (i : Nat) : List Kern → List Kern → Bool → List Ev
  | k0 :: ks0, k1 :: ks1, told =>
    slotEvents D i k0 k1 (ch i) (if (down k0 || down k1) && now != told then some now else none) ++
    slotsEvents D now ch (i + 1) ks0 ks1 (if down k0 || down k1 then now else told)
  | _, _, _ => []

/-- 100 mm by 100 mm around the first totem. -/
def area (D : Device) (ks : List Kern) : Option Rect :=
  (ks.find? down).map fun k => ⟨(k.x - D.minX).tdiv D.resX - 30, (k.y - D.minY).tdiv D.resY - 30, 100, 100⟩

/-- What the touch device is told: nothing is to be ignored; touches in the area are to be ignored; the area is now another. -/
def touchCalls (D : Device) (touch : Option Touch) (ignoring : Bool) (ks : List Kern) : List Ev :=
  match touch with
  | none => []
  | some t =>
    if ks.any down then
      if ignoring then if t.update then [.updateRect t.id (area D ks)] else []
      else if t.toggle then [.toggle t.id .ignoreRect (area D ks)] else []
    else if t.toggle then [.toggle t.id .notActive none] else []

/-- What a touch device was told last. -/
def told (id : Nat) : Arb → List Ev → Arb
  | a, [] => a
  | a, .toggle d b _ :: es => told id (if d = id then b else a) es
  | a, _ :: es => told id a es

/-- What happens to a device: a report of the kernel, suspending and resuming, other devices coming and going. -/
inductive Act where
  | report (evs : List KEv)
  | suspend
  | resume (cur : Nat) (kern : List Kern)
  | added (t : Touch)
  | removed (id : Nat)
deriving DecidableEq, Repr

def Act.ops : Act → List Op
  | .report evs => evs.map .kernel ++ [.sync]
  | .suspend => [.suspend]
  | .resume cur kern => [.resume cur kern]
  | .added t => [.deviceAdded t]
  | .removed id => [.deviceRemoved id]

/-- The device is suspended while it runs only, it is resumed only when no totem stands on it and none did when it was suspended; and reports are sensible. -/
def CarefulAct (on : Bool) (s : State) : Act → Prop
  | .report evs => on = true ∧ Sensible (s.cur, s.kern) evs
  | .suspend => on = true
  | .resume cur kern => on = false ∧ cur = s.cur ∧ kern.length = s.kern.length ∧ (∀ k ∈ s.kern, down k = false) ∧ ∀ k ∈ kern, k.tracking = -1 ∧ k.orient ≤ 360
  | _ => True

def nextOn (on : Bool) : Act → Bool
  | .suspend => false
  | .resume _ _ => true
  | _ => on

/-- A new device: libevdev has its slots. -/
structure Fresh (cur : Nat) (kern : List Kern) : Prop where
  cur : cur < kern.length
  sane : ∀ k ∈ kern, -1 ≤ k.tracking ∧ k.orient ≤ 360

/-- A careful history; the result says whether the device runs. -/
inductive Careful (D : Device) : List Act → State → Bool → Prop
  | start {cur kern others s} : Fresh cur kern → start D cur kern others = some s → Careful D [] s true
  | act {acts s on a t} : Careful D acts s on → CarefulAct on s a → run D s a.ops = some t → Careful D (acts ++ [a]) t (nextOn on a)

inductive Phase where
  | away | near | standing
deriving DecidableEq, Repr

/-- What may follow for the tool of slot `i`: it comes near, stands, moves and has its button pressed and released, is lifted, and goes.
`lenient`: a tool that is away may release the button and go once more. -/
def follow (lenient : Bool) (i : Nat) (p : Phase) : Ev → Option Phase
  | .prox j isIn _ _ _ _ =>
    if j ≠ i then some p
    else if isIn then if p = .away then some .near else none
    else if p = .near then some .away
    else if p = .away ∧ lenient then some .away else none
  | .tip j isDown _ _ _ _ =>
    if j ≠ i then some p
    else if isDown then if p = .near then some .standing else none
    else if p = .standing then some .near else none
  | .axis j _ _ _ _ _ => if j ≠ i then some p else if p = .standing then some p else none
  | .button j _ _ _ _ pressed => if j ≠ i then some p else if p = .standing ∨ (p = .away ∧ lenient ∧ pressed = false) then some p else none
  | .toggle _ _ _ => some p
  | .updateRect _ _ => some p

/-- The button as the client was told. -/
def buttonTold : Bool → List Ev → Bool
  | b, [] => b
  | _, .button _ _ _ _ _ p :: es => buttonTold p es
  | b, _ :: es => buttonTold b es

/-- Every button event changes the state of the button. -/
def Alternate : Bool → List Ev → Prop
  | _, [] => True
  | b, .button _ _ _ _ _ p :: es => p ≠ b ∧ Alternate p es
  | b, _ :: es => Alternate b es

/-- The button as the kernel said, over a history. -/
def kernelButton (acts : List Act) : Bool := acts.foldl (fun b a => match a with | .report evs => button b evs | _ => b) false

/-- The touch device was told to ignore touches. -/
def ignoring (s : State) : Bool :=
  match s.touch with
  | none => false
  | some t => told t.id .notActive s.out == .ignoreRect

/-- The axes of an event. -/
def Ev.axes? : Ev → Option Axes
  | .prox _ _ _ a _ _ => some a
  | .tip _ _ _ a _ _ => some a
  | .axis _ _ _ a _ _ => some a
  | .button _ _ a _ _ _ => some a
  | _ => none

/-- The device may be the touch screen of the totem. -/
def Below (D : Device) (t : Touch) : Prop := t.vendor = D.vendor ∧ t.product = D.product ∧ ∀ g h, D.group = some g → t.group = some h → g = h

/-- Events, for examples. -/
inductive Kind where
  | near (i : Nat) | gone (i : Nat) | down (i : Nat) | up (i : Nat) | axis (i : Nat) (dx dy : Int) | button (i : Nat) (pressed : Bool) | touch (dev : Nat) (a : Arb) (r : Option Rect) | area (dev : Nat) (r : Option Rect)
deriving DecidableEq, Repr

def kind : Ev → Kind
  | .prox i isIn _ _ _ _ => if isIn then .near i else .gone i
  | .tip i isDown _ _ _ _ => if isDown then .down i else .up i
  | .axis i _ _ _ dx dy => .axis i dx dy
  | .button i _ _ _ _ p => .button i p
  | .toggle d a r => .touch d a r
  | .updateRect d r => .area d r

end Libinput.Totem.Spec
