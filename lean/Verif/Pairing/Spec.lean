import Verif.Pairing.Model
/-!
Which devices belong together, and what has been plugged in.
-/
namespace Libinput.Pairing.Spec
open Libinput.Pairing

/-- What one device can be to another. -/
inductive Bond where
  /-- typing on it disables the touchpad -/
  | typing
  /-- typing on it shows that the lid is open -/
  | lidKey
  /-- its lid turns the touchpad off -/
  | lid
  /-- its tablet-mode switch turns the device off -/
  | tablet
  /-- the trackpoint next to the touchpad -/
  | stick
  /-- the tablet that the touchpad is turned around with -/
  | pen
  /-- the touch device under the tablet -/
  | touch
  /-- the touch device that is turned around with the tablet -/
  | turned
  /-- the touch screen under the totem -/
  | totem
deriving DecidableEq, Repr

/-- The bonds that come and go as devices are suspended and resumed. -/
def Bond.basic : Bond → Bool
  | .typing | .lidKey | .lid | .tablet | .stick => true
  | _ => false

/-- Both halves come from the same maker and are the same product. -/
def Twin (o x : Info) : Prop := o.vendor = x.vendor ∧ o.product = x.product

/-- A keyboard or trackpoint that is out of reach while the screen is folded over it. -/
def Folds (o : Info) : Prop :=
  o.externalKbd = false ∧ ((o.trackpoint = true ∧ o.extMouse = false) ∨ (o.trackpoint = false ∧ o.internalKbd = true))

/-- `Bel b o x`: `x` is to `o` what `b` says. -/
def Bel : Bond → Info → Info → Prop
  | .typing, o, x =>
    o.kind = .touchpad ∧ x.keyboard = true ∧ ((o.extTouchpad = true ∧ Twin o x) ∨ (o.extTouchpad = false ∧ x.internalKbd = true))
  | .lidKey, o, x => o.kind = .fallback ∧ o.lidSw = true ∧ x.keyboard = true ∧ x.internalKbd = true
  | .lid, o, x => o.kind = .touchpad ∧ o.extTouchpad = false ∧ x.lidSw = true
  | .tablet, o, x =>
    x.tabletSw = true ∧ o.noSuspend = false ∧
      ((o.kind = .touchpad ∧ o.extTouchpad = false) ∨ (o.kind = .fallback ∧ Folds o))
  | .stick, o, x => o.kind = .touchpad ∧ x.trackpoint = true ∧ o.internalBus = true ∧ x.internalBus = true
  | .pen, o, x => o.kind = .touchpad ∧ o.mustRotate = true ∧ (x.kind = .tablet ∨ x.kind = .totem) ∧ o.group = x.group
  | .touch, o, x => o.kind = .tablet ∧ o.group = x.group ∧ (x.touchCap = true ∨ (x.pointerCap = true ∧ x.extTouchpad = true))
  | .turned, o, x => o.kind = .tablet ∧ o.group = x.group ∧ x.pointerCap = true ∧ x.extTouchpad = true
  | .totem, o, x => o.kind = .totem ∧ Twin o x ∧ (o.group = x.group ∨ (o.named = false ∧ x.named = false))

/-- What a listener listens for, as a bond. -/
def bond : Role → Bond
  | .typing => .typing
  | .lidKey => .lidKey
  | .lid => .lid
  | .tablet => .tablet
  | .stick => .stick

/-- `o` holds on to `x`: what its own memory `m` has for this bond is `x`. -/
def Partner (m : Dyn) (o : Info) : Bond → Nat → Prop
  | .typing, x => o.kind = .touchpad ∧ ∃ n, (n, x) ∈ m.kbds
  | .lidKey, x => o.kind = .fallback ∧ ∃ n, (n, x) ∈ m.kbds
  | .lid, x => o.kind = .touchpad ∧ m.lid = some x
  | .tablet, x => (o.kind = .touchpad ∨ o.kind = .fallback) ∧ m.tablet = some x
  | .stick, x => o.kind = .touchpad ∧ m.stick = some x
  | .pen, x => o.kind = .touchpad ∧ m.pen = some x
  | .touch, x => o.kind = .tablet ∧ m.touch = some x
  | .turned, x => o.kind = .tablet ∧ m.turned = some x
  | .totem, x => o.kind = .totem ∧ m.touch = some x

/-- Only the devices of the fallback implementation are keyboards, trackpoints and switches here. -/
def Real (x : Info) : Prop :=
  x.kind ≠ .fallback → x.keyboard = false ∧ x.trackpoint = false ∧ x.lidSw = false ∧ x.tabletSw = false

/-- The devices that were added. -/
def adds : List Op → List Info
  | [] => []
  | .add x :: ops => x :: adds ops
  | _ :: ops => adds ops

/-- The devices that are plugged in, in the order in which they came. -/
def here (ops : List Op) : List Info :=
  ops.foldl (fun D op =>
    match op with
    | .add x => if D.any (fun d => d.id == x.id) then D else D ++ [x]
    | .remove i => D.filter fun d => d.id != i
    | _ => D) []

/-- A keyboard or trackpoint that is a tablet-mode switch itself. -/
def Both (x : Info) : Prop := x.kind = .fallback ∧ x.tabletSw = true ∧ x.noSuspend = false ∧ Folds x

/-- A machine: its devices are real, and at most one of them is a keyboard and a tablet-mode switch at once. -/
structure Machine (A : List Info) : Prop where
  real : ∀ x ∈ A, Real x
  one : ∀ x ∈ A, ∀ y ∈ A, Both x → Both y → x.id = y.id

/-- The machine has one device at most that is to `o` what `b` says. -/
def Alone (A : List Info) (b : Bond) (o : Info) : Prop :=
  ∀ x ∈ A, ∀ y ∈ A, Bel b o x → Bel b o y → x.id = y.id

end Libinput.Pairing.Spec
