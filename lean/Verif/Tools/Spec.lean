import Verif.Tools.Model
/-
What is expected of tablet tools, with the kernel's codes written out.
-/
namespace Libinput.Tools.Spec
open Libinput.Tools

/-- The tablet has the axis: the absolute axis of that name, for rotation alternatively a mouse whose rotation comes
from the tilt. -/
def CanReport (d : Device) : Axis → Prop
  | .x => (d.abs 0x00).isSome
  | .y => (d.abs 0x01).isSome
  | .pressure => (d.abs 0x18).isSome
  | .distance => (d.abs 0x19).isSome
  | .tiltX => (d.abs 0x1a).isSome
  | .tiltY => (d.abs 0x1b).isSome
  | .rotation => (d.abs 0x02).isSome ∨ (d.key 0x146 = true ∧ (d.abs 0x1a).isSome ∧ (d.abs 0x1b).isSome)
  | .slider => (d.abs 0x08).isSome
  | .wheel => d.wheel = true
  | .major => (d.abs 0x30).isSome
  | .minor => (d.abs 0x31).isSome

def Drawing (k : Kind) : Prop := k = .pen ∨ k = .eraser ∨ k = .brush ∨ k = .pencil ∨ k = .airbrush
def Cursor (k : Kind) : Prop := k = .mouse ∨ k = .lens

/-- Which axes a tool has that libwacom does not know. -/
def UnknownAxis (d : Device) (k : Kind) : Axis → Prop
  | .x => CanReport d .x
  | .y => CanReport d .y
  | .pressure => Drawing k ∧ CanReport d .pressure
  | .distance => Drawing k ∧ CanReport d .distance
  | .tiltX => Drawing k ∧ CanReport d .tiltX
  | .tiltY => Drawing k ∧ CanReport d .tiltY
  | .slider => Drawing k ∧ CanReport d .slider
  | .rotation => (Drawing k ∧ (d.abs 0x02).isSome) ∨ (Cursor k ∧ CanReport d .rotation)
  | .wheel => Cursor k ∧ CanReport d .wheel
  | .major => False
  | .minor => False

/-- Which axes a tool has that libwacom knows. -/
def KnownAxis (d : Device) (s : Stylus) : Axis → Prop
  | .x => CanReport d .x
  | .y => CanReport d .y
  | .pressure => s.pressure = true ∧ CanReport d .pressure
  | .distance => s.distance = true ∧ CanReport d .distance
  | .tiltX => s.tilt = true ∧ s.puck = false ∧ CanReport d .tiltX
  | .tiltY => s.tilt = true ∧ s.puck = false ∧ CanReport d .tiltY
  | .slider => s.slider = true ∧ CanReport d .slider
  | .rotation => (s.rotation = true ∧ CanReport d .rotation) ∨ (s.puck = true ∧ s.tilt = true)
  | .wheel => s.wheel = true ∧ CanReport d .wheel
  | .major => False
  | .minor => False

def HasAxis (db : Nat → Option Stylus) (d : Device) (k : Kind) (id : Nat) (a : Axis) : Prop :=
  match db id with
  | some s => KnownAxis d s a
  | none => UnknownAxis d k a

/-- Which buttons a tool has: of those the tablet has, the stylus buttons (at most two) or the mouse buttons; a puck
that libwacom knows has as many as libwacom says, counted from the left button. -/
def HasButton (db : Nat → Option Stylus) (d : Device) (k : Kind) (id : Nat) (c : Nat) : Prop :=
  d.key c = true ∧
  match db id with
  | some s =>
    (s.puck = true ∧ 0x110 ≤ c ∧ (c : Int) < 0x110 + s.buttons) ∨
    (s.puck = false ∧ ((c = 0x14b ∧ s.buttons ≥ 1) ∨ (c = 0x14c ∧ s.buttons ≥ 2)))
  | none =>
    (Drawing k ∧ (c = 0x14b ∨ c = 0x14c)) ∨
    (Cursor k ∧ 0x110 ≤ c ∧ c ≤ 0x114)

/-- The first frame that carried the tool `t`. -/
def FirstUse (told : List Told) (t : Tool) (e : Told) : Prop :=
  ∃ pre post, told = pre ++ e :: post ∧ e.tool.obj = t.obj ∧ ∀ x ∈ pre, x.tool.obj ≠ t.obj

end Libinput.Tools.Spec
