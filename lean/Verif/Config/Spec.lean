import Verif.Config.Model
/-
What a caller is told about the configuration interface (the documentation in libinput.h): which options
which device has, which values each option takes, what it is at first, and what a getter returns after a
history of calls.  Only the names of the calls, settings and hardware facts are taken from the model; no
function of the model is used.
-/
namespace Libinput.Config.Spec
open Libinput.Config

/-- The device reports relative motion and has a pointer: a mouse, a pointing stick, or a keyboard with a
wheel. -/
def movesPointer (hw : Hw) : Prop :=
  (hw.mouseTag ∨ (hw.keyboardTag ∧ (hw.rel 8 ∨ hw.rel 6))) ∧ hw.rel 0 ∧ hw.rel 1

/-- A mouse or pointing stick that moves along at least one axis can scroll while a button is held. -/
def scrollsOnButton (hw : Hw) : Prop :=
  hw.kind = .fallback ∧ hw.mouseTag ∧ (hw.rel 0 ∨ hw.rel 1)

/-- The device has the option. -/
def offers (hw : Hw) : Setting → Prop
  | .tapEnabled | .tapMap | .tapDrag | .tapDragLock => hw.kind = .touchpad ∧ hw.ntouches > 0
  | .calibration => hw.absXY ∧ (hw.kind = .fallback ∨ (hw.kind = .tablet ∧ hw.direct))
  | .sendEvents => True
  | .speed =>
    hw.kind = .touchpad ∨ hw.kind = .tablet ∨ hw.kind = .totem ∨ (hw.kind = .fallback ∧ movesPointer hw)
  | .profile => hw.kind = .touchpad ∨ (hw.kind = .fallback ∧ movesPointer hw)
  | .natural =>
    hw.kind = .touchpad ∨
      (hw.kind = .fallback ∧ (hw.mouseTag ∨ (hw.keyboardTag ∧ (hw.rel 8 ∨ hw.rel 6))))
  | .leftHanded =>
    (hw.kind = .touchpad ∧ ¬ hw.onebutton) ∨ ((hw.kind = .tablet ∨ hw.kind = .pad) ∧ hw.reversible) ∨
      (hw.kind = .fallback ∧ hw.mouseTag)
  | .clickMethod => hw.kind = .touchpad
  | .middleEmulation =>
    (hw.kind = .touchpad ∧ (hw.clickpad ∨ (hw.alps ∧ hw.key 0x112))) ∨
      (hw.kind = .fallback ∧ hw.key 0x110 ∧ hw.key 0x111 ∧ hw.key 0x112)
  | .scrollMethod => hw.kind = .touchpad ∨ scrollsOnButton hw
  | .scrollButton | .scrollButtonLock => scrollsOnButton hw
  | .dwt => hw.kind = .touchpad ∧ (hw.internal ∨ hw.tpkbBelow)
  | .rotation => hw.kind = .fallback ∧ hw.trackball

/-- The setting a call is about. -/
def about : Call → Setting
  | .tapEnabled _ => .tapEnabled
  | .tapMap _ => .tapMap
  | .tapDrag _ => .tapDrag
  | .tapDragLock _ => .tapDragLock
  | .calibration _ => .calibration
  | .sendEvents _ => .sendEvents
  | .speed _ => .speed
  | .profile _ => .profile
  | .natural _ => .natural
  | .leftHanded _ => .leftHanded
  | .clickMethod _ => .clickMethod
  | .middleEmulation _ => .middleEmulation
  | .scrollMethod _ => .scrollMethod
  | .scrollButton _ => .scrollButton
  | .scrollButtonLock _ => .scrollButtonLock
  | .dwt _ => .dwt
  | .rotation _ => .rotation

/-- The argument is one the documentation names. -/
def documented (hw : Hw) : Call → Prop
  | .tapEnabled v | .tapMap v | .tapDrag v | .tapDragLock v => v = 0 ∨ v = 1
  | .middleEmulation v | .scrollButtonLock v | .dwt v => v = 0 ∨ v = 1
  | .calibration _ => True
  | .sendEvents v => v ≤ 3
  | .speed v => ∃ q : Rat, v = .fin q ∧ -1 ≤ q ∧ q ≤ 1
  | .profile v => v = 1 ∨ v = 2
  | .natural _ | .leftHanded _ => True
  | .clickMethod v => v = 0 ∨ v = 1 ∨ v = 2
  | .scrollMethod v => v = 0 ∨ v = 1 ∨ v = 2 ∨ v = 4
  | .scrollButton b => b = 0 ∨ hw.key b
  | .rotation v => v = 0 ∨ v = 90 ∨ v = 180 ∨ v = 270

/-- The device can do what the call asks for.  Switching off what a device does not have is fine. -/
def supported (hw : Hw) : Call → Prop
  | .tapEnabled v => v = 0 ∨ offers hw .tapEnabled
  | .tapMap _ => offers hw .tapMap
  | .tapDrag v => v = 0 ∨ offers hw .tapDrag
  | .tapDragLock v => v = 0 ∨ offers hw .tapDragLock
  | .calibration _ => offers hw .calibration
  | .sendEvents v => v = 0 ∨ v = 1 ∨ ((v = 2 ∨ v = 3) ∧ hw.kind = .touchpad ∧ hw.internal)
  | .speed _ => offers hw .speed
  | .profile _ => offers hw .profile
  | .natural _ => offers hw .natural
  | .leftHanded _ => offers hw .leftHanded
  | .clickMethod v =>
    v = 0 ∨ (v = 1 ∧ hw.kind = .touchpad ∧ hw.clickpad) ∨
      (v = 2 ∧ hw.kind = .touchpad ∧ ((hw.clickpad ∧ hw.hasMt) ∨ hw.onebutton))
  | .middleEmulation v => v = 0 ∨ offers hw .middleEmulation
  | .scrollMethod v =>
    v = 0 ∨ (v = 1 ∧ hw.kind = .touchpad ∧ hw.ntouches ≥ 2 ∧ ¬ hw.noTwoFinger) ∨
      (v = 2 ∧ hw.kind = .touchpad) ∨ (v = 4 ∧ scrollsOnButton hw)
  | .scrollButton _ => offers hw .scrollButton
  | .scrollButtonLock _ => offers hw .scrollButtonLock
  | .dwt v => v = 0 ∨ offers hw .dwt
  | .rotation v => v = 0 ∨ offers hw .rotation

/-- The call ought to succeed. -/
def acceptable (hw : Hw) (c : Call) : Prop := documented hw c ∧ supported hw c

/-- The identity matrix. -/
def identity : Six := ⟨.fin 1, .fin 0, .fin 0, .fin 0, .fin 1, .fin 0⟩

/-- What the getter returns once the call has succeeded: the value that was set.  Any non-zero flag reads
as 1, and "disabled" includes "disabled while there is an external mouse". -/
def asRead : Call → Value
  | .tapEnabled v | .tapMap v | .tapDrag v | .tapDragLock v => .num v
  | .calibration m => .matrix (some m) (decide (m ≠ identity))
  | .sendEvents v => .num (if v = 3 then 1 else v)
  | .speed v => .real v
  | .profile v => .num v
  | .natural v | .leftHanded v => .num (if v = 0 then 0 else 1)
  | .clickMethod v | .middleEmulation v | .scrollMethod v | .scrollButton v | .scrollButtonLock v => .num v
  | .dwt v => .num v
  | .rotation v => .num v

open Classical in
/-- The value of a new device. -/
noncomputable def atFirst (hw : Hw) : Setting → Value
  | .tapEnabled => .num (if offers hw .tapEnabled ∧ ¬ hw.key 0x110 then 1 else 0)
  | .tapMap => .num 0
  | .tapDrag => .num (if offers hw .tapDrag then 1 else 0)
  | .tapDragLock => .num 0
  | .calibration =>
    if offers hw .calibration then
      match hw.udevMatrix with
      | none => .matrix (some identity) false
      | some m => .matrix (some m) (decide (m ≠ identity))
    else .matrix none false
  | .sendEvents => .num 0
  | .speed => .real (.fin 0)
  | .profile => .num (if offers hw .profile then 2 else 0)
  | .natural => .num 0
  | .leftHanded => .num 0
  | .clickMethod =>
    .num (if hw.kind ≠ .touchpad then 0
      else if hw.clickfingerQuirk ∨ hw.onebutton ∨ (hw.clickpad ∧ hw.apple) then 2
      else if hw.clickpad then 1
      else 0)
  | .middleEmulation => .num (if hw.kind = .touchpad ∧ ¬ hw.clickpad ∧ hw.alps ∧ hw.key 0x112 then 1 else 0)
  | .scrollMethod =>
    .num (if hw.kind = .touchpad then (if hw.ntouches ≥ 2 ∧ ¬ hw.noTwoFinger then 1 else 2)
      else if scrollsOnButton hw ∧ (hw.trackpoint ∨ (¬ hw.rel 8 ∧ ¬ hw.rel 6 ∧ hw.key 0x112)) then 4
      else 0)
  | .scrollButton =>
    .num (if ¬ scrollsOnButton hw then 0
      else if hw.key 0x112 then 0x112
      else if hw.key 0x113 then 0x113
      else if hw.key 0x114 then 0x114
      else if hw.key 0x115 then 0x115
      else if hw.key 0x116 then 0x116
      else if hw.key 0x117 then 0x117
      else if hw.key 0x111 then 0x111
      else 0)
  | .scrollButtonLock => .num 0
  | .dwt => .num (if offers hw .dwt then 1 else 0)
  | .rotation => .num 0

open Classical in
/-- The value most recently set by a call that ought to succeed, or else the first value. -/
noncomputable def lastSet (hw : Hw) (s : Setting) : List Op → Value → Value
  | [], v => v
  | .call _ c :: ops, v => lastSet hw s ops (if about c = s ∧ acceptable hw c then asRead c else v)
  | .released _ :: ops, v => lastSet hw s ops v

/-- The calls about on-button scrolling. -/
def aboutScroll : Call → Prop
  | .scrollMethod _ | .scrollButton _ | .scrollButtonLock _ => True
  | _ => False

open Classical in
/-- The button lock.  `wanted` is the value most recently set; the getter shows it from the first moment on
at which no button was down and the code looked: in one of the calls about on-button scrolling, or when a
button was released. -/
noncomputable def lockShown (hw : Hw) : List Op → Value → Value → Value
  | [], _, shown => shown
  | .call down c :: ops, wanted, shown =>
    let wanted := if about c = .scrollButtonLock ∧ acceptable hw c then asRead c else wanted
    lockShown hw ops wanted (if aboutScroll c ∧ acceptable hw c ∧ ¬ down then wanted else shown)
  | .released down :: ops, wanted, shown =>
    lockShown hw ops wanted (if ¬ down then wanted else shown)

/-- The speed of a graphics tablet or totem is not remembered. -/
def forgetsSpeed (hw : Hw) (s : Setting) : Prop := s = .speed ∧ (hw.kind = .tablet ∨ hw.kind = .totem)

end Libinput.Config.Spec
