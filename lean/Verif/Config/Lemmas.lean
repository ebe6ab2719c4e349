import Verif.Config.Spec
/-
The hooks of a device are those its hardware calls for, and stay so.
-/
namespace Libinput.Config

/-- The device moves a pointer (as a `Bool`). -/
def wheelKb (hw : Hw) : Bool := hw.keyboardTag && (hw.rel 8 || hw.rel 6)

def moves (hw : Hw) : Bool := (hw.mouseTag || wheelKb hw) && hw.rel 0 && hw.rel 1

/-- Which device has acceleration. -/
def accels (hw : Hw) : Bool :=
  match hw.kind with
  | .totem | .tablet | .touchpad => true
  | .pad => false
  | .fallback => moves hw

def scrolls (hw : Hw) : Option ScrollHook :=
  match hw.kind with
  | .touchpad => some .touchpad
  | .fallback => if hw.mouseTag && (hw.rel 0 || hw.rel 1) then some .button else none
  | _ => none

def middles (hw : Hw) : Option MiddleHook :=
  match hw.kind with
  | .touchpad => if hw.clickpad then some .clickpad else if hw.alps && hw.key 0x112 then some .evdev else none
  | .fallback => if hw.key 0x110 && hw.key 0x111 && hw.key 0x112 then some .evdev else none
  | _ => none

def lefts (hw : Hw) : Bool :=
  match hw.kind with
  | .touchpad => !hw.onebutton
  | .fallback => hw.mouseTag
  | .tablet | .pad => hw.reversible
  | .totem => false

def isTabletKind (k : Kind) : Bool := decide (k = .tablet) || decide (k = .totem)

def profHook : Kind → ProfileHook
  | .touchpad => .touchpad
  | .fallback => .evdev
  | _ => .none

def sendHookOf : Kind → SendHook
  | .touchpad => .touchpad
  | .pad => .pad
  | _ => .evdev

/-- The hooks of the device are those its hardware calls for. -/
structure Inv (hw : Hw) (d : Dev) : Prop where
  same : d.hw = hw
  pointer : d.pointer = (decide (hw.kind = .touchpad) || (decide (hw.kind = .fallback) && (hw.mouseTag || wheelKb hw)))
  tap : d.tapHook = decide (hw.kind = .touchpad)
  cal : d.calibrationHook = (decide (hw.kind = .fallback) || (decide (hw.kind = .tablet) && hw.direct))
  send : d.sendHook = some (sendHookOf hw.kind)
  accel : d.accelHook = accels hw
  filt : accels hw = true → ∃ f, d.filter = some f ∧ inRange f.speed = true ∧
    (f.kind = .tablet ↔ isTabletKind hw.kind = true) ∧ (isTabletKind hw.kind = true → f.speed = .fin 0)
  prof : accels hw = true → d.profileHook = profHook hw.kind
  nat : d.naturalHook = (decide (hw.kind = .touchpad) || (decide (hw.kind = .fallback) && (hw.mouseTag || wheelKb hw)))
  left : d.leftHook = lefts hw
  click : d.clickHook = decide (hw.kind = .touchpad)
  middle : d.middleHook = middles hw
  scroll : d.scrollHook = scrolls hw
  lock : d.lockState = d.scrollLock
  dwtH : d.dwtHook = (decide (hw.kind = .touchpad) && (hw.internal || hw.tpkbBelow))
  rot : d.rotationHook = (decide (hw.kind = .fallback) && hw.trackball)

theorem inRange_zero : inRange (.fin 0) = true := by decide

theorem inRange_iff (v : Num) : inRange v = true ↔ ∃ q : Rat, v = .fin q ∧ -1 ≤ q ∧ q ≤ 1 := by
  cases v with
  | nan => simp [inRange, Num.le]
  | inf b => cases b <;> simp [inRange, Num.le]
  | fin q => simp [inRange, Num.le]

theorem initAcceleration_new (d : Dev) (k : FilterKind) :
    initAcceleration d (Filter.new k) =
      some { d with filter := some (Filter.new k), accelHook := true, profileHook := (if d.accelHook then d.profileHook else .evdev) } := by
  cases h : d.accelHook with
  | true => simp only [initAcceleration, h, if_true]
  | false => cases k <;> simp [initAcceleration, h, accelSetSpeed, Filter.setSpeed, inRange_zero, Filter.new]

theorem readCalibration_inv {hw : Hw} {d : Dev} (h : Inv hw d) : Inv hw (readCalibration d) := by
  unfold readCalibration
  split
  · exact h
  · split
    · exact ⟨h.1, h.2, h.3, h.4, h.5, h.6, h.7, h.8, h.9, h.10, h.11, h.12, h.13, h.14, h.15, h.16⟩
    · exact h

theorem initTap_fields (d : Dev) :
    (initTap d).hw = d.hw ∧ (initTap d).pointer = d.pointer ∧ (initTap d).tapHook = true ∧
      (initTap d).calibrationHook = d.calibrationHook ∧ (initTap d).sendHook = d.sendHook ∧
      (initTap d).accelHook = d.accelHook ∧ (initTap d).filter = d.filter ∧
      (initTap d).profileHook = d.profileHook ∧ (initTap d).naturalHook = d.naturalHook ∧
      (initTap d).leftHook = d.leftHook ∧ (initTap d).clickHook = d.clickHook ∧
      (initTap d).middleHook = d.middleHook ∧ (initTap d).scrollHook = d.scrollHook ∧
      (initTap d).lockState = d.lockState ∧ (initTap d).scrollLock = d.scrollLock ∧
      (initTap d).dwtHook = d.dwtHook ∧ (initTap d).rotationHook = d.rotationHook := by
  exact ⟨rfl, rfl, rfl, rfl, rfl, rfl, rfl, rfl, rfl, rfl, rfl, rfl, rfl, rfl, rfl, rfl, rfl⟩

theorem initMiddle_fields (d : Dev) (a b : Bool) :
    (initMiddle d a b).hw = d.hw ∧ (initMiddle d a b).pointer = d.pointer ∧
      (initMiddle d a b).tapHook = d.tapHook ∧ (initMiddle d a b).calibrationHook = d.calibrationHook ∧
      (initMiddle d a b).sendHook = d.sendHook ∧ (initMiddle d a b).accelHook = d.accelHook ∧
      (initMiddle d a b).filter = d.filter ∧ (initMiddle d a b).profileHook = d.profileHook ∧
      (initMiddle d a b).naturalHook = d.naturalHook ∧ (initMiddle d a b).leftHook = d.leftHook ∧
      (initMiddle d a b).clickHook = d.clickHook ∧
      (initMiddle d a b).middleHook = (if b then some .evdev else d.middleHook) ∧
      (initMiddle d a b).scrollHook = d.scrollHook ∧ (initMiddle d a b).lockState = d.lockState ∧
      (initMiddle d a b).scrollLock = d.scrollLock ∧ (initMiddle d a b).dwtHook = d.dwtHook ∧
      (initMiddle d a b).rotationHook = d.rotationHook := by
  cases b <;> exact ⟨rfl, rfl, rfl, rfl, rfl, rfl, rfl, rfl, rfl, rfl, rfl, rfl, rfl, rfl, rfl, rfl, rfl⟩

theorem initMid_fields (d : Dev) (p : Prop) [Decidable p] (a b : Bool) :
    (if p then initMiddle d a b else d).hw = d.hw ∧
      (if p then initMiddle d a b else d).pointer = d.pointer ∧
      (if p then initMiddle d a b else d).tapHook = d.tapHook ∧
      (if p then initMiddle d a b else d).calibrationHook = d.calibrationHook ∧
      (if p then initMiddle d a b else d).sendHook = d.sendHook ∧
      (if p then initMiddle d a b else d).accelHook = d.accelHook ∧
      (if p then initMiddle d a b else d).filter = d.filter ∧
      (if p then initMiddle d a b else d).profileHook = d.profileHook ∧
      (if p then initMiddle d a b else d).naturalHook = d.naturalHook ∧
      (if p then initMiddle d a b else d).leftHook = d.leftHook ∧
      (if p then initMiddle d a b else d).clickHook = d.clickHook ∧
      (if p then initMiddle d a b else d).middleHook = (if p ∧ b = true then some .evdev else d.middleHook) ∧
      (if p then initMiddle d a b else d).scrollHook = d.scrollHook ∧
      (if p then initMiddle d a b else d).lockState = d.lockState ∧
      (if p then initMiddle d a b else d).scrollLock = d.scrollLock ∧
      (if p then initMiddle d a b else d).dwtHook = d.dwtHook ∧
      (if p then initMiddle d a b else d).rotationHook = d.rotationHook := by
  by_cases h : p <;> simp [h, initMiddle_fields]

theorem tpInitMiddle_fields (d : Dev) :
    (tpInitMiddle d).hw = d.hw ∧ (tpInitMiddle d).pointer = d.pointer ∧
      (tpInitMiddle d).tapHook = d.tapHook ∧ (tpInitMiddle d).calibrationHook = d.calibrationHook ∧
      (tpInitMiddle d).sendHook = d.sendHook ∧ (tpInitMiddle d).accelHook = d.accelHook ∧
      (tpInitMiddle d).filter = d.filter ∧ (tpInitMiddle d).profileHook = d.profileHook ∧
      (tpInitMiddle d).naturalHook = d.naturalHook ∧ (tpInitMiddle d).leftHook = d.leftHook ∧
      (tpInitMiddle d).clickHook = d.clickHook ∧
      (tpInitMiddle d).middleHook = (if d.hw.clickpad then some .clickpad else if d.hw.alps && d.hw.key 0x112 then some .evdev else d.middleHook) ∧
      (tpInitMiddle d).scrollHook = d.scrollHook ∧ (tpInitMiddle d).lockState = d.lockState ∧
      (tpInitMiddle d).scrollLock = d.scrollLock ∧ (tpInitMiddle d).dwtHook = d.dwtHook ∧
      (tpInitMiddle d).rotationHook = d.rotationHook := by
  unfold tpInitMiddle
  rcases hc : d.hw.clickpad <;> rcases hm : d.hw.key 0x112 <;> rcases ha : d.hw.alps <;> simp [initMiddle_fields]

theorem tpInitDwt_fields (d : Dev) :
    (tpInitDwt d).hw = d.hw ∧ (tpInitDwt d).pointer = d.pointer ∧ (tpInitDwt d).tapHook = d.tapHook ∧
      (tpInitDwt d).calibrationHook = d.calibrationHook ∧ (tpInitDwt d).sendHook = d.sendHook ∧
      (tpInitDwt d).accelHook = d.accelHook ∧ (tpInitDwt d).filter = d.filter ∧
      (tpInitDwt d).profileHook = d.profileHook ∧ (tpInitDwt d).naturalHook = d.naturalHook ∧
      (tpInitDwt d).leftHook = d.leftHook ∧ (tpInitDwt d).clickHook = d.clickHook ∧
      (tpInitDwt d).middleHook = d.middleHook ∧ (tpInitDwt d).scrollHook = d.scrollHook ∧
      (tpInitDwt d).lockState = d.lockState ∧ (tpInitDwt d).scrollLock = d.scrollLock ∧
      (tpInitDwt d).dwtHook = (if d.hw.internal || d.hw.tpkbBelow then true else d.dwtHook) ∧
      (tpInitDwt d).rotationHook = d.rotationHook := by
  unfold tpInitDwt
  rcases hi : d.hw.internal <;> rcases ht : d.hw.tpkbBelow <;> simp

theorem tpInitScroll_fields (d : Dev) :
    (tpInitScroll d).hw = d.hw ∧ (tpInitScroll d).pointer = d.pointer ∧
      (tpInitScroll d).tapHook = d.tapHook ∧ (tpInitScroll d).calibrationHook = d.calibrationHook ∧
      (tpInitScroll d).sendHook = d.sendHook ∧ (tpInitScroll d).accelHook = d.accelHook ∧
      (tpInitScroll d).filter = d.filter ∧ (tpInitScroll d).profileHook = d.profileHook ∧
      (tpInitScroll d).naturalHook = true ∧ (tpInitScroll d).leftHook = d.leftHook ∧
      (tpInitScroll d).clickHook = d.clickHook ∧ (tpInitScroll d).middleHook = d.middleHook ∧
      (tpInitScroll d).scrollHook = some .touchpad ∧ (tpInitScroll d).lockState = d.lockState ∧
      (tpInitScroll d).scrollLock = d.scrollLock ∧ (tpInitScroll d).dwtHook = d.dwtHook ∧
      (tpInitScroll d).rotationHook = d.rotationHook := by
  exact ⟨rfl, rfl, rfl, rfl, rfl, rfl, rfl, rfl, rfl, rfl, rfl, rfl, rfl, rfl, rfl, rfl, rfl⟩

theorem tpInitLeft_fields (d : Dev) :
    (tpInitLeft d).hw = d.hw ∧ (tpInitLeft d).pointer = d.pointer ∧ (tpInitLeft d).tapHook = d.tapHook ∧
      (tpInitLeft d).calibrationHook = d.calibrationHook ∧ (tpInitLeft d).sendHook = d.sendHook ∧
      (tpInitLeft d).accelHook = d.accelHook ∧ (tpInitLeft d).filter = d.filter ∧
      (tpInitLeft d).profileHook = d.profileHook ∧ (tpInitLeft d).naturalHook = d.naturalHook ∧
      (tpInitLeft d).leftHook = (if d.hw.onebutton then d.leftHook else true) ∧
      (tpInitLeft d).clickHook = d.clickHook ∧ (tpInitLeft d).middleHook = d.middleHook ∧
      (tpInitLeft d).scrollHook = d.scrollHook ∧ (tpInitLeft d).lockState = d.lockState ∧
      (tpInitLeft d).scrollLock = d.scrollLock ∧ (tpInitLeft d).dwtHook = d.dwtHook ∧
      (tpInitLeft d).rotationHook = d.rotationHook := by
  unfold tpInitLeft
  rcases ho : d.hw.onebutton <;> simp [initLeftHanded]

theorem tpInitButtons_fields (d : Dev) :
    (tpInitButtons d).hw = d.hw ∧ (tpInitButtons d).pointer = d.pointer ∧
      (tpInitButtons d).tapHook = d.tapHook ∧ (tpInitButtons d).calibrationHook = d.calibrationHook ∧
      (tpInitButtons d).sendHook = d.sendHook ∧ (tpInitButtons d).accelHook = d.accelHook ∧
      (tpInitButtons d).filter = d.filter ∧ (tpInitButtons d).profileHook = d.profileHook ∧
      (tpInitButtons d).naturalHook = d.naturalHook ∧ (tpInitButtons d).leftHook = d.leftHook ∧
      (tpInitButtons d).clickHook = true ∧
      (tpInitButtons d).middleHook = (if d.hw.clickpad then some .clickpad else if d.hw.alps && d.hw.key 0x112 then some .evdev else d.middleHook) ∧
      (tpInitButtons d).scrollHook = d.scrollHook ∧ (tpInitButtons d).lockState = d.lockState ∧
      (tpInitButtons d).scrollLock = d.scrollLock ∧ (tpInitButtons d).dwtHook = d.dwtHook ∧
      (tpInitButtons d).rotationHook = d.rotationHook := by
  simp [tpInitButtons, tpInitMiddle_fields]

theorem initLeft_fields (d : Dev) (p : Prop) [Decidable p] :
    (if p then initLeftHanded d else d).hw = d.hw ∧
      (if p then initLeftHanded d else d).pointer = d.pointer ∧
      (if p then initLeftHanded d else d).tapHook = d.tapHook ∧
      (if p then initLeftHanded d else d).calibrationHook = d.calibrationHook ∧
      (if p then initLeftHanded d else d).sendHook = d.sendHook ∧
      (if p then initLeftHanded d else d).accelHook = d.accelHook ∧
      (if p then initLeftHanded d else d).filter = d.filter ∧
      (if p then initLeftHanded d else d).profileHook = d.profileHook ∧
      (if p then initLeftHanded d else d).naturalHook = d.naturalHook ∧
      (if p then initLeftHanded d else d).leftHook = (if p then true else d.leftHook) ∧
      (if p then initLeftHanded d else d).clickHook = d.clickHook ∧
      (if p then initLeftHanded d else d).middleHook = d.middleHook ∧
      (if p then initLeftHanded d else d).scrollHook = d.scrollHook ∧
      (if p then initLeftHanded d else d).lockState = d.lockState ∧
      (if p then initLeftHanded d else d).scrollLock = d.scrollLock ∧
      (if p then initLeftHanded d else d).dwtHook = d.dwtHook ∧
      (if p then initLeftHanded d else d).rotationHook = d.rotationHook := by
  by_cases h : p <;> simp [h, initLeftHanded, initButtonScroll, initNatural, initCalibration]

theorem initScroll_fields (d : Dev) (p : Prop) [Decidable p] :
    (if p then initButtonScroll d else d).hw = d.hw ∧
      (if p then initButtonScroll d else d).pointer = d.pointer ∧
      (if p then initButtonScroll d else d).tapHook = d.tapHook ∧
      (if p then initButtonScroll d else d).calibrationHook = d.calibrationHook ∧
      (if p then initButtonScroll d else d).sendHook = d.sendHook ∧
      (if p then initButtonScroll d else d).accelHook = d.accelHook ∧
      (if p then initButtonScroll d else d).filter = d.filter ∧
      (if p then initButtonScroll d else d).profileHook = d.profileHook ∧
      (if p then initButtonScroll d else d).naturalHook = d.naturalHook ∧
      (if p then initButtonScroll d else d).leftHook = d.leftHook ∧
      (if p then initButtonScroll d else d).clickHook = d.clickHook ∧
      (if p then initButtonScroll d else d).middleHook = d.middleHook ∧
      (if p then initButtonScroll d else d).scrollHook = (if p then some .button else d.scrollHook) ∧
      (if p then initButtonScroll d else d).lockState = d.lockState ∧
      (if p then initButtonScroll d else d).scrollLock = d.scrollLock ∧
      (if p then initButtonScroll d else d).dwtHook = d.dwtHook ∧
      (if p then initButtonScroll d else d).rotationHook = d.rotationHook := by
  by_cases h : p <;> simp [h, initLeftHanded, initButtonScroll, initNatural, initCalibration]

theorem initNat_fields (d : Dev) (p : Prop) [Decidable p] :
    (if p then initNatural d else d).hw = d.hw ∧ (if p then initNatural d else d).pointer = d.pointer ∧
      (if p then initNatural d else d).tapHook = d.tapHook ∧
      (if p then initNatural d else d).calibrationHook = d.calibrationHook ∧
      (if p then initNatural d else d).sendHook = d.sendHook ∧
      (if p then initNatural d else d).accelHook = d.accelHook ∧
      (if p then initNatural d else d).filter = d.filter ∧
      (if p then initNatural d else d).profileHook = d.profileHook ∧
      (if p then initNatural d else d).naturalHook = (if p then true else d.naturalHook) ∧
      (if p then initNatural d else d).leftHook = d.leftHook ∧
      (if p then initNatural d else d).clickHook = d.clickHook ∧
      (if p then initNatural d else d).middleHook = d.middleHook ∧
      (if p then initNatural d else d).scrollHook = d.scrollHook ∧
      (if p then initNatural d else d).lockState = d.lockState ∧
      (if p then initNatural d else d).scrollLock = d.scrollLock ∧
      (if p then initNatural d else d).dwtHook = d.dwtHook ∧
      (if p then initNatural d else d).rotationHook = d.rotationHook := by
  by_cases h : p <;> simp [h, initLeftHanded, initButtonScroll, initNatural, initCalibration]

theorem initCal_fields (d : Dev) (p : Prop) [Decidable p] :
    (if p then initCalibration d else d).hw = d.hw ∧
      (if p then initCalibration d else d).pointer = d.pointer ∧
      (if p then initCalibration d else d).tapHook = d.tapHook ∧
      (if p then initCalibration d else d).calibrationHook = (if p then true else d.calibrationHook) ∧
      (if p then initCalibration d else d).sendHook = d.sendHook ∧
      (if p then initCalibration d else d).accelHook = d.accelHook ∧
      (if p then initCalibration d else d).filter = d.filter ∧
      (if p then initCalibration d else d).profileHook = d.profileHook ∧
      (if p then initCalibration d else d).naturalHook = d.naturalHook ∧
      (if p then initCalibration d else d).leftHook = d.leftHook ∧
      (if p then initCalibration d else d).clickHook = d.clickHook ∧
      (if p then initCalibration d else d).middleHook = d.middleHook ∧
      (if p then initCalibration d else d).scrollHook = d.scrollHook ∧
      (if p then initCalibration d else d).lockState = d.lockState ∧
      (if p then initCalibration d else d).scrollLock = d.scrollLock ∧
      (if p then initCalibration d else d).dwtHook = d.dwtHook ∧
      (if p then initCalibration d else d).rotationHook = d.rotationHook := by
  by_cases h : p <;> simp [h, initLeftHanded, initButtonScroll, initNatural, initCalibration]

theorem initRot_fields (d : Dev) :
    (initRotation d).hw = d.hw ∧ (initRotation d).pointer = d.pointer ∧
      (initRotation d).tapHook = d.tapHook ∧ (initRotation d).calibrationHook = d.calibrationHook ∧
      (initRotation d).sendHook = d.sendHook ∧ (initRotation d).accelHook = d.accelHook ∧
      (initRotation d).filter = d.filter ∧ (initRotation d).profileHook = d.profileHook ∧
      (initRotation d).naturalHook = d.naturalHook ∧ (initRotation d).leftHook = d.leftHook ∧
      (initRotation d).clickHook = d.clickHook ∧ (initRotation d).middleHook = d.middleHook ∧
      (initRotation d).scrollHook = d.scrollHook ∧ (initRotation d).lockState = d.lockState ∧
      (initRotation d).scrollLock = d.scrollLock ∧ (initRotation d).dwtHook = d.dwtHook ∧
      (initRotation d).rotationHook = (if d.hw.trackball then true else d.rotationHook) := by
  unfold initRotation
  rcases ht : d.hw.trackball <;> simp

theorem configure_inv (hw : Hw) : ∃ d, configure hw = some d ∧ Inv hw d := by
  cases hk : hw.kind with
  | totem =>
    refine ⟨_, by simp only [configure, hk, totemCreate, tabletInitAccel, initAcceleration_new]; rfl, ?_⟩
    constructor <;> simp [initSendEvents, blank, hk, sendHookOf, accels, Filter.new, isTabletKind, profHook, inRange_zero, lefts, middles, scrolls]
  | pad =>
    refine ⟨_, by simp only [configure, hk, padCreate]; rfl, ?_⟩
    cases hr : hw.reversible <;>
    constructor <;> simp [initLeftHanded, blank, hk, hr, sendHookOf, accels, lefts, middles, scrolls]
  | tablet =>
    refine ⟨_, by simp only [configure, hk, tabletCreate, tabletInitAccel, initAcceleration_new]; rfl, ?_⟩
    cases hr : hw.reversible <;> cases hd : hw.direct <;>
    constructor <;>
      simp [initLeftHanded, initCalibration, hr, hd, initSendEvents, blank, hk, sendHookOf, accels, lefts, middles, scrolls, Filter.new, isTabletKind, profHook, inRange_zero]
  | touchpad =>
    refine ⟨_, by simp only [configure, hk, touchpadCreate, tpInitAccel, initAcceleration_new]; rfl, ?_⟩
    constructor <;>
      simp [initTap_fields, tpInitButtons_fields, tpInitDwt_fields, tpInitScroll_fields, tpInitLeft_fields, blank, hk, sendHookOf, accels, lefts, middles, scrolls, Filter.new, isTabletKind, profHook, inRange_zero]
    show ¬(if hw.x230 = true then FilterKind.x230 else FilterKind.touchpad) = FilterKind.tablet
    split <;> simp
  | fallback =>
    obtain ⟨d, hd⟩ : ∃ x, x = { blank hw with pointer := hw.mouseTag || wheelKb hw } := ⟨_, rfl⟩
    obtain ⟨e, he⟩ : ∃ x, x = (if moves hw then { d with filter := some (Filter.new (if hw.trackpoint then .trackpoint else if hw.lowDpi then .lowDpi else .mouse)), accelHook := true, profileHook := .evdev } else d) := ⟨_, rfl⟩
    refine ⟨fallbackCreate e hw.mouseTag (hw.mouseTag && (hw.rel REL_X || hw.rel REL_Y)) (hw.mouseTag || wheelKb hw), ?_, ?_⟩
    · simp only [configure, hk]
      have hm : (hw.mouseTag || hw.keyboardTag && (hw.rel REL_WHEEL || hw.rel REL_HWHEEL)) = (hw.mouseTag || wheelKb hw) := rfl
      rw [hm, ← hd]
      have hp : ((hw.mouseTag || wheelKb hw) && hw.rel REL_X && hw.rel REL_Y) = moves hw := rfl
      rw [hp]
      have ht : d.hw = hw := by rw [hd]; rfl
      have hh : d.accelHook = false := by rw [hd]; rfl
      have hi : (if moves hw = true then initAccel d PROFILE_ADAPTIVE else some d) = some e := by
        rw [he]
        by_cases h : moves hw = true
        · rw [if_pos h, if_pos h]
          simp only [initAccel, initAcceleration_new, ht, hh]
          simp
        · rw [if_neg h, if_neg h]
      rw [hi]
    · have e1 : e.hw = hw ∧ e.pointer = (hw.mouseTag || wheelKb hw) ∧ e.tapHook = false ∧ e.accelHook = moves hw ∧ e.clickHook = false ∧ e.dwtHook = false ∧ e.rotationHook = false ∧ e.scrollHook = none ∧ e.leftHook = false ∧ e.naturalHook = false ∧ e.middleHook = none ∧ e.lockState = false ∧ e.scrollLock = false := by
        rw [he, hd]
        by_cases h : moves hw = true
        · simp [h, blank]
        · simp [h, blank]
      obtain ⟨e1, e2, e3, e4, e5, e6, e7, e8, e9, e10, e11, e12, e13⟩ := e1
      have ef : moves hw = true → e.profileHook = .evdev ∧ ∃ f, e.filter = some f ∧ inRange f.speed = true ∧ f.kind ≠ .tablet := by
        intro h
        rw [he, if_pos h]
        refine ⟨rfl, _, rfl, inRange_zero, ?_⟩
        simp only [Filter.new]
        split
        · simp
        · split <;> simp
      constructor <;>
        simp [fallbackCreate, initMid_fields, initLeft_fields, initScroll_fields, initNat_fields, initRot_fields, initSendEvents, initCalibration, e1, e2, e3, e4, e5, e6, e7, e8, e9, e10, e11, e12, e13, hk]
      · rfl
      · simp [accels, hk]
      · intro h
        obtain ⟨_, f, hf, hr, ht⟩ := ef (by simpa [accels, hk] using h)
        exact ⟨f, hf, hr, by simp [isTabletKind, ht], by simp [isTabletKind]⟩
      · intro h
        exact (ef (by simpa [accels, hk] using h)).1
      · simp [lefts, hk]
      · simp [middles, hk]
      · simp [scrolls, hk]

theorem create_inv (hw : Hw) : ∃ d, create hw = some d ∧ Inv hw d := by
  obtain ⟨d, h, hi⟩ := configure_inv hw
  exact ⟨readCalibration d, by simp [create, h], readCalibration_inv hi⟩

end Libinput.Config
