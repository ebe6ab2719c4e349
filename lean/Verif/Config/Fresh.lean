import Verif.Config.Sets
/-
The values of a new device.
-/
namespace Libinput.Config
open Spec

theorem initTap_values (d : Dev) :
    (initTap d).hw = d.hw ∧
      (initTap d).tapEnabled = (!d.hw.key 0x110) ∧
      (initTap d).tapMap = 0 ∧
      (initTap d).tapDrag = true ∧
      (initTap d).tapDragLock = false ∧
      (initTap d).userMatrix = d.userMatrix ∧
      (initTap d).defaultMatrix = d.defaultMatrix ∧
      (initTap d).sendMode = d.sendMode ∧
      (initTap d).natural = d.natural ∧
      (initTap d).leftWant = d.leftWant ∧
      (initTap d).clickMethod = d.clickMethod ∧
      (initTap d).middleWant = d.middleWant ∧
      (initTap d).middleDefault = d.middleDefault ∧
      (initTap d).tpScrollMethod = d.tpScrollMethod ∧
      (initTap d).scrollWantMethod = d.scrollWantMethod ∧
      (initTap d).scrollWantButton = d.scrollWantButton ∧
      (initTap d).scrollWantLock = d.scrollWantLock ∧
      (initTap d).lockState = d.lockState ∧
      (initTap d).dwt = d.dwt ∧
      (initTap d).angle = d.angle ∧
      (initTap d).filter = d.filter := by
  exact ⟨rfl, rfl, rfl, rfl, rfl, rfl, rfl, rfl, rfl, rfl, rfl, rfl, rfl, rfl, rfl, rfl, rfl, rfl, rfl, rfl, rfl⟩

theorem initMiddle_values (d : Dev) (a b : Bool) :
    (initMiddle d a b).hw = d.hw ∧
      (initMiddle d a b).tapEnabled = d.tapEnabled ∧
      (initMiddle d a b).tapMap = d.tapMap ∧
      (initMiddle d a b).tapDrag = d.tapDrag ∧
      (initMiddle d a b).tapDragLock = d.tapDragLock ∧
      (initMiddle d a b).userMatrix = d.userMatrix ∧
      (initMiddle d a b).defaultMatrix = d.defaultMatrix ∧
      (initMiddle d a b).sendMode = d.sendMode ∧
      (initMiddle d a b).natural = d.natural ∧
      (initMiddle d a b).leftWant = d.leftWant ∧
      (initMiddle d a b).clickMethod = d.clickMethod ∧
      (initMiddle d a b).middleWant = a ∧
      (initMiddle d a b).middleDefault = a ∧
      (initMiddle d a b).tpScrollMethod = d.tpScrollMethod ∧
      (initMiddle d a b).scrollWantMethod = d.scrollWantMethod ∧
      (initMiddle d a b).scrollWantButton = d.scrollWantButton ∧
      (initMiddle d a b).scrollWantLock = d.scrollWantLock ∧
      (initMiddle d a b).lockState = d.lockState ∧
      (initMiddle d a b).dwt = d.dwt ∧
      (initMiddle d a b).angle = d.angle ∧
      (initMiddle d a b).filter = d.filter := by
  cases b <;>  exact ⟨rfl, rfl, rfl, rfl, rfl, rfl, rfl, rfl, rfl, rfl, rfl, rfl, rfl, rfl, rfl, rfl, rfl, rfl, rfl, rfl, rfl⟩

theorem initMid_values (d : Dev) (p : Prop) [Decidable p] (a b : Bool) :
    (if p then initMiddle d a b else d).hw = d.hw ∧
      (if p then initMiddle d a b else d).tapEnabled = d.tapEnabled ∧
      (if p then initMiddle d a b else d).tapMap = d.tapMap ∧
      (if p then initMiddle d a b else d).tapDrag = d.tapDrag ∧
      (if p then initMiddle d a b else d).tapDragLock = d.tapDragLock ∧
      (if p then initMiddle d a b else d).userMatrix = d.userMatrix ∧
      (if p then initMiddle d a b else d).defaultMatrix = d.defaultMatrix ∧
      (if p then initMiddle d a b else d).sendMode = d.sendMode ∧
      (if p then initMiddle d a b else d).natural = d.natural ∧
      (if p then initMiddle d a b else d).leftWant = d.leftWant ∧
      (if p then initMiddle d a b else d).clickMethod = d.clickMethod ∧
      (if p then initMiddle d a b else d).middleWant = (if p then a else d.middleWant) ∧
      (if p then initMiddle d a b else d).middleDefault = (if p then a else d.middleDefault) ∧
      (if p then initMiddle d a b else d).tpScrollMethod = d.tpScrollMethod ∧
      (if p then initMiddle d a b else d).scrollWantMethod = d.scrollWantMethod ∧
      (if p then initMiddle d a b else d).scrollWantButton = d.scrollWantButton ∧
      (if p then initMiddle d a b else d).scrollWantLock = d.scrollWantLock ∧
      (if p then initMiddle d a b else d).lockState = d.lockState ∧
      (if p then initMiddle d a b else d).dwt = d.dwt ∧
      (if p then initMiddle d a b else d).angle = d.angle ∧
      (if p then initMiddle d a b else d).filter = d.filter := by
  by_cases h : p <;> simp [h, initMiddle_values]

theorem initLeft_values (d : Dev) (p : Prop) [Decidable p] :
    (if p then initLeftHanded d else d).hw = d.hw ∧
      (if p then initLeftHanded d else d).tapEnabled = d.tapEnabled ∧
      (if p then initLeftHanded d else d).tapMap = d.tapMap ∧
      (if p then initLeftHanded d else d).tapDrag = d.tapDrag ∧
      (if p then initLeftHanded d else d).tapDragLock = d.tapDragLock ∧
      (if p then initLeftHanded d else d).userMatrix = d.userMatrix ∧
      (if p then initLeftHanded d else d).defaultMatrix = d.defaultMatrix ∧
      (if p then initLeftHanded d else d).sendMode = d.sendMode ∧
      (if p then initLeftHanded d else d).natural = d.natural ∧
      (if p then initLeftHanded d else d).leftWant = (if p then false else d.leftWant) ∧
      (if p then initLeftHanded d else d).clickMethod = d.clickMethod ∧
      (if p then initLeftHanded d else d).middleWant = d.middleWant ∧
      (if p then initLeftHanded d else d).middleDefault = d.middleDefault ∧
      (if p then initLeftHanded d else d).tpScrollMethod = d.tpScrollMethod ∧
      (if p then initLeftHanded d else d).scrollWantMethod = d.scrollWantMethod ∧
      (if p then initLeftHanded d else d).scrollWantButton = d.scrollWantButton ∧
      (if p then initLeftHanded d else d).scrollWantLock = d.scrollWantLock ∧
      (if p then initLeftHanded d else d).lockState = d.lockState ∧
      (if p then initLeftHanded d else d).dwt = d.dwt ∧
      (if p then initLeftHanded d else d).angle = d.angle ∧
      (if p then initLeftHanded d else d).filter = d.filter := by
  by_cases h : p <;> simp [h, initLeftHanded]

theorem initScroll_values (d : Dev) (p : Prop) [Decidable p] :
    (if p then initButtonScroll d else d).hw = d.hw ∧
      (if p then initButtonScroll d else d).tapEnabled = d.tapEnabled ∧
      (if p then initButtonScroll d else d).tapMap = d.tapMap ∧
      (if p then initButtonScroll d else d).tapDrag = d.tapDrag ∧
      (if p then initButtonScroll d else d).tapDragLock = d.tapDragLock ∧
      (if p then initButtonScroll d else d).userMatrix = d.userMatrix ∧
      (if p then initButtonScroll d else d).defaultMatrix = d.defaultMatrix ∧
      (if p then initButtonScroll d else d).sendMode = d.sendMode ∧
      (if p then initButtonScroll d else d).natural = d.natural ∧
      (if p then initButtonScroll d else d).leftWant = d.leftWant ∧
      (if p then initButtonScroll d else d).clickMethod = d.clickMethod ∧
      (if p then initButtonScroll d else d).middleWant = d.middleWant ∧
      (if p then initButtonScroll d else d).middleDefault = d.middleDefault ∧
      (if p then initButtonScroll d else d).tpScrollMethod = d.tpScrollMethod ∧
      (if p then initButtonScroll d else d).scrollWantMethod = (if p then scrollDefaultMethod d.hw else d.scrollWantMethod) ∧
      (if p then initButtonScroll d else d).scrollWantButton = (if p then scrollDefaultButton d.hw else d.scrollWantButton) ∧
      (if p then initButtonScroll d else d).scrollWantLock = d.scrollWantLock ∧
      (if p then initButtonScroll d else d).lockState = d.lockState ∧
      (if p then initButtonScroll d else d).dwt = d.dwt ∧
      (if p then initButtonScroll d else d).angle = d.angle ∧
      (if p then initButtonScroll d else d).filter = d.filter := by
  by_cases h : p <;> simp [h, initButtonScroll]

theorem initNat_values (d : Dev) (p : Prop) [Decidable p] :
    (if p then initNatural d else d).hw = d.hw ∧
      (if p then initNatural d else d).tapEnabled = d.tapEnabled ∧
      (if p then initNatural d else d).tapMap = d.tapMap ∧
      (if p then initNatural d else d).tapDrag = d.tapDrag ∧
      (if p then initNatural d else d).tapDragLock = d.tapDragLock ∧
      (if p then initNatural d else d).userMatrix = d.userMatrix ∧
      (if p then initNatural d else d).defaultMatrix = d.defaultMatrix ∧
      (if p then initNatural d else d).sendMode = d.sendMode ∧
      (if p then initNatural d else d).natural = (if p then false else d.natural) ∧
      (if p then initNatural d else d).leftWant = d.leftWant ∧
      (if p then initNatural d else d).clickMethod = d.clickMethod ∧
      (if p then initNatural d else d).middleWant = d.middleWant ∧
      (if p then initNatural d else d).middleDefault = d.middleDefault ∧
      (if p then initNatural d else d).tpScrollMethod = d.tpScrollMethod ∧
      (if p then initNatural d else d).scrollWantMethod = d.scrollWantMethod ∧
      (if p then initNatural d else d).scrollWantButton = d.scrollWantButton ∧
      (if p then initNatural d else d).scrollWantLock = d.scrollWantLock ∧
      (if p then initNatural d else d).lockState = d.lockState ∧
      (if p then initNatural d else d).dwt = d.dwt ∧
      (if p then initNatural d else d).angle = d.angle ∧
      (if p then initNatural d else d).filter = d.filter := by
  by_cases h : p <;> simp [h, initNatural]

theorem initCal_values (d : Dev) (p : Prop) [Decidable p] :
    (if p then initCalibration d else d).hw = d.hw ∧
      (if p then initCalibration d else d).tapEnabled = d.tapEnabled ∧
      (if p then initCalibration d else d).tapMap = d.tapMap ∧
      (if p then initCalibration d else d).tapDrag = d.tapDrag ∧
      (if p then initCalibration d else d).tapDragLock = d.tapDragLock ∧
      (if p then initCalibration d else d).userMatrix = d.userMatrix ∧
      (if p then initCalibration d else d).defaultMatrix = d.defaultMatrix ∧
      (if p then initCalibration d else d).sendMode = d.sendMode ∧
      (if p then initCalibration d else d).natural = d.natural ∧
      (if p then initCalibration d else d).leftWant = d.leftWant ∧
      (if p then initCalibration d else d).clickMethod = d.clickMethod ∧
      (if p then initCalibration d else d).middleWant = d.middleWant ∧
      (if p then initCalibration d else d).middleDefault = d.middleDefault ∧
      (if p then initCalibration d else d).tpScrollMethod = d.tpScrollMethod ∧
      (if p then initCalibration d else d).scrollWantMethod = d.scrollWantMethod ∧
      (if p then initCalibration d else d).scrollWantButton = d.scrollWantButton ∧
      (if p then initCalibration d else d).scrollWantLock = d.scrollWantLock ∧
      (if p then initCalibration d else d).lockState = d.lockState ∧
      (if p then initCalibration d else d).dwt = d.dwt ∧
      (if p then initCalibration d else d).angle = d.angle ∧
      (if p then initCalibration d else d).filter = d.filter := by
  by_cases h : p <;> simp [h, initCalibration]

theorem initRot_values (d : Dev) :
    (initRotation d).hw = d.hw ∧
      (initRotation d).tapEnabled = d.tapEnabled ∧
      (initRotation d).tapMap = d.tapMap ∧
      (initRotation d).tapDrag = d.tapDrag ∧
      (initRotation d).tapDragLock = d.tapDragLock ∧
      (initRotation d).userMatrix = d.userMatrix ∧
      (initRotation d).defaultMatrix = d.defaultMatrix ∧
      (initRotation d).sendMode = d.sendMode ∧
      (initRotation d).natural = d.natural ∧
      (initRotation d).leftWant = d.leftWant ∧
      (initRotation d).clickMethod = d.clickMethod ∧
      (initRotation d).middleWant = d.middleWant ∧
      (initRotation d).middleDefault = d.middleDefault ∧
      (initRotation d).tpScrollMethod = d.tpScrollMethod ∧
      (initRotation d).scrollWantMethod = d.scrollWantMethod ∧
      (initRotation d).scrollWantButton = d.scrollWantButton ∧
      (initRotation d).scrollWantLock = d.scrollWantLock ∧
      (initRotation d).lockState = d.lockState ∧
      (initRotation d).dwt = d.dwt ∧
      (initRotation d).angle = d.angle ∧
      (initRotation d).filter = d.filter := by
  unfold initRotation
  cases ht : d.hw.trackball <;> simp

theorem tpInitDwt_values (d : Dev) :
    (tpInitDwt d).hw = d.hw ∧
      (tpInitDwt d).tapEnabled = d.tapEnabled ∧
      (tpInitDwt d).tapMap = d.tapMap ∧
      (tpInitDwt d).tapDrag = d.tapDrag ∧
      (tpInitDwt d).tapDragLock = d.tapDragLock ∧
      (tpInitDwt d).userMatrix = d.userMatrix ∧
      (tpInitDwt d).defaultMatrix = d.defaultMatrix ∧
      (tpInitDwt d).sendMode = d.sendMode ∧
      (tpInitDwt d).natural = d.natural ∧
      (tpInitDwt d).leftWant = d.leftWant ∧
      (tpInitDwt d).clickMethod = d.clickMethod ∧
      (tpInitDwt d).middleWant = d.middleWant ∧
      (tpInitDwt d).middleDefault = d.middleDefault ∧
      (tpInitDwt d).tpScrollMethod = d.tpScrollMethod ∧
      (tpInitDwt d).scrollWantMethod = d.scrollWantMethod ∧
      (tpInitDwt d).scrollWantButton = d.scrollWantButton ∧
      (tpInitDwt d).scrollWantLock = d.scrollWantLock ∧
      (tpInitDwt d).lockState = d.lockState ∧
      (tpInitDwt d).dwt = (if d.hw.internal || d.hw.tpkbBelow then true else d.dwt) ∧
      (tpInitDwt d).angle = d.angle ∧
      (tpInitDwt d).filter = d.filter := by
  unfold tpInitDwt
  cases hi : d.hw.internal <;> cases ht : d.hw.tpkbBelow <;> simp

theorem tpInitScroll_values (d : Dev) :
    (tpInitScroll d).hw = d.hw ∧
      (tpInitScroll d).tapEnabled = d.tapEnabled ∧
      (tpInitScroll d).tapMap = d.tapMap ∧
      (tpInitScroll d).tapDrag = d.tapDrag ∧
      (tpInitScroll d).tapDragLock = d.tapDragLock ∧
      (tpInitScroll d).userMatrix = d.userMatrix ∧
      (tpInitScroll d).defaultMatrix = d.defaultMatrix ∧
      (tpInitScroll d).sendMode = d.sendMode ∧
      (tpInitScroll d).natural = false ∧
      (tpInitScroll d).leftWant = d.leftWant ∧
      (tpInitScroll d).clickMethod = d.clickMethod ∧
      (tpInitScroll d).middleWant = d.middleWant ∧
      (tpInitScroll d).middleDefault = d.middleDefault ∧
      (tpInitScroll d).tpScrollMethod = tpScrollDefault d.hw ∧
      (tpInitScroll d).scrollWantMethod = d.scrollWantMethod ∧
      (tpInitScroll d).scrollWantButton = d.scrollWantButton ∧
      (tpInitScroll d).scrollWantLock = d.scrollWantLock ∧
      (tpInitScroll d).lockState = d.lockState ∧
      (tpInitScroll d).dwt = d.dwt ∧
      (tpInitScroll d).angle = d.angle ∧
      (tpInitScroll d).filter = d.filter := by
  exact ⟨rfl, rfl, rfl, rfl, rfl, rfl, rfl, rfl, rfl, rfl, rfl, rfl, rfl, rfl, rfl, rfl, rfl, rfl, rfl, rfl, rfl⟩

theorem tpInitLeft_values (d : Dev) :
    (tpInitLeft d).hw = d.hw ∧
      (tpInitLeft d).tapEnabled = d.tapEnabled ∧
      (tpInitLeft d).tapMap = d.tapMap ∧
      (tpInitLeft d).tapDrag = d.tapDrag ∧
      (tpInitLeft d).tapDragLock = d.tapDragLock ∧
      (tpInitLeft d).userMatrix = d.userMatrix ∧
      (tpInitLeft d).defaultMatrix = d.defaultMatrix ∧
      (tpInitLeft d).sendMode = d.sendMode ∧
      (tpInitLeft d).natural = d.natural ∧
      (tpInitLeft d).leftWant = (if d.hw.onebutton then d.leftWant else false) ∧
      (tpInitLeft d).clickMethod = d.clickMethod ∧
      (tpInitLeft d).middleWant = d.middleWant ∧
      (tpInitLeft d).middleDefault = d.middleDefault ∧
      (tpInitLeft d).tpScrollMethod = d.tpScrollMethod ∧
      (tpInitLeft d).scrollWantMethod = d.scrollWantMethod ∧
      (tpInitLeft d).scrollWantButton = d.scrollWantButton ∧
      (tpInitLeft d).scrollWantLock = d.scrollWantLock ∧
      (tpInitLeft d).lockState = d.lockState ∧
      (tpInitLeft d).dwt = d.dwt ∧
      (tpInitLeft d).angle = d.angle ∧
      (tpInitLeft d).filter = d.filter := by
  unfold tpInitLeft
  cases ho : d.hw.onebutton <;> simp [initLeftHanded]

theorem tpInitMiddle_values (d : Dev) :
    (tpInitMiddle d).hw = d.hw ∧
      (tpInitMiddle d).tapEnabled = d.tapEnabled ∧
      (tpInitMiddle d).tapMap = d.tapMap ∧
      (tpInitMiddle d).tapDrag = d.tapDrag ∧
      (tpInitMiddle d).tapDragLock = d.tapDragLock ∧
      (tpInitMiddle d).userMatrix = d.userMatrix ∧
      (tpInitMiddle d).defaultMatrix = d.defaultMatrix ∧
      (tpInitMiddle d).sendMode = d.sendMode ∧
      (tpInitMiddle d).natural = d.natural ∧
      (tpInitMiddle d).leftWant = d.leftWant ∧
      (tpInitMiddle d).clickMethod = d.clickMethod ∧
      (tpInitMiddle d).middleWant = (if d.hw.clickpad then false else if !d.hw.key 0x112 || d.hw.alps then true else d.middleWant) ∧
      (tpInitMiddle d).middleDefault = (if d.hw.clickpad then false else if !d.hw.key 0x112 || d.hw.alps then true else d.middleDefault) ∧
      (tpInitMiddle d).tpScrollMethod = d.tpScrollMethod ∧
      (tpInitMiddle d).scrollWantMethod = d.scrollWantMethod ∧
      (tpInitMiddle d).scrollWantButton = d.scrollWantButton ∧
      (tpInitMiddle d).scrollWantLock = d.scrollWantLock ∧
      (tpInitMiddle d).lockState = d.lockState ∧
      (tpInitMiddle d).dwt = d.dwt ∧
      (tpInitMiddle d).angle = d.angle ∧
      (tpInitMiddle d).filter = d.filter := by
  unfold tpInitMiddle
  cases hc : d.hw.clickpad <;> cases hm : d.hw.key 0x112 <;> cases ha : d.hw.alps <;> simp [initMiddle_values]

theorem tpInitButtons_values (d : Dev) :
    (tpInitButtons d).hw = d.hw ∧
      (tpInitButtons d).tapEnabled = d.tapEnabled ∧
      (tpInitButtons d).tapMap = d.tapMap ∧
      (tpInitButtons d).tapDrag = d.tapDrag ∧
      (tpInitButtons d).tapDragLock = d.tapDragLock ∧
      (tpInitButtons d).userMatrix = d.userMatrix ∧
      (tpInitButtons d).defaultMatrix = d.defaultMatrix ∧
      (tpInitButtons d).sendMode = d.sendMode ∧
      (tpInitButtons d).natural = d.natural ∧
      (tpInitButtons d).leftWant = d.leftWant ∧
      (tpInitButtons d).clickMethod = clickDefault d.hw ∧
      (tpInitButtons d).middleWant = (if d.hw.clickpad then false else if !d.hw.key 0x112 || d.hw.alps then true else d.middleWant) ∧
      (tpInitButtons d).middleDefault = (if d.hw.clickpad then false else if !d.hw.key 0x112 || d.hw.alps then true else d.middleDefault) ∧
      (tpInitButtons d).tpScrollMethod = d.tpScrollMethod ∧
      (tpInitButtons d).scrollWantMethod = d.scrollWantMethod ∧
      (tpInitButtons d).scrollWantButton = d.scrollWantButton ∧
      (tpInitButtons d).scrollWantLock = d.scrollWantLock ∧
      (tpInitButtons d).lockState = d.lockState ∧
      (tpInitButtons d).dwt = d.dwt ∧
      (tpInitButtons d).angle = d.angle ∧
      (tpInitButtons d).filter = d.filter := by
  simp [tpInitButtons, tpInitMiddle_values]

/-- The values of a device before the calibration is read. -/
structure Fresh (hw : Hw) (d : Dev) : Prop where
  tapEnabled : hw.kind = .touchpad → d.tapEnabled = !hw.key 0x110
  tapMap : d.tapMap = 0
  tapDrag : hw.kind = .touchpad → d.tapDrag = true
  tapDragLock : d.tapDragLock = false
  userMatrix : d.userMatrix = Matrix.identity
  defaultMatrix : d.defaultMatrix = Matrix.identity
  sendMode : d.sendMode = 0
  natural : d.natural = false
  leftWant : d.leftWant = false
  clickMethod : hw.kind = .touchpad → d.clickMethod = clickDefault hw
  middleWant : middles hw ≠ none →
    d.middleWant = (decide (hw.kind = .touchpad) && !hw.clickpad && hw.alps && hw.key 0x112)
  middleDefault : middles hw ≠ none →
    d.middleDefault = (decide (hw.kind = .touchpad) && !hw.clickpad && hw.alps && hw.key 0x112)
  tpScrollMethod : hw.kind = .touchpad → d.tpScrollMethod = tpScrollDefault hw
  scrollWantMethod : scrolls hw = some .button → d.scrollWantMethod = scrollDefaultMethod hw
  scrollWantButton : scrolls hw = some .button → d.scrollWantButton = scrollDefaultButton hw
  scrollWantLock : d.scrollWantLock = false
  lockState : d.lockState = false
  dwt : hw.kind = .touchpad → (hw.internal || hw.tpkbBelow) = true → d.dwt = true
  angle : d.angle = 0
  speed : ∀ f, d.filter = some f → f.speed = .fin 0
  type : profHook hw.kind ≠ .none → ∀ f, d.filter = some f → f.kind.type = 2

theorem configure_fresh (hw : Hw) : ∃ d, configure hw = some d ∧ Fresh hw d := by
  cases hk : hw.kind with
  | totem =>
    refine ⟨_, by simp only [configure, hk, totemCreate, tabletInitAccel, initAcceleration_new]; rfl, ?_⟩
    constructor <;> simp [initSendEvents, blank, hk, Filter.new, profHook, middles, scrolls]
  | pad =>
    refine ⟨_, by simp only [configure, hk, padCreate]; rfl, ?_⟩
    cases hr : hw.reversible <;>
    constructor <;> simp [initLeftHanded, blank, hk, hr, middles, scrolls]
  | tablet =>
    refine ⟨_, by simp only [configure, hk, tabletCreate, tabletInitAccel, initAcceleration_new]; rfl, ?_⟩
    cases hr : hw.reversible <;> cases hd : hw.direct <;>
    constructor <;>
      simp [initLeftHanded, initCalibration, hr, hd, initSendEvents, blank, hk, middles, scrolls, Filter.new, profHook]
  | touchpad =>
    refine ⟨_, by simp only [configure, hk, touchpadCreate, tpInitAccel, initAcceleration_new]; rfl, ?_⟩
    constructor <;>
      simp [initTap_values, tpInitButtons_values, tpInitDwt_values, tpInitScroll_values, tpInitLeft_values, blank, hk, middles, scrolls, Filter.new, profHook]
    · cases hw.clickpad <;> cases hw.alps <;> cases hw.key 274 <;> simp
    · cases hw.clickpad <;> cases hw.alps <;> cases hw.key 274 <;> simp
    · show (if hw.x230 = true then FilterKind.x230 else FilterKind.touchpad).type = 2
      split <;> rfl
  | fallback =>
    obtain ⟨d, hd⟩ : ∃ x, x = { blank hw with pointer := hw.mouseTag || wheelKb hw } := ⟨_, rfl⟩
    obtain ⟨e, he⟩ : ∃ x, x = (if moves hw then { d with filter := some (Filter.new (if hw.trackpoint then .trackpoint else if hw.lowDpi then .lowDpi else .mouse)), accelHook := true, profileHook := .evdev } else d) := ⟨_, rfl⟩
    refine ⟨fallbackCreate e hw.mouseTag (hw.mouseTag && (hw.rel REL_X || hw.rel REL_Y)) (hw.mouseTag || wheelKb hw), ?_, ?_⟩
    · simp only [configure, hk]
      have hm : (hw.mouseTag || hw.keyboardTag && (hw.rel REL_WHEEL || hw.rel REL_HWHEEL)) = (hw.mouseTag || wheelKb hw) := rfl
      rw [hm, ← hd]
      have hp : ((hw.mouseTag || wheelKb hw) && hw.rel REL_X && hw.rel REL_Y) = moves hw := rfl
      rw [hp]
      have ht : d.hw = hw := by rw [hd]; rfl
      have hh : d.accelHook = false := by rw [hd]; rfl
      have hi : (if moves hw = true then initAccel d PROFILE_ADAPTIVE else some d) = some e := by
        rw [he]
        by_cases h : moves hw = true
        · rw [if_pos h, if_pos h]
          simp only [initAccel, initAcceleration_new, ht, hh]
          simp
        · rw [if_neg h, if_neg h]
      rw [hi]
    · have e1 : e.hw = hw ∧ e.tapMap = 0 ∧ e.tapDragLock = false ∧ e.userMatrix = Matrix.identity ∧ e.defaultMatrix = Matrix.identity ∧ e.sendMode = 0 ∧ e.natural = false ∧ e.leftWant = false ∧ e.scrollWantLock = false ∧ e.lockState = false ∧ e.angle = 0 := by
        rw [he, hd]
        by_cases h : moves hw = true
        · simp [h, blank]
        · simp [h, blank]
      have ef : ∀ f, e.filter = some f → f.speed = .fin 0 ∧ f.kind.type = 2 := by
        intro f hf
        rw [he] at hf
        by_cases h : moves hw = true
        · rw [if_pos h] at hf
          cases hf
          refine ⟨rfl, ?_⟩
          simp only [Filter.new]
          split
          · rfl
          · split <;> rfl
        · rw [if_neg h, hd] at hf
          simp [blank] at hf
      obtain ⟨e1, e2, e3, e4, e5, e6, e7, e8, e9, e10, e11⟩ := e1
      constructor <;>
        simp [fallbackCreate, initMid_values, initLeft_values, initScroll_values, initNat_values, initRot_values, initMid_fields, initLeft_fields, initScroll_fields, initNat_fields, initRot_fields, initSendEvents, initCalibration, e1, e2, e3, e4, e5, e6, e7, e8, e9, e10, e11, hk]
      · intro h
        simp [middles, hk] at h
        simp [h]
      · intro h
        simp [middles, hk] at h
        simp [h]
      · intro h h'
        have := scrolls_button.1 h
        obtain ⟨_, hm, hr⟩ := this
        have := h' hm
        rcases hr with hr | hr <;> simp_all
      · intro h h'
        have := scrolls_button.1 h
        obtain ⟨_, hm, hr⟩ := this
        have := h' hm
        rcases hr with hr | hr <;> simp_all
      · exact fun f hf => (ef f hf).1
      · exact fun _ f hf => (ef f hf).2

theorem foundButton (hw : Hw) : scrollDefaultButton hw =
    (if hw.key 0x112 then 0x112
      else if hw.key 0x113 then 0x113
      else if hw.key 0x114 then 0x114
      else if hw.key 0x115 then 0x115
      else if hw.key 0x116 then 0x116
      else if hw.key 0x117 then 0x117
      else if hw.key 0x111 then 0x111
      else 0) := by
  unfold scrollDefaultButton
  simp only [List.find?]
  cases hw.key 0x112 <;> cases hw.key 0x113 <;> cases hw.key 0x114 <;> cases hw.key 0x115 <;> cases hw.key 0x116 <;> cases hw.key 0x117 <;> cases hw.key 0x111 <;> rfl

theorem tpDefault_eq (hw : Hw) : tpScrollDefault hw = if hw.ntouches ≥ 2 ∧ ¬ hw.noTwoFinger then 1 else 2 := by
  unfold tpScrollDefault tpScrollMethods
  by_cases hq : hw.noTwoFinger = true
  · simp only [hq]; simp [hasBit]
  · by_cases hn : hw.ntouches ≥ 2
    · simp only [hq, hn]; rfl
    · simp only [hq, hn]; rfl

theorem tapped (hw : Hw) (d : Dev) (h : Inv hw d) : tapFingerCount d = 0 ↔ ¬ offers hw .tapEnabled :=
  tapFingerCount_zero h

/-- A new device has the values the documentation says. -/
theorem create_values (hw : Hw) : ∃ d, create hw = some d ∧ Inv hw d ∧ d.scrollWantLock = false ∧
    d.lockState = false ∧ (∀ s, get d s = some (atFirst hw s)) ∧
    (∀ s, getDefault d s = some (atFirst hw s)) := by
  obtain ⟨d0, hc, hi⟩ := configure_inv hw
  obtain ⟨d0', hc', hf⟩ := configure_fresh hw
  rw [hc] at hc'
  cases hc'
  have h := readCalibration_inv hi
  obtain ⟨d, hd⟩ : ∃ x, x = readCalibration d0 := ⟨_, rfl⟩
  rw [← hd] at h
  have fr : d.tapEnabled = d0.tapEnabled ∧ d.tapMap = d0.tapMap ∧ d.tapDrag = d0.tapDrag ∧
      d.tapDragLock = d0.tapDragLock ∧ d.sendMode = d0.sendMode ∧ d.natural = d0.natural ∧
      d.leftWant = d0.leftWant ∧ d.clickMethod = d0.clickMethod ∧ d.middleWant = d0.middleWant ∧
      d.middleDefault = d0.middleDefault ∧ d.tpScrollMethod = d0.tpScrollMethod ∧
      d.scrollWantMethod = d0.scrollWantMethod ∧ d.scrollWantButton = d0.scrollWantButton ∧
      d.scrollWantLock = d0.scrollWantLock ∧ d.lockState = d0.lockState ∧ d.dwt = d0.dwt ∧ d.angle = d0.angle ∧
      d.filter = d0.filter := by
    rw [hd]
    unfold readCalibration
    split
    · simp
    · split <;> simp [calibrate]
  have fm : hw.absXY = true → d.userMatrix = (match hw.udevMatrix with | none => Matrix.identity | some m => Matrix.ofSix m) ∧
      d.defaultMatrix = (match hw.udevMatrix with | none => Matrix.identity | some m => Matrix.ofSix m) := by
    intro hx
    rw [hd]
    unfold readCalibration
    rw [hi.same]
    cases hu : hw.udevMatrix with
    | none => exact ⟨hf.userMatrix, hf.defaultMatrix⟩
    | some m => simp only [hx, if_true]; exact ⟨rfl, rfl⟩
  obtain ⟨f1, f2, f3, f4, f5, f6, f7, f8, f9, f10, f11, f12, f13, f14, f15, f16, f17, f18⟩ := fr
  have htap := tapped hw d h
  have hmx := hasMatrix_iff h
  have hmid := middle_iff h
  have hav : accelAvailable d = accels hw := h.accel
  refine ⟨d, by simp [create, hc, hd], h, by rw [f14, hf.scrollWantLock], by rw [f15, hf.lockState], ?_, ?_⟩
  · intro s
    cases s
    case tapEnabled =>
      simp only [get, atFirst]
      by_cases ho : offers hw .tapEnabled
      · rw [if_neg (fun e => htap.1 e ho), f1, hf.tapEnabled ho.1]
        cases hk : hw.key 0x110 <;> simp [bit, ho]
      · rw [if_pos (htap.2 ho), if_neg (fun e => ho e.1)]
    case tapMap => simp only [get, atFirst, f2, hf.tapMap]; split <;> rfl
    case tapDrag =>
      simp only [get, atFirst]
      by_cases ho : offers hw .tapEnabled
      · rw [if_neg (fun e => htap.1 e ho), f3, hf.tapDrag ho.1, if_pos (show offers hw .tapDrag from ho)]; rfl
      · rw [if_pos (htap.2 ho), if_neg (show ¬ offers hw .tapDrag from ho)]
    case tapDragLock => simp only [get, atFirst, f4, hf.tapDragLock]; split <;> rfl
    case calibration =>
      simp only [get, atFirst]
      by_cases ho : offers hw .calibration
      · rw [if_pos (hmx.2 ho), if_pos ho]
        obtain ⟨g1, g2⟩ := fm ho.1
        rw [g1]
        cases hu : hw.udevMatrix with
        | none => rfl
        | some m => simp only [toSix_ofSix, isIdentity_ofSix]
      · rw [if_neg (fun e => ho (hmx.1 e)), if_neg ho]
    case sendEvents => simp [get, atFirst, f5, hf.sendMode]
    case speed =>
      simp only [get, atFirst]
      rw [hav]
      cases ha : accels hw with
      | false => rfl
      | true =>
        obtain ⟨f, hff, _⟩ := h.filt ha
        rw [hff]
        rw [f18] at hff
        simp [hf.speed f hff]
    case profile =>
      simp only [get, atFirst]
      rw [hav]
      cases ha : accels hw with
      | false =>
        have : ¬ offers hw .profile := fun e => by
          have := (profile_offers.2 e).1
          rw [ha] at this; simp at this
        rw [if_neg this]; rfl
      | true =>
        obtain ⟨f, hff, _⟩ := h.filt ha
        rw [hff, h.prof ha]
        by_cases hp : profHook hw.kind = .none
        · rw [hp, if_neg (fun e => (profile_offers.2 e).2 hp)]; rfl
        · rw [if_pos (profile_offers.1 ⟨ha, hp⟩)]
          have ht := hf.type hp f (by rw [← f18, hff])
          cases hq : profHook hw.kind with
          | none => exact absurd hq hp
          | evdev => simp [ht]
          | touchpad => simp [ht]
    case natural => simp only [get, atFirst, f6, hf.natural]; split <;> rfl
    case leftHanded => simp only [get, atFirst, f7, hf.leftWant]; split <;> rfl
    case clickMethod =>
      simp only [get, atFirst]
      by_cases hk : hw.kind = .touchpad
      · rw [if_pos ((clickHook_iff h).2 hk), f8, hf.clickMethod hk, if_neg (by simp [hk])]
        unfold clickDefault
        cases hw.clickfingerQuirk <;> cases hw.onebutton <;> cases hw.clickpad <;> cases hw.apple <;> simp
      · rw [if_neg (fun e => hk ((clickHook_iff h).1 e)), if_pos hk]
    case middleEmulation =>
      simp only [get, atFirst]
      by_cases ho : offers hw .middleEmulation
      · have hn : middles hw ≠ none := fun e => by
          have := hmid.2 ho
          unfold middleAvailable at this
          rw [h.middle, e] at this
          simp at this
        rw [if_pos (hmid.2 ho), f9, hf.middleWant hn]
        by_cases hk : hw.kind = .touchpad
        · cases hw.clickpad <;> cases hw.alps <;> cases hw.key 0x112 <;> simp [hk, bit]
        · simp [hk, bit]
      · rw [if_neg (fun e => ho (hmid.1 e)), if_neg]
        exact fun e => ho (.inl ⟨e.1, .inr e.2.2⟩)
    case scrollMethod =>
      simp only [get, atFirst]
      rw [h.scroll]
      match hs : scrolls hw with
      | none =>
        have h1 : hw.kind ≠ .touchpad := fun e => by rw [scrolls_touchpad.2 e] at hs; simp at hs
        have h2 : ¬ scrollsOnButton hw := fun e => by rw [scrolls_button.2 e] at hs; simp at hs
        simp [h1, h2]
      | some .button =>
        have h2 := scrolls_button.1 hs
        have h1 : hw.kind ≠ .touchpad := fun e => by have := h2.1; rw [e] at this; simp at this
        rw [f12, hf.scrollWantMethod hs]
        simp only [h1, h2, if_false, true_and, scrollDefaultMethod]
        cases hw.trackpoint <;> cases hw.rel 8 <;> cases hw.rel 6 <;> cases hw.key 0x112 <;> simp
      | some .touchpad =>
        have h1 := scrolls_touchpad.1 hs
        rw [f11, hf.tpScrollMethod h1]
        simp only [h1, if_true, tpDefault_eq]
    case scrollButton =>
      simp only [atFirst]
      by_cases hs : scrollsOnButton hw
      · rw [get_scrollButton (by rw [h.scroll, scrolls_button.2 hs]), f13, hf.scrollWantButton (scrolls_button.2 hs), if_neg (show ¬ ¬ scrollsOnButton hw from fun e => e hs), foundButton]
      · rw [if_pos hs]
        simp only [get]
        rw [if_pos ((button_bit h).2 hs)]
    case scrollButtonLock =>
      simp only [get, atFirst]
      by_cases hs : scrollsOnButton hw
      · rw [if_neg (fun e => (button_bit h).1 e hs), h.scroll, scrolls_button.2 hs, f15, hf.lockState]; rfl
      · rw [if_pos ((button_bit h).2 hs)]
    case dwt =>
      simp only [get, atFirst]
      have ho : d.dwtHook = true ↔ offers hw .dwt := by rw [h.dwtH]; simp [offers]
      by_cases e : offers hw .dwt
      · rw [if_pos (ho.2 e), if_pos e, f16, hf.dwt e.1 (by simpa using e.2)]; rfl
      · rw [if_neg (fun x => e (ho.1 x)), if_neg e]
    case rotation => simp only [get, atFirst, f17, hf.angle]; split <;> rfl
  · intro s
    cases s
    case tapEnabled =>
      simp only [getDefault, atFirst]
      by_cases ho : offers hw .tapEnabled
      · rw [if_neg (fun e => htap.1 e ho), h.same]
        cases hk : hw.key 0x110 <;> simp [bit, ho, tapDefault, hk]
      · rw [if_pos (htap.2 ho), if_neg (fun e => ho e.1)]
    case tapDrag =>
      simp only [getDefault, atFirst]
      by_cases ho : offers hw .tapEnabled
      · rw [if_neg (fun e => htap.1 e ho), if_pos (show offers hw .tapDrag from ho)]
      · rw [if_pos (htap.2 ho), if_neg (show ¬ offers hw .tapDrag from ho)]
    case calibration =>
      simp only [getDefault, atFirst]
      by_cases ho : offers hw .calibration
      · rw [if_pos (hmx.2 ho), if_pos ho]
        obtain ⟨g1, g2⟩ := fm ho.1
        rw [g2]
        cases hu : hw.udevMatrix with
        | none => rfl
        | some m => simp only [toSix_ofSix, isIdentity_ofSix]
      · rw [if_neg (fun e => ho (hmx.1 e)), if_neg ho]
    case profile =>
      simp only [getDefault, atFirst]
      rw [hav]
      cases ha : accels hw with
      | false =>
        have : ¬ offers hw .profile := fun e => by
          have := (profile_offers.2 e).1
          rw [ha] at this; simp at this
        rw [if_neg this]; rfl
      | true =>
        obtain ⟨f, hff, _⟩ := h.filt ha
        rw [hff, h.prof ha]
        by_cases hp : profHook hw.kind = .none
        · rw [hp, if_neg (fun e => (profile_offers.2 e).2 hp)]; rfl
        · rw [if_pos (profile_offers.1 ⟨ha, hp⟩)]
          cases hq : profHook hw.kind with
          | none => exact absurd hq hp
          | evdev => simp
          | touchpad => simp
    case clickMethod =>
      simp only [getDefault, atFirst]
      by_cases hk : hw.kind = .touchpad
      · rw [if_pos ((clickHook_iff h).2 hk), h.same, if_neg (by simp [hk])]
        unfold clickDefault
        cases hw.clickfingerQuirk <;> cases hw.onebutton <;> cases hw.clickpad <;> cases hw.apple <;> simp
      · rw [if_neg (fun e => hk ((clickHook_iff h).1 e)), if_pos hk]
    case middleEmulation =>
      simp only [getDefault, atFirst]
      by_cases ho : offers hw .middleEmulation
      · have hn : middles hw ≠ none := fun e => by
          have := hmid.2 ho
          unfold middleAvailable at this
          rw [h.middle, e] at this
          simp at this
        rw [if_pos (hmid.2 ho), f10, hf.middleDefault hn]
        by_cases hk : hw.kind = .touchpad
        · cases hw.clickpad <;> cases hw.alps <;> cases hw.key 0x112 <;> simp [hk, bit]
        · simp [hk, bit]
      · rw [if_neg (fun e => ho (hmid.1 e)), if_neg]
        exact fun e => ho (.inl ⟨e.1, .inr e.2.2⟩)
    case scrollMethod =>
      simp only [getDefault, atFirst]
      rw [h.scroll, h.same]
      match hs : scrolls hw with
      | none =>
        have h1 : hw.kind ≠ .touchpad := fun e => by rw [scrolls_touchpad.2 e] at hs; simp at hs
        have h2 : ¬ scrollsOnButton hw := fun e => by rw [scrolls_button.2 e] at hs; simp at hs
        simp [h1, h2]
      | some .button =>
        have h2 := scrolls_button.1 hs
        have h1 : hw.kind ≠ .touchpad := fun e => by have := h2.1; rw [e] at this; simp at this
        simp only [h1, h2, if_false, true_and, scrollDefaultMethod]
        cases hw.trackpoint <;> cases hw.rel 8 <;> cases hw.rel 6 <;> cases hw.key 0x112 <;> simp
      | some .touchpad =>
        have h1 := scrolls_touchpad.1 hs
        simp only [h1, if_true, tpDefault_eq]
    case scrollButton =>
      simp only [getDefault, atFirst]
      by_cases hs : scrollsOnButton hw
      · rw [if_neg (fun e => (button_bit h).1 e hs), h.scroll, scrolls_button.2 hs, h.same, if_neg (show ¬ ¬ scrollsOnButton hw from fun e => e hs), foundButton]
      · rw [if_pos ((button_bit h).2 hs), if_pos hs]
    case dwt =>
      simp only [getDefault, atFirst]
      have ho : d.dwtHook = true ↔ offers hw .dwt := by rw [h.dwtH]; simp [offers]
      by_cases e : offers hw .dwt
      · rw [if_pos (ho.2 e), if_pos e]
      · rw [if_neg (fun x => e (ho.1 x)), if_neg e]
    all_goals rfl

end Libinput.Config
