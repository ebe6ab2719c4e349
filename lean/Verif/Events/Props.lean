import Verif.Events.Spec

/-
What an event tells is what was posted.
-/
namespace Libinput.Events

open Spec

theorem convert_eq {a : Abs} (h : Sane a) (v : Int) : convertToMm (some a) v = some (mm a v) := by
  unfold convertToMm mm
  simp [h.1, Rat.intCast_sub]

theorem scale_eq {a : Abs} (h : Sane a) (v : Int) (n : Nat) : scaleAxis (some a) v n = some (onScreen a v n) := by
  unfold scaleAxis onScreen
  have : ¬ a.max - a.min + 1 = 0 := by have := h.2; omega
  simp [this, Rat.intCast_sub, Rat.intCast_add]

theorem access_eq (d : Device) (p : Post) (ax ay : Abs)
    (h : HasPosition p → d.absX = some ax ∧ d.absY = some ay ∧ Sane ax ∧ Sane ay) (a : Acc) :
    access ⟨(kind p).2, d, (build p).2⟩ a = some ((told ax ay p a).getD (empty a)) := by
  cases p
  case motionAbsolute | touchDown | touchMotion | toolAxis | toolProximity | toolTip | toolButton =>
    all_goals
      obtain ⟨hx, hy, sx, sy⟩ := h trivial
      cases a
      all_goals first
        | rfl
        | simp [access, pointerGetAbsoluteX, pointerGetAbsoluteY, pointerGetAbsoluteXTransformed, pointerGetAbsoluteYTransformed,
            touchGetX, touchGetY, touchGetXTransformed, touchGetYTransformed, tabletToolGetX, tabletToolGetY,
            tabletToolGetXTransformed, tabletToolGetYTransformed, requireEventType, checkEventType, readPointer, readTouch, readTool,
            kind, build, told, touchPoint, toolFacts, transformX, transformY, hx, hy, convert_eq sx, convert_eq sy, scale_eq sx, scale_eq sy]
  case axis t axes source dx dy ex ey =>
    cases a
    case pointerHasAxis n =>
      have : access ⟨(kind (.axis t axes source dx dy ex ey)).2, d, (build (.axis t axes source dx dy ex ey)).2⟩ (.pointerHasAxis n)
          = some (.int (if n = 1 ∨ n = 0 then (if axes.testBit n then 1 else 0) else 0)) := rfl
      rw [this]
      simp only [told, flag, Option.getD_some]
      rcases Nat.lt_or_ge n 2 with hn | hn
      · have h1 : n = 1 ∨ n = 0 := by omega
        simp [hn, h1]
      · have h1 : ¬ (n = 1 ∨ n = 0) := by omega
        have h2 : ¬ n < 2 := by omega
        simp [h1, h2]
    case pointerGetAxisValue n =>
      have : access ⟨(kind (.axis t axes source dx dy ex ey)).2, d, (build (.axis t axes source dx dy ex ey)).2⟩ (.pointerGetAxisValue n)
          = some (.real (if (if n = 1 ∨ n = 0 then (if axes.testBit n then (1 : Int) else 0) else 0) = 0 then 0
            else if n = 1 then dx else if n = 0 then dy else 0)) := rfl
      rw [this]
      simp only [told, Spec.empty]
      match n with
      | 0 => cases h0 : axes.testBit 0 <;> simp
      | 1 => cases h1 : axes.testBit 1 <;> simp
      | n + 2 => simp
    case pointerGetAxisValueDiscrete n =>
      have : access ⟨(kind (.axis t axes source dx dy ex ey)).2, d, (build (.axis t axes source dx dy ex ey)).2⟩ (.pointerGetAxisValueDiscrete n)
          = some (.real (if (if n = 1 ∨ n = 0 then (if axes.testBit n then (1 : Int) else 0) else 0) = 0 then 0
            else if n = 1 then (ex : Rat) else if n = 0 then (ey : Rat) else 0)) := rfl
      rw [this]
      simp only [told, Spec.empty]
      match n with
      | 0 => cases h0 : axes.testBit 0 <;> simp
      | 1 => cases h1 : axes.testBit 1 <;> simp
      | n + 2 => simp
    all_goals rfl
  case swipeEnd _ _ c | pinchEnd _ _ _ c => all_goals (cases c <;> cases a <;> rfl)
  all_goals (cases a <;> rfl)

/-- The event that is posted, if the device may post it. -/
theorem post_spec (d : Device) (p : Post) :
    post d p = (match needs (kind p).1 with
      | some c => if c ∈ d.caps then some ⟨(kind p).2, d, (build p).2⟩ else none
      | none => some ⟨(kind p).2, d, (build p).2⟩) := by
  cases p <;> simp [post, capOf, needs, kind, deviceHasCap, build]

/-- C58: a device posts an event if it is capable of such events (tablets and pads, and devices that come
and go, are not asked), and the event has its type and its device. -/
theorem posted (d : Device) (p : Post) :
    ((∃ e, post d p = some e) ↔ ∀ c, needs (kind p).1 = some c → c ∈ d.caps) ∧
    (∀ e, post d p = some e → e.type = (kind p).2 ∧ e.device = d) := by
  rw [post_spec]
  cases hn : needs (kind p).1 with
  | none => refine ⟨by simp, ?_⟩; intro e he; cases he; exact ⟨rfl, rfl⟩
  | some c =>
    by_cases hc : c ∈ d.caps
    · refine ⟨by simp [hc], ?_⟩
      intro e he; simp [hc] at he; subst he; exact ⟨rfl, rfl⟩
    · refine ⟨by simp [hc], ?_⟩
      intro e he; simp [hc] at he

theorem posted_eq {d : Device} {p : Post} {e : Event} (h : post d p = some e) : e = ⟨(kind p).2, d, (build p).2⟩ := by
  rw [post_spec] at h
  cases hn : needs (kind p).1 with
  | none => rw [hn] at h; cases h; rfl
  | some c =>
    rw [hn] at h
    by_cases hc : c ∈ d.caps
    · simp [hc] at h; exact h.symm
    · simp [hc] at h

/-- C58: whatever was posted and whichever accessor is called on it, nothing but the event's own memory is
read; the accessor tells what was posted, or, for an event without such a thing, the empty value. -/
theorem tells (d : Device) (p : Post) (e : Event) (h : post d p = some e) (ax ay : Abs)
    (hp : HasPosition p → d.absX = some ax ∧ d.absY = some ay ∧ Sane ax ∧ Sane ay) (a : Acc) :
    access e a = some ((told ax ay p a).getD (empty a)) := by
  rw [posted_eq h]; exact access_eq d p ax ay hp a

/-- C58: exactly one of the conversions from an event to an event of a family succeeds, the one of its own
family, and it gives the event itself; the way back likewise. -/
theorem conversions (d : Device) (p : Post) (e : Event) (h : post d p = some e) :
    access e .getPointerEvent = some (.ptr (if (kind p).1 = .pointer then some .event else none)) ∧
    access e .getKeyboardEvent = some (.ptr (if (kind p).1 = .keyboard then some .event else none)) ∧
    access e .getTouchEvent = some (.ptr (if (kind p).1 = .touch then some .event else none)) ∧
    access e .getGestureEvent = some (.ptr (if (kind p).1 = .gesture then some .event else none)) ∧
    access e .getTabletToolEvent = some (.ptr (if (kind p).1 = .tool then some .event else none)) ∧
    access e .getTabletPadEvent = some (.ptr (if (kind p).1 = .pad then some .event else none)) ∧
    access e .getDeviceNotifyEvent = some (.ptr (if (kind p).1 = .notify then some .event else none)) ∧
    access e .getSwitchEvent = some (.ptr (if (kind p).1 = .switch then some .event else none)) := by
  rw [posted_eq h]
  cases p <;> exact ⟨rfl, rfl, rfl, rfl, rfl, rfl, rfl, rfl⟩

/-- C58: asking an event that is not a pad's ring or strip for its source is answered with 1, although the
documentation says 0. -/
theorem source_of_other_events (d : Device) (p : Post) (e : Event) (h : post d p = some e)
    (hr : (kind p).2 ≠ .tabletPadRing) (hs : (kind p).2 ≠ .tabletPadStrip) :
    access e .tabletPadGetRingSource = some (.int 1) ∧ access e .tabletPadGetStripSource = some (.int 1) := by
  rw [posted_eq h]
  cases p
  case padRing => exact absurd rfl hr
  case padStrip => exact absurd rfl hs
  all_goals exact ⟨rfl, rfl⟩

/-- C58: an event keeps its device, its tool and its mode group alive, and destroying it gives back exactly
what posting took, without reading anything that is not there. -/
theorem destroyed (d : Device) (p : Post) (e : Event) (h : post d p = some e) :
    destroy e = some (taken d p) ∧ taken d p = keeps d p := by
  rw [posted_eq h]
  cases p <;> exact ⟨rfl, rfl⟩

/-! ## Cases that meet the hypotheses -/

/-- A tablet 300 by 200 mm, with 100 units per mm. -/
def exDevice : Device := ⟨7, some ⟨0, 29999, 100⟩, some ⟨0, 19999, 100⟩, [.tabletTool, .pointer]⟩

def exAxes : Axes := ⟨15000, 100, 1/2, -3, 0, 1/4, 10, -10, 0, 0, 0, 0, 0, 0⟩

def exTip : Post := .toolTip 5000001 3 1 (fun a => a == .pressure) exAxes

example : ∃ e, post exDevice exTip = some e ∧ access e .tabletToolGetX = some (.real 150) ∧
    access e (.tabletToolGetXTransformed 1000) = some (.real 500) ∧ access e .tabletToolGetTime = some (.int 5000) ∧
    access e .tabletToolPressureHasChanged = some (.int 1) ∧ access e .tabletToolXHasChanged = some (.int 0) ∧
    access e .tabletToolGetTipState = some (.int 1) ∧ access e .tabletToolGetButton = some (.int 0) ∧
    access e .pointerGetDx = some (.real 0) ∧ access e .tabletToolGetTool = some (.ptr (some (.tool 3))) ∧
    destroy e = some [.tool 3, .device 7] :=
  ⟨⟨.tabletToolTip, exDevice, (build exTip).2⟩, rfl, by decide +kernel, by decide +kernel, by decide +kernel, by decide +kernel,
    by decide +kernel, by decide +kernel, by decide +kernel, by decide +kernel, by decide +kernel, by decide +kernel⟩

example : HasPosition exTip ∧ exDevice.absX = some ⟨0, 29999, 100⟩ ∧ Sane ⟨0, 29999, 100⟩ ∧ Sane ⟨0, 19999, 100⟩ :=
  ⟨trivial, rfl, ⟨by decide, by decide⟩, ⟨by decide, by decide⟩⟩

-- a tablet without a touch screen posts no touches
example : post exDevice (.touchFrame 1) = none := rfl

-- a wheel that turned vertically has no horizontal value
example : ∃ e, post exDevice (.axis 9 1 1 0 15 0 1) = some e ∧ access e (.pointerGetAxisValue 0) = some (.real 15) ∧
    access e (.pointerGetAxisValueDiscrete 0) = some (.real 1) ∧ access e (.pointerHasAxis 1) = some (.int 0) ∧
    access e (.pointerGetAxisValue 1) = some (.real 0) ∧ access e (.pointerHasAxis 2) = some (.int 0) :=
  ⟨⟨.pointerAxis, exDevice, (build (.axis 9 1 1 0 15 0 1)).2⟩, rfl, by decide +kernel, by decide +kernel, by decide +kernel,
    by decide +kernel, by decide +kernel⟩

end Libinput.Events
