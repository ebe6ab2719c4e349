import Verif.Touch.Props
import Verif.Tap.Spec
import Verif.SoftButtons.Spec
/-
The theorems about tapping (C15-C17) and software buttons (C31) are about histories in which each frame fits the ones
before.  The touches of a touchpad produce such histories and no others.
-/
namespace Libinput.Touch
open Spec

/-! Tapping. -/

/-- The state of a touch as tapping sees it; a touch is never shown while it may end. -/
def tapState : St → Tap.Ts
  | .none => .none
  | .hovering => .hovering
  | .begin => .begin
  | .update => .update
  | .maybeEnd => .end_
  | .end_ => .end_

/-- Tapping sees these touches. -/
def tapSees : List (St × Bool) → List Tap.View → Prop
  | [], [] => True
  | v :: vs, w :: ws => (w.ts = tapState v.1 ∧ w.dirty = v.2) ∧ tapSees vs ws
  | _, _ => False

/-- What tapping is told (`taps`) is what the touchpad shows (`outs`): a frame for a frame, and a call that clears its state
when the state is cleared; other calls may come at any time. -/
inductive TapTold : List Tap.Op → List Out → Prop
  | nil : TapTold [] []
  | frame (now btn ws vs taps outs) : tapSees vs ws → TapTold taps outs → TapTold (.frame now btn ws :: taps) (.frame vs :: outs)
  | clear (now btn vs taps outs) : TapTold taps outs → TapTold (.clear now btn :: taps) (.cleared vs :: outs)
  | suspend (now btn vs taps outs) : TapTold taps outs → TapTold (.devSuspend now btn :: taps) (.cleared vs :: outs)
  | resume (now btn vs taps outs) : TapTold taps outs → TapTold (.devResume now btn :: taps) (.cleared vs :: outs)
  | timeout (now taps outs) : TapTold taps outs → TapTold (.timeout now :: taps) outs
  | setEnabled (e now taps outs) : TapTold taps outs → TapTold (.setEnabled e now :: taps) outs
  | stop (now taps outs) : TapTold taps outs → TapTold (.suspend now :: taps) outs
  | go (now taps outs) : TapTold taps outs → TapTold (.resume now :: taps) outs
  | setMap (m taps outs) : TapTold taps outs → TapTold (.setMap m :: taps) outs
  | setDrag (e taps outs) : TapTold taps outs → TapTold (.setDrag e :: taps) outs
  | setDragLock (e taps outs) : TapTold taps outs → TapTold (.setDragLock e :: taps) outs

/-- A touch is down. -/
def isDown (p : Tap.Phase) : Bool := p == .down

theorem tap_fits : ∀ {ps : List Tap.Phase} {vs : List (St × Bool)} {ws : List Tap.View}, fitsAll (ps.map isDown) vs = true →
    tapSees vs ws → Tap.Spec.fitsAll ps ws = true ∧ (ws.map fun w => Tap.phaseAfter w.ts).map isDown = vs.map downAfter
  | [], [], [], _, _ => ⟨rfl, rfl⟩
  | p :: ps, v :: vs, w :: ws, h, h' => by
    simp only [List.map_cons, fitsAll, Bool.and_eq_true] at h
    obtain ⟨⟨h1, h2⟩, h3⟩ := h'
    have ih := tap_fits h.2 h3
    refine ⟨?_, ?_⟩
    · simp only [Tap.Spec.fitsAll, Bool.and_eq_true]
      refine ⟨?_, ih.1⟩
      have h4 := h.1
      unfold fits at h4
      unfold Tap.Spec.fits
      rw [h1, h2]
      cases hv : v.1 <;> cases p <;> simp_all [tapState, isDown]
    · simp only [List.map_cons, List.cons.injEq]
      refine ⟨?_, ih.2⟩
      have h4 := h.1
      unfold fits at h4
      rw [h1]
      cases hv : v.1 <;> simp_all [tapState, isDown, downAfter, Tap.phaseAfter] <;> decide
  | [], [], _ :: _, _, h' => h'.elim
  | [], _ :: _, _, h, _ => by simp [fitsAll] at h
  | _ :: _, [], _, h, _ => by simp [fitsAll] at h
  | _ :: _, _ :: _, [], _, h' => h'.elim

theorem lifted_downs : ∀ {ds : List Bool} {vs : List (St × Bool)}, fitsAll ds vs = true → vs.all lifted = true →
    vs.map downAfter = ds.map fun _ => false
  | [], [], _, _ => rfl
  | d :: ds, v :: vs, h, h' => by
    simp only [fitsAll, Bool.and_eq_true, List.all_cons] at h h'
    simp only [List.map_cons, List.cons.injEq]
    refine ⟨?_, lifted_downs h.2 h'.2⟩
    have := h'.1
    unfold lifted at this
    unfold downAfter
    cases hv : v.1 <;> simp_all
  | [], _ :: _, h, _ => by simp [fitsAll] at h
  | _ :: _, [], h, _ => by simp [fitsAll] at h

theorem tap_possible {taps : List Tap.Op} {outs : List Out} (h : TapTold taps outs) :
    ∀ {ps : List Tap.Phase}, Lives (ps.map isDown) outs → Tap.Spec.Possible ps taps := by
  have hnone : ∀ ps : List Tap.Phase, (ps.map fun _ => Tap.Phase.none).map isDown = (ps.map isDown).map fun _ => false := by
    intro ps; simp [isDown]
  induction h with
  | nil => intro ps _; trivial
  | frame now btn ws vs taps outs hs _ ih =>
    intro ps h
    obtain ⟨h1, h2⟩ := h
    have h3 := tap_fits h1 hs
    refine ⟨h3.1, ih ?_⟩
    show Lives ((ws.map fun w => Tap.phaseAfter w.ts).map isDown) outs
    rw [h3.2]; exact h2
  | clear now btn vs taps outs _ ih =>
    intro ps h
    obtain ⟨⟨h1, h2⟩, h3⟩ := h
    refine ⟨trivial, ih ?_⟩
    show Lives ((ps.map fun _ => Tap.Phase.none).map isDown) outs
    rw [hnone, ← lifted_downs h1 h2]; exact h3
  | suspend now btn vs taps outs _ ih =>
    intro ps h
    obtain ⟨⟨h1, h2⟩, h3⟩ := h
    refine ⟨trivial, ih ?_⟩
    show Lives ((ps.map fun _ => Tap.Phase.none).map isDown) outs
    rw [hnone, ← lifted_downs h1 h2]; exact h3
  | resume now btn vs taps outs _ ih =>
    intro ps h
    obtain ⟨⟨h1, h2⟩, h3⟩ := h
    refine ⟨trivial, ih ?_⟩
    show Lives ((ps.map fun _ => Tap.Phase.none).map isDown) outs
    rw [hnone, ← lifted_downs h1 h2]; exact h3
  | timeout _ _ _ _ ih => intro ps h; exact ⟨trivial, ih h⟩
  | setEnabled _ _ _ _ _ ih => intro ps h; exact ⟨trivial, ih h⟩
  | stop _ _ _ _ ih => intro ps h; exact ⟨trivial, ih h⟩
  | go _ _ _ _ ih => intro ps h; exact ⟨trivial, ih h⟩
  | setMap _ _ _ _ ih => intro ps h; exact ⟨trivial, ih h⟩
  | setDrag _ _ _ _ ih => intro ps h; exact ⟨trivial, ih h⟩
  | setDragLock _ _ _ _ ih => intro ps h; exact ⟨trivial, ih h⟩

/-- Whatever the kernel reports and whatever else happens to tapping: what tapping is told by the rest of the touchpad code
is a history the theorems about tapping are about. -/
theorem tap_histories (cfg : Config) (num n slot : Nat) (ks : List Slot) (finger : Bool) (ops : List Op) (taps : List Tap.Op)
    (h : TapTold taps (run (init cfg num n slot ks finger) ops).2) :
    Tap.Spec.Possible (List.replicate n .none) taps := by
  refine tap_possible h ?_
  rw [List.map_replicate]
  exact touches_live cfg num n slot ks finger ops

/-- Tapping is told about the frames of `story`. -/
def tapOps : List Tap.Op :=
  (run (init cfgPress 2 5 0 two false) story).2.map fun o =>
    match o with
    | .frame vs => .frame 0 false (vs.map fun v => ⟨tapState v.1, v.2, false, false, false, false, false⟩)
    | .cleared _ => .clear 0 false

example : TapTold (.setMap .lrm :: tapOps) (run (init cfgPress 2 5 0 two false) story).2 ∧ tapOps.length = 5 := by
  have hs : ∀ vs : List (St × Bool), tapSees vs (vs.map fun v => ⟨tapState v.1, v.2, false, false, false, false, false⟩) := by
    intro vs
    induction vs with
    | nil => trivial
    | cons v vs ih => exact ⟨⟨rfl, rfl⟩, ih⟩
  refine ⟨.setMap _ _ _ ?_, by decide +kernel⟩
  unfold tapOps
  induction (run (init cfgPress 2 5 0 two false) story).2 with
  | nil => exact .nil
  | cons o os ih =>
    cases o with
    | frame vs => exact .frame _ _ _ _ _ _ (hs vs) ih
    | cleared vs => exact .clear _ _ _ _ _ ih

/-! Software buttons. -/

def buttonState : St → SoftButtons.TState
  | .none => .none
  | .hovering => .hovering
  | .begin => .begin
  | .update => .update
  | .maybeEnd => .maybeEnd
  | .end_ => .end_

/-- The software buttons see these touches. -/
def buttonsSee : List (St × Bool) → List SoftButtons.View → Prop
  | [], [] => True
  | v :: vs, w :: ws => (w.ts = buttonState v.1 ∧ w.dirty = v.2) ∧ buttonsSee vs ws
  | _, _ => False

open SoftButtons.Spec in
/-- What the software buttons are told (`bs`) is what the touchpad shows (`outs`).  A frame is shown if the touchpad is
read; when it is suspended its state is cleared, a second time if its device is closed; when it is resumed the state is
cleared if the device was not closed. -/
inductive ButtonsTold (hasTop : Bool) : Env → List SoftButtons.Op → List Out → Prop
  | nil (e) : ButtonsTold hasTop e [] []
  | frame (e : Env) (t ws vs bs outs) : e.read hasTop = true → buttonsSee vs ws →
      ButtonsTold hasTop (e.follow hasTop (.frame t ws)) bs outs → ButtonsTold hasTop e (.frame t ws :: bs) (.frame vs :: outs)
  | unread (e : Env) (t ws bs outs) : e.read hasTop = false →
      ButtonsTold hasTop (e.follow hasTop (.frame t ws)) bs outs → ButtonsTold hasTop e (.frame t ws :: bs) outs
  | suspendTop (e : Env) (t ws vs bs outs) : e.suspended = false → hasTop = true → buttonsSee vs ws →
      ButtonsTold hasTop (e.follow hasTop (.suspend t ws)) bs outs → ButtonsTold hasTop e (.suspend t ws :: bs) (.cleared vs :: outs)
  | suspend (e : Env) (t ws vs vs' bs outs) : e.suspended = false → hasTop = false → buttonsSee vs ws →
      ButtonsTold hasTop (e.follow hasTop (.suspend t ws)) bs outs →
      ButtonsTold hasTop e (.suspend t ws :: bs) (.cleared vs :: .cleared vs' :: outs)
  | suspended (e : Env) (t ws bs outs) : e.suspended = true →
      ButtonsTold hasTop (e.follow hasTop (.suspend t ws)) bs outs → ButtonsTold hasTop e (.suspend t ws :: bs) outs
  | resumeTop (e : Env) (t ws vs bs outs) : e.suspended = true → hasTop = true → buttonsSee vs ws →
      ButtonsTold hasTop (e.follow hasTop (.resume t ws)) bs outs → ButtonsTold hasTop e (.resume t ws :: bs) (.cleared vs :: outs)
  | resume (e : Env) (t ws bs outs) : (e.suspended && hasTop) = false →
      ButtonsTold hasTop (e.follow hasTop (.resume t ws)) bs outs → ButtonsTold hasTop e (.resume t ws :: bs) outs
  | other (e : Env) (op bs outs) : (∀ t ws, op ≠ .frame t ws ∧ op ≠ .suspend t ws ∧ op ≠ .resume t ws) →
      ButtonsTold hasTop (e.follow hasTop op) bs outs → ButtonsTold hasTop e (op :: bs) outs

theorem buttons_fits : ∀ {ds : List Bool} {vs : List (St × Bool)} {ws : List SoftButtons.View}, fitsAll ds vs = true →
    buttonsSee vs ws → SoftButtons.Spec.fitsAll ds ws = true ∧ ws.map SoftButtons.Spec.there = vs.map downAfter ∧
      (vs.all lifted = true → ws.all SoftButtons.Spec.lifted = true)
  | [], [], [], _, _ => ⟨rfl, rfl, fun _ => rfl⟩
  | d :: ds, v :: vs, w :: ws, h, h' => by
    simp only [fitsAll, Bool.and_eq_true] at h
    obtain ⟨⟨h1, h2⟩, h3⟩ := h'
    have ih := buttons_fits h.2 h3
    have h4 := h.1
    unfold fits at h4
    refine ⟨?_, ?_, ?_⟩
    · simp only [SoftButtons.Spec.fitsAll, Bool.and_eq_true]
      refine ⟨?_, ih.1⟩
      unfold SoftButtons.Spec.fits
      rw [h1, h2]
      cases hv : v.1 <;> simp_all [buttonState]
    · simp only [List.map_cons, List.cons.injEq]
      refine ⟨?_, ih.2.1⟩
      unfold SoftButtons.Spec.there downAfter
      rw [h1]
      cases hv : v.1 <;> simp_all [buttonState] <;> decide
    · simp only [List.all_cons, Bool.and_eq_true]
      rintro ⟨h5, h6⟩
      refine ⟨?_, ih.2.2 h6⟩
      unfold SoftButtons.Spec.lifted
      unfold lifted at h5
      rw [h1]
      cases hv : v.1 <;> simp_all [buttonState] <;> decide
  | [], [], _ :: _, _, h' => h'.elim
  | [], _ :: _, _, h, _ => by simp [fitsAll] at h
  | _ :: _, [], _, h, _ => by simp [fitsAll] at h
  | _ :: _, _ :: _, [], _, h' => h'.elim

theorem buttons_possible {hasTop : Bool} {e : SoftButtons.Spec.Env} {bs : List SoftButtons.Op} {outs : List Out}
    (h : ButtonsTold hasTop e bs outs) : ∀ {ds : List Bool}, Lives ds outs → SoftButtons.Spec.Possible hasTop e ds bs := by
  induction h with
  | nil => intro ds _; trivial
  | frame e t ws vs bs outs hr hs _ ih =>
    intro ds h
    obtain ⟨h1, h2⟩ := h
    have h3 := buttons_fits h1 hs
    simp only [SoftButtons.Spec.Possible, hr, if_true]
    refine ⟨h3.1, ih ?_⟩
    rw [h3.2.1]; exact h2
  | unread e t ws bs outs hr _ ih =>
    intro ds h
    simp only [SoftButtons.Spec.Possible, hr]
    exact ih h
  | suspendTop e t ws vs bs outs he ht hs _ ih =>
    intro ds h
    obtain ⟨⟨h1, h2⟩, h3⟩ := h
    have h4 := buttons_fits h1 hs
    simp only [SoftButtons.Spec.Possible, he]
    refine ⟨⟨h4.1, h4.2.2 h2⟩, ih ?_⟩
    rw [← lifted_downs h1 h2]; exact h3
  | suspend e t ws vs vs' bs outs he ht hs _ ih =>
    intro ds h
    obtain ⟨⟨h1, h2⟩, ⟨h3, h5⟩, h6⟩ := h
    have h4 := buttons_fits h1 hs
    simp only [SoftButtons.Spec.Possible, he]
    refine ⟨⟨h4.1, h4.2.2 h2⟩, ih ?_⟩
    have e1 := lifted_downs h3 h5
    rw [lifted_downs h1 h2] at e1
    rw [e1] at h6
    simpa using h6
  | suspended e t ws bs outs he _ ih =>
    intro ds h
    simp only [SoftButtons.Spec.Possible, he, if_true]
    exact ih h
  | resumeTop e t ws vs bs outs he ht hs _ ih =>
    intro ds h
    obtain ⟨⟨h1, h2⟩, h3⟩ := h
    have h4 := buttons_fits h1 hs
    simp only [SoftButtons.Spec.Possible, he, ht, Bool.and_self, if_true]
    refine ⟨⟨h4.1, h4.2.2 h2⟩, ?_⟩
    have := @ih (ds.map fun _ => false) (by rw [← lifted_downs h1 h2]; exact h3)
    rw [ht] at this
    exact this
  | resume e t ws bs outs he _ ih =>
    intro ds h
    simp only [SoftButtons.Spec.Possible, he]
    exact ih h
  | other e op bs outs ho _ ih =>
    intro ds h
    cases op with
    | frame t ws => exact absurd rfl (ho t ws).1
    | suspend t ws => exact absurd rfl (ho t ws).2.1
    | resume t ws => exact absurd rfl (ho t ws).2.2
    | _ => exact ih h

/-- What the software buttons are told is a history the theorems about them are about. -/
theorem button_histories (cfg : Config) (num n slot : Nat) (ks : List Slot) (finger : Bool) (ops : List Op) (hasTop : Bool)
    (bs : List SoftButtons.Op) (h : ButtonsTold hasTop {} bs (run (init cfg num n slot ks finger) ops).2) :
    SoftButtons.Spec.Possible hasTop {} (List.replicate n false) bs :=
  buttons_possible h (touches_live cfg num n slot ks finger ops)

example : ButtonsTold true {} [.button true, .frame 1 [⟨.begin, true, (1, 2), false, false⟩], .suspend 2 [⟨.end_, true, (1, 2), false, false⟩]]
    (run (init cfgPress 1 1 0 [still] false) [.tracking true, .axis .pressure 50, .syn, .clear]).2 := by
  have e : (run (init cfgPress 1 1 0 [still] false) [.tracking true, .axis .pressure 50, .syn, .clear]).2 =
      [.frame [(.begin, true)], .cleared [(.end_, true)]] := by decide +kernel
  rw [e]
  refine .other _ _ _ _ (by simp) (.frame _ _ _ _ _ _ rfl ⟨⟨rfl, rfl⟩, trivial⟩ (.suspendTop _ _ _ _ _ _ rfl rfl ⟨⟨rfl, rfl⟩, trivial⟩ (.nil _)))

end Libinput.Touch
