import Verif.Tap.Lemmas
import Verif.Tap.Spec
/-
The invariant of tapping: the finger count kept by the state machine is the number of touches that
take part, the state fits it, and the held button fits the state.
-/
set_option linter.unusedSimpArgs false
set_option linter.unusedVariables false
namespace Libinput.Tap
open Libinput.Buttons (Call)
open Libinput.Tap.Spec

/-- The touch takes part in tapping. -/
def Touch.ok (t : Touch) : Bool := !t.isPalm && !t.isThumb

/-- Counted before the touch is processed in a frame. -/
def pend (t : Touch) (v : View) : Nat :=
  if (v.ts = .update ∨ v.ts = .end_) ∧ t.ok = true then 1 else 0

/-- Counted after the touch is processed in a frame. -/
def done (t : Touch) (v : View) : Nat :=
  if (v.ts = .begin ∨ v.ts = .update) ∧ t.ok = true then 1 else 0

/-- The state machine's part of the invariant. -/
structure FInv (f : Fsm) : Prop where
  pressed : PressedOk f
  timer : TimerOk f
  bugs : f.bugs = 0
  faults : f.faults = 0
  fits : Fits f.st f.nf

theorem Fits.pos {st : TSt} {n : Nat} (h : Fits st n) (h0 : 0 < n) : fingersOf st ≠ some 0 := by
  intro e; have := h 0 e; omega

/-- Result of handling one touch or several. -/
structure Good (f g : Fsm) (cs : List Call) : Prop where
  inv : FInv g
  keeps : Keeps f g cs

theorem Good.refl {f : Fsm} (h : FInv f) : Good f f [] := ⟨h, Keeps.refl h.pressed⟩

theorem Good.trans {f g h : Fsm} {a b : List Call} (x : Good f g a) (y : Good g h b) :
    Good f h (a ++ b) := ⟨y.inv, x.keeps.trans y.keeps⟩

/-- Changing the finger count, timer or map-independent fields does not affect `Keeps`. -/
theorem keeps_nf {f g : Fsm} {cs : List Call} (k : Nat) (h : Keeps { f with nf := k } g cs) :
    Keeps f g cs := ⟨h.valid, h.after, h.pressed, h.map, h.wantMap, h.drag, h.dragLock⟩

theorem keeps_nf' {f g : Fsm} {cs : List Call} (k : Nat) (h : Keeps f g cs) :
    Keeps f { g with nf := k } cs := ⟨h.valid, h.after, h.pressed, h.map, h.wantMap, h.drag, h.dragLock⟩

/-- Events that leave the finger count alone. -/
theorem good_other (f : Fsm) (now : Nat) (e : TEv) (h : FInv f)
    (he : e = .motion ∨ e = .button ∨ e = .palmUp) (hn : e = .motion → 0 < f.nf) :
    Good f (handle f now e).1 (handle f now e).2.1 ∧ (handle f now e).1.nf = f.nf ∧
      (handle f now e).2.2 = false := by
  have hne : e ≠ .thumb := by rcases he with rfl | rfl | rfl <;> decide
  have hnt : e ≠ .timeout := by rcases he with rfl | rfl | rfl <;> decide
  have hnf := handle_nf f now e hne
  refine ⟨⟨⟨(handle_keeps f now e h.pressed).pressed, handle_timer f now e h.timer hnt, ?_, ?_, ?_⟩,
    handle_keeps f now e h.pressed⟩, hnf.1, hnf.2.2⟩
  · rw [handle_bugs f now e, h.bugs]
    intro h'
    rcases he with rfl | rfl | rfl
    · exact h.fits.pos (hn rfl)
    · cases h'
    · cases h'
  · rw [hnf.2.1, h.faults]
  · rw [hnf.1]
    refine other_fits f now e h.fits ?_
    rcases he with rfl | rfl | rfl <;> simp

theorem good_touch (f : Fsm) (now : Nat) (h : FInv f) :
    Good f (handle { f with nf := f.nf + 1 } now .touch).1
      (handle { f with nf := f.nf + 1 } now .touch).2.1 ∧
    (handle { f with nf := f.nf + 1 } now .touch).1.nf = f.nf + 1 ∧
    (handle { f with nf := f.nf + 1 } now .touch).2.2 = false := by
  have hnf := handle_nf { f with nf := f.nf + 1 } now .touch (by decide)
  have hk := handle_keeps { f with nf := f.nf + 1 } now .touch h.pressed
  refine ⟨⟨⟨hk.pressed, handle_timer _ now _ h.timer (by decide), ?_, ?_, ?_⟩, keeps_nf _ hk⟩,
    hnf.1, hnf.2.2⟩
  · rw [handle_bugs _ now _ (by intro h'; cases h')]; exact h.bugs
  · rw [hnf.2.1]; exact h.faults
  · rw [hnf.1]
    exact touch_fits { f with nf := f.nf + 1 } now f.nf h.fits

theorem decFingers_pos (f : Fsm) (h : 0 < f.nf) : decFingers f = { f with nf := f.nf - 1 } := by
  unfold decFingers; rw [if_neg (by omega)]

theorem good_release (f : Fsm) (now : Nat) (h : FInv f) (h0 : 0 < f.nf) :
    Good f (handle (decFingers f) now .release).1 (handle (decFingers f) now .release).2.1 ∧
    (handle (decFingers f) now .release).1.nf = f.nf - 1 ∧
    (handle (decFingers f) now .release).2.2 = false := by
  rw [decFingers_pos f h0]
  have hnf := handle_nf { f with nf := f.nf - 1 } now .release (by decide)
  have hk := handle_keeps { f with nf := f.nf - 1 } now .release h.pressed
  refine ⟨⟨⟨hk.pressed, handle_timer _ now _ h.timer (by decide), ?_, ?_, ?_⟩, keeps_nf _ hk⟩,
    hnf.1, hnf.2.2⟩
  · exact (handle_bugs { f with nf := f.nf - 1 } now .release (fun _ => h.fits.pos h0)).trans h.bugs
  · rw [hnf.2.1]; exact h.faults
  · rw [hnf.1]
    refine release_fits { f with nf := f.nf - 1 } now ?_
    show Fits f.st (f.nf - 1 + 1)
    rw [Nat.sub_add_cancel h0]; exact h.fits

theorem good_palm (f : Fsm) (now : Nat) (h : FInv f) (h0 : 0 < f.nf) :
    Good f (decFingers (handle f now .palm).1) (handle f now .palm).2.1 ∧
    (decFingers (handle f now .palm).1).nf = f.nf - 1 ∧
    (handle f now .palm).2.2 = false := by
  have hnf := handle_nf f now .palm (by decide)
  have hk := handle_keeps f now .palm h.pressed
  rw [decFingers_pos _ (by rw [hnf.1]; exact h0)]
  refine ⟨⟨⟨hk.pressed, handle_timer f now _ h.timer (by decide), ?_, ?_, ?_⟩, keeps_nf' _ hk⟩,
    ?_, hnf.2.2⟩
  · exact (handle_bugs _ now _ (fun _ => h.fits.pos h0)).trans h.bugs
  · exact hnf.2.1.trans h.faults
  · show Fits (handle f now .palm).1.st ((handle f now .palm).1.nf - 1)
    rw [hnf.1]; exact palm_fits f now h.fits h0
  · show (handle f now .palm).1.nf - 1 = _
    rw [hnf.1]

theorem good_thumb (f : Fsm) (now : Nat) (h : FInv f) (h0 : 0 < f.nf) :
    Good f (handle f now .thumb).1 (handle f now .thumb).2.1 ∧
    (handle f now .thumb).1.nf = f.nf - (handle f now .thumb).2.2.toNat := by
  have hnf := thumb_nf f now h0
  have hk := handle_keeps f now .thumb h.pressed
  refine ⟨⟨⟨hk.pressed, handle_timer f now _ h.timer (by decide), ?_, ?_, ?_⟩, hk⟩, hnf.1⟩
  · rw [handle_bugs _ now _ (fun _ => h.fits.pos h0), h.bugs]
  · rw [hnf.2, h.faults]
  · exact thumb_fits f now h.fits h0

/-- One touch of a frame. -/
theorem touchStep_good (now : Nat) (f : Fsm) (t : Touch) (v : View) (base : Nat) (p : Phase)
    (h : FInv f) (hnf : f.nf = base + pend t v) (hv : Spec.fits p v = true) :
    Good f (touchStep now f t v).1 (touchStep now f t v).2.2 ∧
    (touchStep now f t v).1.nf = base + done (touchStep now f t v).2.1 v := by
  obtain ⟨ph, th, pa⟩ := t
  obtain ⟨ts, dirty, palm, thumbTap, thumb, palmTap, exceeds⟩ := v
  unfold touchStep
  by_cases h1 : dirty = false ∨ ts = .none
  · rw [if_pos h1]
    refine ⟨Good.refl h, ?_⟩
    rw [hnf]
    rcases h1 with rfl | rfl
    · cases ts <;> simp [Spec.fits, pend, done] at *
    · simp [pend, done]
  rw [if_neg h1]
  rw [not_or] at h1
  obtain ⟨hd, hn⟩ := h1
  have hd' : dirty = true := by simpa using hd
  subst hd'
  cases th with
  | true =>
    rw [if_pos rfl]
    exact ⟨Good.refl h, by rw [hnf]; simp [pend, done, Touch.ok]⟩
  | false =>
  rw [if_neg (by simp)]
  cases pa with
  | true =>
    rw [if_pos rfl]
    split
    · obtain ⟨g, g1, g2⟩ := good_other f now .palmUp h (by simp) (by simp)
      exact ⟨g, by rw [g1, hnf]; simp [pend, done, Touch.ok]⟩
    · exact ⟨Good.refl h, by rw [hnf]; simp [pend, done, Touch.ok]⟩
  | false =>
  rw [if_neg (by simp)]
  cases ts with
  | none => exact absurd rfl hn
  | hovering => exact ⟨Good.refl h, by rw [hnf]; simp [pend, done]⟩
  | begin =>
    have hb : f.nf = base := by rw [hnf]; simp [pend]
    cases palm with
    | true =>
      exact ⟨Good.refl h, by simp [palmStep, done, Touch.ok, hb]⟩
    | false =>
      simp only [Bool.false_eq_true, if_false]
      unfold beginStep
      cases thumbTap with
      | true => exact ⟨Good.refl h, by simp [done, Touch.ok, hb]⟩
      | false =>
        simp only [Bool.false_eq_true, if_false]
        obtain ⟨g, g1, g2⟩ := good_touch f now h
        cases palmTap with
        | false =>
          simp only [Bool.false_eq_true, if_false, g2]
          exact ⟨g, by rw [g1]; simp [done, Touch.ok, hb]⟩
        | true =>
          simp only [if_true, g2]
          obtain ⟨q, q1, q2⟩ := good_other _ now .motion g.inv (by simp) (by intro _; rw [g1]; omega)
          refine ⟨g.trans q, ?_⟩
          rw [q1, g1, q2]; simp [done, Touch.ok, hb]
  | update =>
    have hb : f.nf = base + 1 := by rw [hnf]; simp [pend, Touch.ok]
    cases palm with
    | true =>
      simp only [if_true, palmStep, reduceCtorEq, if_false]
      obtain ⟨g, g1, g2⟩ := good_palm f now h (by omega)
      exact ⟨g, by rw [g1]; simp [done, Touch.ok, hb]⟩
    | false =>
      simp only [Bool.false_eq_true, if_false]
      unfold updateStep
      split
      · obtain ⟨g, g1⟩ := good_thumb f now h (by omega)
        refine ⟨g, ?_⟩
        simp only [g1]
        cases (handle f now .thumb).2.2 <;> simp [done, Touch.ok, hb]
      · split
        · obtain ⟨q, q1, q2⟩ := good_other f now .motion h (by simp) (by intro _; omega)
          refine ⟨q, ?_⟩
          simp only [q1, q2]; simp [done, Touch.ok, hb]
        · exact ⟨Good.refl h, by simp [done, Touch.ok, hb]⟩
  | end_ =>
    have hb : f.nf = base + 1 := by rw [hnf]; simp [pend, Touch.ok]
    cases palm with
    | true =>
      simp only [if_true, palmStep, reduceCtorEq, if_false]
      obtain ⟨g, g1, g2⟩ := good_palm f now h (by omega)
      exact ⟨g, by rw [g1]; simp [done, Touch.ok, hb]⟩
    | false =>
      simp only [Bool.false_eq_true, if_false]
      unfold endStep
      obtain ⟨g, g1, g2⟩ := good_release f now h (by omega)
      exact ⟨g, by simp only [g1]; simp [done, Touch.ok, hb]⟩

/-- Sums over a frame. -/
def sum2 (w : Touch → View → Nat) : List Touch → List View → Nat
  | t :: ts, v :: vs => w t v + sum2 w ts vs
  | _, _ => 0

theorem touchLoop_good (now : Nat) (f : Fsm) (ts : List Touch) (vs : List View) (base : Nat)
    (ps : List Phase) (hl : ts.length = vs.length)
    (h : FInv f) (hnf : f.nf = base + sum2 pend ts vs) (hv : fitsAll ps vs = true) :
    Good f (touchLoop now f ts vs).1 (touchLoop now f ts vs).2.2 ∧
    (touchLoop now f ts vs).1.nf = base + sum2 done (touchLoop now f ts vs).2.1 vs ∧
    (touchLoop now f ts vs).2.1.length = vs.length := by
  induction ts generalizing f vs base ps with
  | nil =>
    cases vs with
    | nil => exact ⟨Good.refl h, hnf, rfl⟩
    | cons v vs => simp at hl
  | cons t ts ih =>
    cases vs with
    | nil => simp at hl
    | cons v vs =>
    cases ps with
    | nil => simp [fitsAll] at hv
    | cons p ps =>
      simp only [fitsAll, Bool.and_eq_true] at hv
      simp only [sum2] at hnf
      obtain ⟨g, g1⟩ := touchStep_good now f t v (base + sum2 pend ts vs) p h (by omega) hv.1
      obtain ⟨q, q1, q2⟩ := ih (touchStep now f t v).1 vs (base + done (touchStep now f t v).2.1 v) ps
        (by simpa using hl) g.inv (by omega) hv.2
      simp only [touchLoop]
      refine ⟨g.trans q, ?_, ?_⟩
      · rw [q1]; simp only [sum2]; omega
      · simp [q2]

/-- Touches that take part and are down. -/
def countDown (ts : List Touch) : Nat := (ts.filter fun t => t.phase = .down ∧ t.ok = true).length

theorem fitsAll_length {ps : List Phase} {vs : List View} (h : fitsAll ps vs = true) :
    ps.length = vs.length := by
  induction ps generalizing vs with
  | nil => cases vs with
    | nil => rfl
    | cons => simp [fitsAll] at h
  | cons p ps ih => cases vs with
    | nil => simp [fitsAll] at h
    | cons v vs =>
      simp only [fitsAll, Bool.and_eq_true] at h
      simp [ih h.2]

theorem beginAll_length (ts : List Touch) (vs : List View) : (beginAll ts vs).length = ts.length := by
  induction ts generalizing vs with
  | nil => cases vs <;> rfl
  | cons t ts ih => cases vs <;> simp [beginAll, ih]

theorem sum2_pend_begin (ts : List Touch) (vs : List View)
    (hv : fitsAll (ts.map Touch.phase) vs = true) :
    sum2 pend (beginAll ts vs) vs = countDown ts := by
  induction ts generalizing vs with
  | nil => cases vs <;> simp_all [beginAll, sum2, countDown, fitsAll]
  | cons t ts ih =>
    cases vs with
    | nil => simp [fitsAll] at hv
    | cons v vs =>
      simp only [List.map_cons, fitsAll, Bool.and_eq_true] at hv
      have := ih vs hv.2
      simp only [beginAll, sum2, this]
      obtain ⟨ph, th, pa⟩ := t
      obtain ⟨vt, dirty, palm, thumbTap, thumb, palmTap, exceeds⟩ := v
      have hv1 := hv.1
      simp only [countDown, List.filter_cons]
      cases vt <;> cases ph <;> simp [Spec.fits] at hv1 <;>
        cases th <;> cases pa <;> simp [pend, beginFlags, Touch.ok] <;> omega

theorem sum2_done_phases (ts : List Touch) (vs : List View) (hl : ts.length = vs.length) :
    sum2 done ts vs = countDown (setPhases ts vs) := by
  induction ts generalizing vs with
  | nil => cases vs <;> simp_all [sum2, countDown, setPhases]
  | cons t ts ih =>
    cases vs with
    | nil => simp at hl
    | cons v vs =>
      have := ih vs (by simpa using hl)
      simp only [sum2, this, setPhases, countDown, List.filter_cons]
      obtain ⟨ph, th, pa⟩ := t
      obtain ⟨vt, dirty, palm, thumbTap, thumb, palmTap, exceeds⟩ := v
      cases vt <;> cases th <;> cases pa <;> simp [done, phaseAfter, Touch.ok] <;> omega

theorem sum2_done_le (ts : List Touch) (vs : List View) : sum2 done ts vs ≤ fingersDown vs := by
  induction ts generalizing vs with
  | nil => cases vs <;> simp [sum2]
  | cons t ts ih =>
    cases vs with
    | nil => simp [sum2]
    | cons v vs =>
      have := ih vs
      have hd : done t v ≤ if v.ts = .begin ∨ v.ts = .update then 1 else 0 := by
        unfold done; split
        · rename_i h; rw [if_pos h.1]; exact Nat.le_refl _
        · exact Nat.zero_le _
      simp only [sum2, fingersDown, List.filter_cons] at *
      by_cases hb : v.ts = .begin ∨ v.ts = .update
      · rw [if_pos hb] at hd; rw [if_pos (by simpa using hb)]; simp only [List.length_cons]; omega
      · rw [if_neg hb] at hd; rw [if_neg (by simpa using hb)]; omega

theorem setPhases_phase (ts : List Touch) (vs : List View) (hl : ts.length = vs.length) :
    (setPhases ts vs).map Touch.phase = vs.map fun v => phaseAfter v.ts := by
  induction ts generalizing vs with
  | nil => cases vs <;> simp_all [setPhases]
  | cons t ts ih =>
    cases vs with
    | nil => simp at hl
    | cons v vs => simp only [setPhases, List.map_cons]; rw [ih vs (by simpa using hl)]

/-- The invariant. -/
structure Inv (s : State) : Prop where
  fsm : FInv s.fsm
  live : s.on = true → s.devSuspended = false → s.fsm.nf = countDown s.touches
  rest : ¬ (s.on = true ∧ s.devSuspended = false) →
    s.fsm.nf = 0 ∧ (s.fsm.st = .idle ∨ s.fsm.st = .dead)

/-- What an operation does with the buttons. `Keeps` without the settings, which operations may
change. -/
structure Out (f g : Fsm) (cs : List Call) : Prop where
  valid : Alt.Valid (heldCode f) (edges cs)
  after : Alt.after (heldCode f) (edges cs) = heldCode g

theorem updateMap_inv {f : Fsm} (h : FInv f) : FInv (updateMap f) ∧ heldCode (updateMap f) = heldCode f ∧
    (updateMap f).st = f.st ∧ (updateMap f).nf = f.nf := by
  unfold updateMap
  split
  · rename_i hi
    refine ⟨⟨h.pressed, h.timer, h.bugs, h.faults, h.fits⟩, ?_, rfl, rfl⟩
    funext c; simp [heldCode, hi, heldOf]
  · exact ⟨h, rfl, rfl, rfl⟩

theorem heldCode_none {f : Fsm} (h : heldOf f.st = none) : heldCode f = fun _ => false := by
  funext c; simp [heldCode, h]

theorem frame_inv (s : State) (now : Nat) (btn : Bool) (vs : List View) (h : Inv s)
    (hv : fitsAll (s.touches.map Touch.phase) vs = true) :
    Inv (frame s now btn vs).1 ∧ Out s.fsm (frame s now btn vs).1.fsm (frame s now btn vs).2 ∧
    (frame s now btn vs).1.touches.map Touch.phase = vs.map (fun v => phaseAfter v.ts) := by
  have hlen : s.touches.length = vs.length := by simpa using fitsAll_length hv
  have hlen' : (beginAll s.touches vs).length = vs.length := by rw [beginAll_length, hlen]
  unfold frame
  by_cases hc : s.on ∧ s.devSuspended = false
  · rw [if_pos hc]
    simp only [handleState]
    have hb : Good s.fsm (if btn = true then handle s.fsm now .button else ok s.fsm []).1
        (if btn = true then handle s.fsm now .button else ok s.fsm []).2.1 ∧
        (if btn = true then handle s.fsm now .button else ok s.fsm []).1.nf = s.fsm.nf := by
      cases btn with
      | false => exact ⟨Good.refl h.fsm, rfl⟩
      | true =>
        obtain ⟨g, g1, _⟩ := good_other s.fsm now .button h.fsm (by simp) (by simp)
        exact ⟨g, g1⟩
    generalize (if btn = true then handle s.fsm now .button else ok s.fsm []) = b at hb
    obtain ⟨g, g1⟩ := hb
    obtain ⟨q, q1, q2⟩ := touchLoop_good now b.1 (beginAll s.touches vs) vs 0 _ hlen' g.inv
      (by rw [g1, sum2_pend_begin _ _ hv, h.live hc.1 hc.2]; omega) hv
    generalize touchLoop now b.1 (beginAll s.touches vs) vs = r at q q1 q2
    have hck : checkCounts r.1 vs = r.1 := by
      unfold checkCounts; rw [if_pos]
      have := sum2_done_le r.2.1 vs; omega
    rw [hck]
    obtain ⟨u1, u2, u3, u4⟩ := updateMap_inv q.inv
    refine ⟨⟨u1, ?_, ?_⟩, ⟨?_, ?_⟩, ?_⟩
    · intro _ _
      show (updateMap r.1).nf = _
      rw [u4, q1, sum2_done_phases _ _ q2, Nat.zero_add]
    · intro hn; exact absurd hc hn
    · exact (g.trans q).keeps.valid
    · show Alt.after _ _ = heldCode (updateMap r.1)
      rw [u2]; exact (g.trans q).keeps.after
    · exact setPhases_phase _ _ q2
  · rw [if_neg hc]
    obtain ⟨u1, u2, u3, u4⟩ := updateMap_inv h.fsm
    refine ⟨⟨u1, fun a b => absurd ⟨a, b⟩ hc, fun _ => ?_⟩, ⟨trivial, ?_⟩, setPhases_phase _ _ hlen'⟩
    · show (updateMap s.fsm).nf = 0 ∧ ((updateMap s.fsm).st = .idle ∨ (updateMap s.fsm).st = .dead)
      rw [u3, u4]; exact h.rest hc
    · show heldCode s.fsm = heldCode (updateMap s.fsm)
      rw [u2]

theorem handle_idle_timeout (f : Fsm) (now : Nat) (h : f.st = .idle) :
    (handle f now .timeout).1 = clearTimer f := by
  obtain ⟨st, timer, pressed, sp, sr, map, wm, drag, dl, nf, bugs, faults⟩ := f
  simp only at h; subst h; rfl

theorem handle_dead_timeout (f : Fsm) (now : Nat) (h : f.st = .dead) :
    (handle f now .timeout).1 = clearTimer f := by
  obtain ⟨st, timer, pressed, sp, sr, map, wm, drag, dl, nf, bugs, faults⟩ := f
  simp only at h; subst h; rfl

theorem fire_inv (s : State) (now : Nat) (h : Inv s) :
    Inv (fire s now).1 ∧ Out s.fsm (fire s now).1.fsm (fire s now).2 := by
  have hk := handle_keeps { s.fsm with timer := none } now .timeout h.fsm.pressed
  have hnf := handle_nf { s.fsm with timer := none } now .timeout (by decide)
  have hf := other_fits { s.fsm with timer := none } now .timeout h.fsm.fits (by simp)
  refine ⟨⟨⟨hk.pressed, timeout_timer _ now, ?_, ?_, ?_⟩, ?_, ?_⟩, ⟨hk.valid, hk.after⟩⟩
  · exact (handle_bugs _ now _ (by intro h'; cases h')).trans h.fsm.bugs
  · exact hnf.2.1.trans h.fsm.faults
  · show Fits _ (handle { s.fsm with timer := none } now .timeout).1.nf
    rw [hnf.1]; exact hf
  · intro a b
    exact hnf.1.trans (h.live a b)
  · intro hn
    obtain ⟨h1, h2⟩ := h.rest hn
    refine ⟨hnf.1.trans h1, ?_⟩
    show (handle { s.fsm with timer := none } now .timeout).1.st = _ ∨ _
    rcases h2 with h2 | h2
    · left; rw [handle_idle_timeout { s.fsm with timer := none } _ h2]; exact h2
    · right
      show (handle { s.fsm with timer := none } now .timeout).1.st = _
      rw [handle_dead_timeout { s.fsm with timer := none } _ h2]; exact h2

theorem mark_pressed (f : Fsm) (n m : Fg) (d : Bool) :
    (mark f n d).pressed m = if m = n then d else f.pressed m := rfl

/-- `tp_release_all_taps` releases exactly the held button. -/
theorem releaseAll_eq (s : State) (now : Nat) (h : PressedOk s.fsm) :
    ((releaseAll s now).2 = match heldOf s.fsm.st with
      | some n => [notify s.fsm now n false]
      | none => []) ∧
    (releaseAll s now).1.fsm = { s.fsm with st := .idle, nf := 0, pressed := fun _ => false } ∧
    (releaseAll s now).1.touches = allPalms s.touches := by
  have h1 := h .one; have h2 := h .two; have h3 := h .three
  refine ⟨?_, ?_, rfl⟩
  · cases hh : heldOf s.fsm.st with
    | none => simp [releaseAll, releaseOne, h1, h2, h3, hh]
    | some n => cases n <;> simp [releaseAll, releaseOne, h1, h2, h3, hh, mark, notify]
  · have hp : ∀ g : Fsm, g.pressed = (fun _ => false) → g = { g with pressed := fun _ => false } := by
      intro g hg; rw [← hg]
    cases hh : heldOf s.fsm.st with
    | none =>
      have : s.fsm.pressed = fun _ => false := by funext n; rw [h n, hh]; simp
      simp [releaseAll, releaseOne, h1, h2, h3, hh, goto, ← this]
    | some n =>
      have hpr : s.fsm.pressed = fun m => decide (n = m) := by
        funext m; rw [h m, hh]; simp
      have e : (fun m => !decide (m = n) && decide (n = m)) = fun _ => false := by
        funext m; cases n <;> cases m <;> rfl
      cases n <;> simp [releaseAll, releaseOne, h1, h2, h3, hh, goto, mark, hpr, e]

theorem releaseAll_out (s : State) (now : Nat) (h : PressedOk s.fsm) :
    Out s.fsm (releaseAll s now).1.fsm (releaseAll s now).2 := by
  obtain ⟨e1, e2, _⟩ := releaseAll_eq s now h
  rw [e1, e2]
  cases hh : heldOf s.fsm.st with
  | none =>
    refine ⟨trivial, ?_⟩
    rw [heldCode_none (f := { s.fsm with st := .idle, nf := 0, pressed := fun _ => false }) rfl]
    exact heldCode_none hh
  | some n =>
    refine ⟨?_, ?_⟩
    · simp [edges, notify, Alt.Valid, heldCode, hh]
    · rw [heldCode_none (f := { s.fsm with st := .idle, nf := 0, pressed := fun _ => false }) rfl]
      funext c; simp [edges, notify, Alt.after, heldCode, hh]

theorem allPalms_count (ts : List Touch) : countDown (allPalms ts) = 0 := by
  simp only [countDown, List.length_eq_zero_iff, List.filter_eq_nil_iff, allPalms, List.mem_map]
  rintro t ⟨u, _, rfl⟩
  by_cases h : u.phase = .none <;> simp [h, Touch.ok]

theorem allPalms_phase (ts : List Touch) :
    (allPalms ts).map Touch.phase = ts.map Touch.phase := by
  induction ts with
  | nil => rfl
  | cons t ts ih =>
    simp only [allPalms, List.map_cons, List.map_map] at *
    rw [ih]; by_cases h : t.phase = .none <;> simp [h]

theorem idle_finv (f : Fsm) (h : FInv f) :
    FInv { f with st := .idle, nf := 0, pressed := fun _ => false } :=
  ⟨fun n => by simp [heldOf], timerOk_no rfl, h.bugs, h.faults, fits_some rfl rfl⟩

theorem releaseAll_inv (s : State) (now : Nat) (h : FInv s.fsm) : Inv (releaseAll s now).1 := by
  obtain ⟨e1, e2, e3⟩ := releaseAll_eq s now h.pressed
  refine ⟨by rw [e2]; exact idle_finv _ h, ?_, ?_⟩
  · intro _ _; rw [e2, e3, allPalms_count]
  · intro _; rw [e2]; exact ⟨rfl, Or.inl rfl⟩

theorem enabledUpdate_inv (s : State) (a b : Bool) (now : Nat) (h : Inv s) :
    Inv (enabledUpdate s a b now).1 ∧
    Out s.fsm (enabledUpdate s a b now).1.fsm (enabledUpdate s a b now).2 ∧
    (enabledUpdate s a b now).1.touches.map Touch.phase = s.touches.map Touch.phase := by
  unfold enabledUpdate
  simp only
  split
  · rename_i he
    exact ⟨⟨h.fsm, fun x y => h.live (he ▸ x) y, fun x => h.rest (fun y => x ⟨he ▸ y.1, y.2⟩)⟩,
      ⟨trivial, rfl⟩, rfl⟩
  · rename_i he
    split
    · rename_i hon
      have hoff : s.on = false := by
        cases hs : s.on with
        | false => rfl
        | true => exact absurd (hon.trans hs.symm) he
      obtain ⟨h1, h2⟩ := h.rest (by simp [hoff])
      have hh : heldOf s.fsm.st = none := by rcases h2 with h2 | h2 <;> rw [h2] <;> rfl
      have hpr : s.fsm.pressed = fun _ => false := by funext n; rw [h.fsm.pressed n, hh]; simp
      have e : ({ goto s.fsm .idle with nf := 0 } : Fsm) =
          { s.fsm with st := .idle, nf := 0, pressed := fun _ => false } := by
        simp [goto, ← hpr]
      refine ⟨⟨?_, ?_, ?_⟩, ⟨trivial, ?_⟩, allPalms_phase _⟩
      · show FInv { goto s.fsm .idle with nf := 0 }
        rw [e]; exact idle_finv _ h.fsm
      · intro _ _; exact (allPalms_count _).symm
      · intro _; exact ⟨rfl, Or.inl rfl⟩
      · show heldCode s.fsm = heldCode { goto s.fsm .idle with nf := 0 }
        rw [heldCode_none hh]; rfl
    · exact ⟨releaseAll_inv { s with suspended := a, enabled := b } now h.fsm,
        releaseAll_out { s with suspended := a, enabled := b } now h.fsm.pressed, allPalms_phase _⟩

theorem liftView_fits (ts : List Touch) :
    fitsAll (ts.map Touch.phase) (ts.map liftView) = true := by
  induction ts with
  | nil => rfl
  | cons t ts ih =>
    simp only [List.map_cons, fitsAll, ih, Bool.and_true]
    obtain ⟨ph, th, pa⟩ := t
    cases ph <;> rfl

theorem clear_inv (s : State) (now : Nat) (btn : Bool) (h : Inv s) :
    Inv (clear s now btn).1 ∧ Out s.fsm (clear s now btn).1.fsm (clear s now btn).2 ∧
    (clear s now btn).1.touches.map Touch.phase = s.touches.map (fun _ => .none) ∧
    (clear s now btn).1.devSuspended = s.devSuspended ∧ (clear s now btn).1.on = s.on := by
  have i1 := releaseAll_inv s now h.fsm
  have o1 := releaseAll_out s now h.fsm.pressed
  obtain ⟨i2, o2, p2⟩ := frame_inv (releaseAll s now).1 now btn _ i1 (liftView_fits _)
  unfold clear
  refine ⟨i2, ⟨?_, ?_⟩, ?_, ?_, ?_⟩
  · show Alt.Valid _ (edges (_ ++ _))
    rw [edges_append, Alt.valid_append, o1.after]; exact ⟨o1.valid, o2.valid⟩
  · show Alt.after _ (edges (_ ++ _)) = _
    rw [edges_append, Alt.after_append, o1.after]; exact o2.after
  · rw [p2]
    show ((allPalms s.touches).map liftView).map _ = _
    simp only [allPalms, List.map_map]
    apply List.map_congr_left
    intro t _
    obtain ⟨ph, th, pa⟩ := t
    cases ph <;> rfl
  · show (frame (releaseAll s now).1 now btn _).1.devSuspended = _
    unfold frame; split <;> rfl
  · show (frame (releaseAll s now).1 now btn _).1.on = _
    unfold frame; split <;> rfl

/-- Nothing is counted when nothing is down. -/
theorem countDown_none (ts : List Touch) (h : ∀ t ∈ ts, t.phase ≠ .down) : countDown ts = 0 := by
  simp only [countDown, List.length_eq_zero_iff, List.filter_eq_nil_iff]
  intro t ht; simp [h t ht]

theorem phases_ne_down {ts : List Touch} {ps : List Phase} (h : ts.map Touch.phase = ps)
    (hp : ∀ p ∈ ps, p ≠ .down) : ∀ t ∈ ts, t.phase ≠ .down := by
  intro t ht; exact hp _ (h ▸ List.mem_map_of_mem ht)

/-- After clearing there is no finger left; the state is idle, or dead if a click was still queued. -/
theorem clear_rest (s : State) (now : Nat) (btn : Bool) (h : Inv s) :
    (clear s now btn).1.fsm.nf = 0 ∧
    ((clear s now btn).1.fsm.st = .idle ∨ (clear s now btn).1.fsm.st = .dead) := by
  obtain ⟨i, o, p, _⟩ := clear_inv s now btn h
  by_cases hc : (clear s now btn).1.on = true ∧ (clear s now btn).1.devSuspended = false
  · have hz : countDown (clear s now btn).1.touches = 0 := by
      refine countDown_none _ (phases_ne_down p ?_)
      intro q hq
      simp only [List.mem_map] at hq
      obtain ⟨_, _, rfl⟩ := hq
      exact fun hcc => by cases hcc
    refine ⟨by rw [i.live hc.1 hc.2, hz], ?_⟩
    -- every event of the clearing frame is a click or `PALM_UP`, from state idle
    have hgo : ∀ (f : Fsm) (ts : List Touch) (vs : List View), (f.st = .idle ∨ f.st = .dead) → f.nf = 0 →
        (∀ t ∈ ts, t.phase ≠ .none → t.isPalm = true) →
        vs = ts.map liftView →
        ((touchLoop now f ts vs).1.st = .idle ∨ (touchLoop now f ts vs).1.st = .dead) := by
      intro f ts vs h1 h2 h3 h4
      subst h4
      induction ts generalizing f with
      | nil => exact h1
      | cons t ts ih =>
        simp only [List.map_cons, touchLoop]
        have hs : ((touchStep now f t (liftView t)).1.st = .idle ∨
            (touchStep now f t (liftView t)).1.st = .dead) ∧
            (touchStep now f t (liftView t)).1.nf = 0 := by
          obtain ⟨ph, th, pa⟩ := t
          have hp := h3 _ (List.mem_cons_self ..)
          obtain ⟨st, tm, pr, sp, sr, mp, wm, dr, dl, nf, bg, fl⟩ := f
          simp only at h1 h2
          cases ph with
          | none => exact ⟨h1, h2⟩
          | hovering => exact ⟨h1, h2⟩
          | down =>
            have hpa : pa = true := hp (by simp)
            cases th with
            | true => exact ⟨h1, h2⟩
            | false =>
              subst hpa
              rcases h1 with rfl | rfl <;>
                simp [touchStep, liftView, handle, dispatch, idleH, deadH, settle, clearTimer, ok, h2, goto]
        exact ih _ hs.1 hs.2 (fun u hu => h3 u (List.mem_cons_of_mem _ hu))
    obtain ⟨e1, e2, e3⟩ := releaseAll_eq s now h.fsm.pressed
    have hfin : ∀ f : Fsm, (f.st = .idle ∨ f.st = .dead) → ∀ vs,
        ((updateMap (checkCounts f vs)).st = .idle ∨ (updateMap (checkCounts f vs)).st = .dead) := by
      intro f hf vs
      unfold updateMap checkCounts
      split <;> split <;> exact hf
    unfold clear
    simp only
    unfold frame
    split
    · simp only [handleState]
      apply hfin
      refine hgo _ _ _ ?_ ?_ ?_ ?_
      · rw [e2]; cases btn
        · left; rfl
        · right; rfl
      · rw [e2]; cases btn <;> rfl
      · intro t ht hne
        have : beginAll (releaseAll s now).1.touches ((releaseAll s now).1.touches.map liftView) =
            allPalms s.touches := by
          rw [e3]
          generalize allPalms s.touches = l
          induction l with
          | nil => rfl
          | cons x xs ih =>
            simp only [List.map_cons, beginAll, ih]
            congr 1
            obtain ⟨ph, th, pa⟩ := x
            cases ph <;> rfl
        rw [this] at ht
        simp only [allPalms, List.mem_map] at ht
        obtain ⟨u, _, rfl⟩ := ht
        by_cases hu : u.phase = .none
        · rw [if_pos hu] at hne; exact absurd hu hne
        · rw [if_neg hu]
      · rw [e3]
        generalize allPalms s.touches = l
        induction l with
        | nil => rfl
        | cons x xs ih =>
          simp only [List.map_cons, beginAll]
          rw [← ih]
          congr 1
          obtain ⟨ph, th, pa⟩ := x
          cases ph <;> rfl
    · have := updateMap_inv (f := (releaseAll s now).1.fsm) (by rw [e2]; exact idle_finv _ h.fsm)
      show (updateMap (releaseAll s now).1.fsm).st = _ ∨ _
      rw [this.2.2.1, e2]; left; rfl
  · exact i.rest hc

theorem step_inv (s : State) (op : Op) (h : Inv s)
    (hv : ∀ now btn vs, op = .frame now btn vs → fitsAll (s.touches.map Touch.phase) vs = true) :
    Inv (step s op).1 ∧ Out s.fsm (step s op).1.fsm (step s op).2 ∧
    (step s op).1.touches.map Touch.phase = follow (s.touches.map Touch.phase) op := by
  cases op with
  | frame now btn vs => exact frame_inv s now btn vs h (hv now btn vs rfl)
  | timeout now => exact ⟨(fire_inv s now h).1, (fire_inv s now h).2, rfl⟩
  | setEnabled e now => exact enabledUpdate_inv s _ _ now h
  | suspend now => exact enabledUpdate_inv s _ _ now h
  | resume now => exact enabledUpdate_inv s _ _ now h
  | clear now btn =>
    obtain ⟨a, b, c, _⟩ := clear_inv s now btn h
    exact ⟨a, b, by rw [show (step s (.clear now btn)).1 = (clear s now btn).1 from rfl, c]; simp [follow]⟩
  | devSuspend now btn =>
    obtain ⟨a, b, c, _⟩ := clear_inv s now btn h
    have r := clear_rest s now btn h
    refine ⟨⟨a.fsm, fun _ x => (by cases x), fun _ => r⟩, b, ?_⟩
    show (clear s now btn).1.touches.map Touch.phase = _
    rw [c]; simp [follow]
  | devResume now btn =>
    obtain ⟨a, b, c, _⟩ := clear_inv s now btn h
    have r := clear_rest s now btn h
    refine ⟨⟨a.fsm, fun _ _ => ?_, fun _ => r⟩, b, ?_⟩
    · show (clear s now btn).1.fsm.nf = countDown (clear s now btn).1.touches
      rw [r.1]; symm
      refine countDown_none _ (phases_ne_down c ?_)
      intro q hq
      simp only [List.mem_map] at hq
      obtain ⟨_, _, rfl⟩ := hq
      exact fun hcc => by cases hcc
    · show (clear s now btn).1.touches.map Touch.phase = _
      rw [c]; simp [follow]
  | setMap m =>
    obtain ⟨u1, u2, u3, u4⟩ := updateMap_inv (f := { s.fsm with wantMap := m })
      ⟨h.fsm.pressed, h.fsm.timer, h.fsm.bugs, h.fsm.faults, h.fsm.fits⟩
    refine ⟨⟨u1, fun a b => u4.trans (h.live a b), fun hn => ?_⟩, ⟨trivial, u2.symm⟩, rfl⟩
    obtain ⟨r1, r2⟩ := h.rest hn
    refine ⟨u4.trans r1, ?_⟩
    show (updateMap { s.fsm with wantMap := m }).st = _ ∨ (updateMap { s.fsm with wantMap := m }).st = _
    rw [u3]; exact r2
  | setDrag e =>
    exact ⟨⟨⟨h.fsm.pressed, h.fsm.timer, h.fsm.bugs, h.fsm.faults, h.fsm.fits⟩, h.live, h.rest⟩,
      ⟨trivial, rfl⟩, rfl⟩
  | setDragLock e =>
    exact ⟨⟨⟨h.fsm.pressed, h.fsm.timer, h.fsm.bugs, h.fsm.faults, h.fsm.fits⟩, h.live, h.rest⟩,
      ⟨trivial, rfl⟩, rfl⟩

theorem run_inv (s : State) (ops : List Op) (h : Inv s)
    (hv : Possible (s.touches.map Touch.phase) ops) :
    Inv (run s ops).1 ∧ Out s.fsm (run s ops).1.fsm (run s ops).2 ∧
    (run s ops).1.touches.map Touch.phase = ops.foldl follow (s.touches.map Touch.phase) := by
  induction ops generalizing s with
  | nil => exact ⟨h, ⟨trivial, rfl⟩, rfl⟩
  | cons op ops ih =>
    obtain ⟨hv1, hv2⟩ := hv
    obtain ⟨a, b, c⟩ := step_inv s op h (by intro now btn vs e; subst e; exact hv1)
    obtain ⟨a', b', c'⟩ := ih (step s op).1 a (by rw [c]; exact hv2)
    simp only [run]
    refine ⟨a', ⟨?_, ?_⟩, ?_⟩
    · rw [edges_append, Alt.valid_append, b.after]; exact ⟨b.valid, b'.valid⟩
    · rw [edges_append, Alt.after_append, b.after]; exact b'.after
    · rw [c', c]; rfl

theorem init_inv (n : Nat) (e : Bool) : Inv (init n e) := by
  refine ⟨⟨fun n => by simp [init, heldOf], timerOk_no rfl, rfl, rfl, fits_some rfl rfl⟩, ?_, ?_⟩
  · intro _ _
    symm; refine countDown_none _ ?_
    intro t ht
    rw [List.eq_of_mem_replicate ht]; simp
  · intro _; exact ⟨rfl, Or.inl rfl⟩

theorem init_phases (n : Nat) (e : Bool) :
    (init n e).touches.map Touch.phase = List.replicate n .none := by simp [init]

theorem run_append (s : State) (a b : List Op) :
    run s (a ++ b) = ((run (run s a).1 b).1, (run s a).2 ++ (run (run s a).1 b).2) := by
  induction a generalizing s with
  | nil => simp [run]
  | cons op a ih => simp [run, ih, List.append_assoc]

end Libinput.Tap
