import Verif.Motion.Model
/-
What the functions leave alone.
-/
namespace Libinput.Motion
open Touch (St)

/-- Everything but the touches and the thumb is the same. -/
structure Same (s t : Pad) : Prop where
  cfg : t.cfg = s.cfg
  method : t.method = s.method
  areas : t.areas = s.areas
  gest : t.gest = s.gest
  dwt : t.dwt = s.dwt
  trk : t.trk = s.trk
  arb : t.arb = s.arb
  arbTimer : t.arbTimer = s.arbTimer
  tapOff : t.tapOff = s.tapOff
  suspended : t.suspended = s.suspended
  scroll : t.scroll = s.scroll

theorem Same.refl (s : Pad) : Same s s := ⟨rfl, rfl, rfl, rfl, rfl, rfl, rfl, rfl, rfl, rfl, rfl⟩

theorem Same.trans {s t u : Pad} (h : Same s t) (k : Same t u) : Same s u :=
  ⟨k.cfg.trans h.cfg, k.method.trans h.method, k.areas.trans h.areas, k.gest.trans h.gest, k.dwt.trans h.dwt, k.trk.trans h.trk,
   k.arb.trans h.arb, k.arbTimer.trans h.arbTimer, k.tapOff.trans h.tapOff, k.suspended.trans h.suspended, k.scroll.trans h.scroll⟩

theorem same_touches (s : Pad) (ts : List Finger) : Same s { s with touches := ts } := ⟨rfl, rfl, rfl, rfl, rfl, rfl, rfl, rfl, rfl, rfl, rfl⟩
theorem same_thumb (s : Pad) (t : Thumb) : Same s { s with thumb := t } := ⟨rfl, rfl, rfl, rfl, rfl, rfl, rfl, rfl, rfl, rfl, rfl⟩
theorem same_put (s : Pad) (i : Nat) (t : Finger) : Same s (s.put i t) := same_touches s _

/-- The thumb functions change the thumb only. -/
structure Only (s t : Pad) : Prop where
  same : Same s t
  touches : t.touches = s.touches

theorem Only.refl (s : Pad) : Only s s := ⟨.refl s, rfl⟩
theorem Only.trans {s t u : Pad} (h : Only s t) (k : Only t u) : Only s u := ⟨h.same.trans k.same, k.touches.trans h.touches⟩
theorem only_thumb (s : Pad) (t : Thumb) : Only s { s with thumb := t } := ⟨same_thumb s t, rfl⟩

theorem only_setThumb (s : Pad) (i : Nat) (st : ThumbSt) : Only s (s.setThumb i st) := only_thumb s _
theorem only_thumbReset (s : Pad) : Only s s.thumbReset := only_thumb s _
theorem only_thumbLift (s : Pad) : Only s s.thumbLift := only_thumb s _

theorem only_thumbSuppress (s : Pad) (i : Nat) : Only s (s.thumbSuppress i) := by
  unfold Pad.thumbSuppress; split <;> exact only_setThumb _ _ _

theorem only_thumbPinch (s : Pad) (i : Nat) : Only s (s.thumbPinch i) := by
  unfold Pad.thumbPinch
  split
  · exact only_setThumb _ _ _
  · split
    · exact only_thumbSuppress _ _
    · exact .refl _

theorem only_thumbRevive (s : Pad) (t : Finger) : Only s (s.thumbRevive t) := by
  unfold Pad.thumbRevive
  split
  · exact .refl _
  · split <;> exact only_setThumb _ _ _

theorem only_noPinch (s : Pad) (t : Finger) : Only s (s.noPinch t) := by
  unfold Pad.noPinch
  split
  · exact only_thumb _ _
  · exact .refl _

theorem only_thumbAlone (s : Pad) (t : Finger) : Only s (s.thumbAlone t) := by
  unfold Pad.thumbAlone
  have h := only_thumbRevive s t
  generalize s.thumbRevive t = u at h
  simp only
  split
  · exact h.trans (only_setThumb _ _ _)
  · have h2 : Only s (if u.thumb.st = .jailed ∧ u.needsJail t = false then u.setThumb t.index .finger else u) := by
      split
      · exact h.trans (only_setThumb _ _ _)
      · exact h
    generalize (if u.thumb.st = .jailed ∧ u.needsJail t = false then u.setThumb t.index .finger else u) = w at h2
    split
    · exact h2.trans (only_setThumb _ _ _)
    · exact h2

theorem only_thumbUpdate (s : Pad) (t : Finger) : Only s (s.thumbUpdate t) := by
  unfold Pad.thumbUpdate
  split
  · exact .refl _
  · have h := only_noPinch s t
    simp only
    split
    · exact h.trans (only_thumbLift _)
    · split
      · exact h
      · exact h.trans (only_thumbAlone _ _)

theorem only_thumbContext (s : Pad) (c : Scan) (f g : Finger) : Only s (s.thumbContext c f g) := by
  unfold Pad.thumbContext
  split
  · exact only_thumbLift _
  · split
    · split
      · exact only_thumbPinch _ _
      · exact only_thumbSuppress _ _
    · exact only_thumbLift _

theorem only_thumbMulti (s : Pad) : Only s s.thumbMulti := by
  unfold Pad.thumbMulti
  simp only
  split
  · split
    · exact only_thumbSuppress _ _
    · split
      · exact only_thumbLift _
      · exact only_thumbContext _ _ _ _
  · exact .refl _

theorem same_processOne (s : Pad) (i : Nat) (v : View) (want : Bool) (now : Nat) : Same s (s.processOne i v want now) := by
  unfold Pad.processOne
  split
  · exact .refl _
  · split
    · exact .refl _
    · simp only
      split
      · exact same_put _ _ _
      · exact ((same_put _ _ _).trans (only_thumbUpdate _ _).same).trans (same_put _ _ _)

theorem same_processAll (want : Bool) (now : Nat) : ∀ (vs : List View) (s : Pad) (i : Nat), Same s (s.processAll want now i vs)
  | [], s, i => .refl _
  | v :: vs, s, i => (same_processOne s i v want now).trans (same_processAll want now vs _ (i + 1))

theorem same_process (s : Pad) (vs : List View) (g : Frame) (now : Nat) : Same s (s.process vs g now) := by
  unfold Pad.process
  simp only
  split
  · exact ((same_touches _ _).trans (same_processAll _ _ _ _ _)).trans (only_thumbMulti _).same
  · exact (same_touches _ _).trans (same_processAll _ _ _ _ _)

theorem same_buttons (s : Pad) (vs : List View) : Same s (s.buttons vs) := same_touches _ _

theorem same_pin (s : Pad) (g : Frame) : Same s (s.pin g) := by
  unfold Pad.pin; split
  · exact same_touches _ _
  · exact .refl _

theorem same_each (s : Pad) (f : Finger → Finger × List Out) : Same s (s.each f).1 := same_touches _ _

theorem same_clicked (s : Pad) (g : Frame) : Same s (s.clicked g).1 := by
  unfold Pad.clicked; split
  · exact same_each _ _
  · exact .refl _

theorem same_settle (s : Pad) (h : Nat → Bool) : Same s (s.settle h) := by
  unfold Pad.settle; simp only
  split
  · exact (same_touches _ _).trans (only_thumbReset _).same
  · exact same_touches _ _

/-! ### What is sent by the edge functions -/

/-- An event of edge scrolling, or a message. -/
def Out.ofEdge : Out → Bool
  | .edge .. | .edgeStop .. | .bug => true
  | _ => false

theorem each_out (P : Out → Prop) (f : Finger → Finger × List Out) (s : Pad) (h : ∀ t, ∀ o ∈ (f t).2, P o) : ∀ o ∈ (s.each f).2, P o := by
  unfold Pad.each
  simp only
  generalize s.touches = ts
  induction ts with
  | nil => intro o ho; simp [eachFinger] at ho
  | cons t ts ih =>
    intro o ho
    simp only [eachFinger, List.mem_append] at ho
    rcases ho with ho | ho
    · exact h t o ho
    · exact ih o ho

theorem edgeStop_out (t : Finger) : ∀ o ∈ t.edgeStop.2, o.ofEdge = true := by
  unfold Finger.edgeStop
  split <;> intro o ho <;> simp at ho
  subst ho; rfl

theorem edgeEvent_out (s : Pad) (t : Finger) (e : EdgeEv) (now : Nat) : ∀ o ∈ (s.edgeEvent t e now).2, o = .bug := by
  unfold Pad.edgeEvent
  split <;> intro o ho <;> simp at ho <;> exact ho

theorem edgeState_out (s : Pad) (t : Finger) (now : Nat) : ∀ o ∈ (s.edgeState t now).2, o = .bug := by
  unfold Pad.edgeState
  split
  · intro o ho; simp at ho
  · split
    · intro o ho; simp at ho
    · split <;> first | (intro o ho; simp at ho; done) | exact edgeEvent_out _ _ _ _

theorem edgeScroll_out (s : Pad) (t : Finger) (a : Axis) (now : Nat) : ∀ o ∈ (s.edgeScroll t a now).2, o.ofEdge = true := by
  unfold Pad.edgeScroll
  have hb : ∀ o ∈ t.edgeBug, o.ofEdge = true := by
    unfold Finger.edgeBug
    split <;> intro o ho <;> simp at ho
    subst ho; rfl
  split
  · exact hb
  · intro o ho
    simp only [List.mem_append, List.mem_cons] at ho
    rcases ho with ho | ho | ho
    · exact hb o ho
    · subst ho; rfl
    · rw [edgeEvent_out _ _ _ _ o ho]; rfl

theorem edgePost_out (s : Pad) (t : Finger) (now : Nat) : ∀ o ∈ (s.edgePost t now).2, o.ofEdge = true := by
  unfold Pad.edgePost
  split
  · intro o ho; simp at ho
  · split
    · intro o ho; simp at ho
    · split
      · intro o ho; simp at ho
      · split
        · split
          · intro o ho; simp at ho
          · intro o ho; simp at ho; subst ho; rfl
        · split
          · intro o ho; simp at ho
          · exact edgeScroll_out _ _ _ _

theorem clicked_out (s : Pad) (g : Frame) : ∀ o ∈ (s.clicked g).2, o.ofEdge = true := by
  unfold Pad.clicked
  split
  · exact each_out _ _ _ edgeStop_out
  · intro o ho; simp at ho

end Libinput.Motion
