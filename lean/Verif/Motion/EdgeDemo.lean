import Verif.Motion.Demo
/-
Whether a concrete history is careful, for the concrete cases beside the theorems.
-/
namespace Libinput.Motion

def palmLike (c : Config) (v : View) : Bool :=
  (match c.palmPressure with | some p => decide (p < v.pressure) | none => false) ||
    (match c.palmSize with | some z => decide (z < v.touchMajor) || decide (z < v.touchMinor) | none => false) || (c.palmTool && v.toolPalm)

theorem palmLike_iff (c : Config) (v : View) : PalmLike c v ↔ palmLike c v = true := by
  unfold PalmLike palmLike
  simp only [Bool.or_eq_true, Bool.and_eq_true, or_assoc]
  refine or_congr ?_ (or_congr ?_ Iff.rfl)
  · cases c.palmPressure <;> simp
  · cases c.palmSize <;> simp

def carefulOp (s : Pad) (ds : List Bool) (past : List Out) : Op → Bool
  | .frame _ vs _ _ =>
    Touch.Spec.fitsAll ds (vs.map fun v => (v.st, v.dirty)) &&
      (List.range vs.length).all fun i => match vs[i]? with
        | some v => v.st != .end_ || scrolling i past == none || (!s.suspended && !palmLike s.cfg v && (!s.cfg.thumbs || vs.all fun w => w.st != .begin))
        | none => true
  | .clear _ vs _ | .arbitrate _ vs _ => (List.range s.touches.length).all fun i => scrolling i past == none || (!s.suspended && !palmLike s.cfg (vs.getD i { st := .none }))
  | .setMethod _ _ => ds.all fun d => !d
  | _ => true

def careful (s : Pad) (ds : List Bool) (past : List Out) : List Op → Bool
  | [] => true
  | op :: ops => carefulOp s ds past op && careful (step s op).1 (downsAfter s ds op) (past ++ (step s op).2) ops

/-- The operations of the demo that do not clear the state. -/
def Op.simple : Op → Bool
  | .clear .. | .arbitrate .. => false
  | _ => true

theorem carefulOp_sound (s : Pad) (ds : List Bool) (past : List Out) (op : Op) (hs : op.simple = true) (h : carefulOp s ds past op = true) : CarefulOp s ds past op := by
  cases op with
  | frame now vs g hov =>
    simp only [carefulOp, Bool.and_eq_true] at h
    refine ⟨h.1, ?_⟩
    intro i v hv hst hsc
    have hlt := (List.getElem?_eq_some_iff.1 hv).1
    have := List.all_eq_true.1 h.2 i (by simp [hlt])
    simp only [hv, hst, Bool.or_eq_true, Bool.and_eq_true, Bool.not_eq_true', bne_self_eq_false, Bool.false_eq_true, false_or, beq_iff_eq] at this
    rcases this with this | ⟨⟨k1, k2⟩, k3⟩
    · exact absurd this hsc
    · refine ⟨k1, ?_, ?_⟩
      · rw [palmLike_iff, k2]; simp
      · intro ht w hw
        rcases k3 with k3 | k3
        · rw [ht] at k3; cases k3
        · have := List.all_eq_true.1 k3 w hw
          simpa using this
  | clear now vs g => cases hs
  | arbitrate now vs g => cases hs
  | setMethod now m =>
    intro d hd
    have := List.all_eq_true.1 h d hd
    simpa using this
  | _ => trivial

theorem careful_sound : ∀ (ops : List Op) (s : Pad) (ds : List Bool) (past : List Out), ops.all Op.simple = true → careful s ds past ops = true → Careful s ds past ops
  | [], _, _, _, _, _ => trivial
  | op :: ops, s, ds, past, hs, h => by
    simp only [careful, Bool.and_eq_true] at h
    simp only [List.all_cons, Bool.and_eq_true] at hs
    exact ⟨carefulOp_sound s ds past op hs.1 h.1, careful_sound ops _ _ _ hs.2 h.2⟩

/-- One finger comes down at `(x, y)` and moves by `(dx, dy)` in each of four frames. -/
def slide (t : Nat) (x y dx dy : Int) : List Op :=
  [demoFrame t [at_ .begin x y], demoFrame (t + 1000) [at_ .update (x + dx) (y + dy)], demoFrame (t + 2000) [at_ .update (x + 2 * dx) (y + 2 * dy)],
    demoFrame (t + 3000) [at_ .update (x + 3 * dx) (y + 3 * dy)], demoFrame (t + 4000) [at_ .update (x + 4 * dx) (y + 4 * dy)]]

def nobody : List Bool := [false, false, false, false, false]

end Libinput.Motion
