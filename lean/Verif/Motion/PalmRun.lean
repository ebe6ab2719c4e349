import Verif.Motion.Palm
/-
A touch and what it is taken for, frame by frame.
-/
namespace Libinput.Motion
open Touch (St)

/-- What palm detection is given, for a touch that is reported as `v` in a frame. -/
structure Seen (s : Pad) (vs : List View) (t : Finger) (v : View) (now : Nat) (s2 : Pad) (t2 : Finger) : Prop where
  same : Same s s2
  sts : vs.length = s.touches.length → stOf s2 = vs.map View.st
  pcore : t2.pcore = (t.take v now).pcore
  st : t2.st = v.st
  pressure : t2.pressure = v.pressure
  major : t2.touchMajor = v.touchMajor
  minor : t2.touchMinor = v.touchMinor
  tool : t2.toolPalm = v.toolPalm
  pos : t2.pos = v.raw

theorem take_fields (t : Finger) (v : View) (now : Nat) : (t.take v now).st = v.st ∧ (t.take v now).dirty = v.dirty ∧ (t.take v now).pressure = v.pressure ∧
    (t.take v now).touchMajor = v.touchMajor ∧ (t.take v now).touchMinor = v.touchMinor ∧ (t.take v now).toolPalm = v.toolPalm ∧ (t.take v now).pos = v.raw := by
  unfold Finger.take
  simp only
  cases e : v.st <;> exact ⟨rfl, rfl, rfl, rfl, rfl, rfl, rfl⟩

theorem takeAll_sts (now : Nat) : ∀ (ts : List Finger) (vs : List View), vs.length = ts.length → (takeAll now ts vs).map Finger.st = vs.map View.st
  | [], [], _ => rfl
  | [], _ :: _, h => by simp at h
  | _ :: _, [], h => by simp at h
  | t :: ts, v :: vs, h => by
    simp only [takeAll, List.map_cons, (take_fields t v now).1]
    rw [takeAll_sts now ts vs (by simpa using h)]

/-- What a frame makes of a touch that is reported as down. -/
theorem frame_seen (s : Pad) (vs : List View) (g : Frame) (hov : Nat → Bool) (now i : Nat) (t : Finger) (v : View) (hn : Numbered s)
    (ht : s.touches[i]? = some t) (hv : vs[i]? = some v) (hs : v.st = .begin ∨ v.st = .update) :
    ∃ w, At (s.frame vs g hov now).1 i w ∧ (v.dirty = true → ∃ s2 t2, Seen s vs t v now s2 t2 ∧ w.pcore = (s2.palmDetect t2 v now).pcore) ∧
      (v.dirty = false → w.pcore = (t.take v now).pcore) ∧ (w.palm ≠ .none → ∀ o ∈ (s.frame vs g hov now).2, ¬ o.by i) := by
  obtain ⟨u, h1, h2, h3, _, h4⟩ := judge_handled s vs g now i t v ht hv
  obtain ⟨f1, f2, f3, f4, f5, f6, f7⟩ := take_fields t v now
  obtain ⟨w, w1, w2, w3, w4⟩ := frame_handled s vs g hov now i u h1
  have hnn : (t.take v now).st ≠ .none := by rw [f1]; rcases hs with h | h <;> (rw [h]; simp)
  refine ⟨w, ⟨w1, w4 (by rw [h3]; exact hs)⟩, fun hd => ?_, fun hd => ?_, fun hp => ?_⟩
  · obtain ⟨s2, t2, k1, k2, k3, k4⟩ := h4.1 ⟨hnn, by rw [f2]; exact hd⟩
    obtain ⟨b1, b2, b3, b4, b5, b6, b7, _⟩ := bare_palm k3
    exact ⟨s2, t2, ⟨k1, fun hl => k2.trans (takeAll_sts now _ _ hl), b1, b2.trans f1, b3.trans f3, b4.trans f4, b5.trans f5, b6.trans f6, b7.trans f7⟩, w2.trans k4⟩
  · rw [w2]
    exact h4.2 (fun k => by rw [f2, hd] at k; exact absurd k.2 (by decide))
  · exact frame_not_by s vs g hov now i u hn h1 (fun e => hp ((congrArg PCore.palm w2 : w.palm = u.palm).trans e))

/-- A property `I` of what a touch is taken for that every frame of a history keeps; `J`: what is known of the touchpad. -/
theorem run_inv (I : PCore → Prop) (J : Pad → Prop) : ∀ (ops : List Op) (s : Pad) (i : Nat) (t : Finger), Numbered s → At s i t → I t.pcore → J s →
    (∀ op ∈ ops, StaysDown i op) → (∀ op ∈ ops, ∀ s, J s → J (step s op).1) →
    (∀ now vs g hov, .frame now vs g hov ∈ ops → ∀ v, vs[i]? = some v → v.dirty = true → ∀ s0 t0 s2 t2, J s0 → s0.cfg = s.cfg → s0.touches.length = s.touches.length →
      I t0.pcore → t2.pcore = t0.pcore → Seen s0 vs t0 v now s2 t2 → I (s2.palmDetect t2 v now).pcore) →
    (∃ u, At (run s ops).1 i u ∧ I u.pcore) ∧ ((∀ p, I p → p.palm ≠ .none) → ∀ o ∈ (run s ops).2, ¬ o.by i)
  | [], s, i, t, _, ht, hi, _, _, _, _ => ⟨⟨t, ht, hi⟩, fun _ o ho => by simp [run] at ho⟩
  | op :: ops, s, i, t, hn, ht, hi, hj, hs, hJ, hf => by
    have one : (∃ u, At (step s op).1 i u ∧ I u.pcore) ∧ ((∀ p, I p → p.palm ≠ .none) → ∀ o ∈ (step s op).2, ¬ o.by i) := by
      by_cases hfr : ∃ now vs g hov, op = .frame now vs g hov
      · obtain ⟨now, vs, g, hov, rfl⟩ := hfr
        obtain ⟨v, hv, hvs⟩ := hs (.frame now vs g hov) (by simp)
        obtain ⟨w, w1, w2, w3, w4⟩ := frame_seen s vs g hov now i t v hn ht.get hv (.inr hvs)
        have tk := (take_update t v now hvs ht.here).1
        have hw : I w.pcore := by
          cases hd : v.dirty with
          | false => rw [w3 hd, tk]; exact hi
          | true =>
            obtain ⟨s2, t2, k1, k2⟩ := w2 hd
            rw [k2]
            exact hf now vs g hov (by simp) v hv hd s t s2 t2 hj rfl rfl hi (k1.pcore.trans tk) k1
        exact ⟨⟨w, w1, hw⟩, fun hp => w4 (hp _ hw)⟩
      · obtain ⟨k1, k2⟩ := step_core s op i (hs op (by simp)) (fun now vs g hov e => hfr ⟨now, vs, g, hov, e⟩)
        obtain ⟨y, hy, hyc⟩ := core_get k1 ht.get
        have hys : y.st = t.st := congrArg Core.st hyc
        exact ⟨⟨y, ⟨hy, by rw [hys]; exact ht.down⟩, by rw [pcore_of_core hyc]; exact hi⟩, fun _ o ho => not_by_of_still (k2 o ho) i⟩
    obtain ⟨⟨u, u1, u2⟩, u3⟩ := one
    have sh := shape_step s op
    obtain ⟨r1, r2⟩ := run_inv I J ops (step s op).1 i u (numbered_shape sh hn) u1 u2 (hJ op (by simp) s hj) (fun x hx => hs x (by simp [hx]))
      (fun x hx => hJ x (by simp [hx])) (by
        intro now vs g hov hop v hv hd s0 t0 s2 t2 a1 a2 a3
        exact hf now vs g hov (by simp [hop]) v hv hd s0 t0 s2 t2 a1 (a2.trans sh.cfg) (a3.trans sh.length))
    refine ⟨r1, fun hp o ho => ?_⟩
    simp only [run, List.mem_append] at ho
    rcases ho with ho | ho
    · exact u3 hp o ho
    · exact r2 hp o ho

/-! ### Palm detection, one step at a time -/

theorem palmPressure_cases (s : Pad) (t : Finger) : s.palmPressure t = (t, false) ∨ (s.palmPressure t).1.palm = .pressure := by
  unfold Pad.palmPressure
  split
  · exact .inl rfl
  · split
    · exact .inl rfl
    · simp only
      split
      · exact .inr rfl
      · by_cases h : t.palm = .pressure
        · exact .inr h
        · left; simp [h]

theorem palmPressure_flag (s : Pad) (t : Finger) (h : (s.palmPressure t).2 = true) : (s.palmPressure t).1.palm = .pressure := by
  unfold Pad.palmPressure at h ⊢
  cases e : s.cfg.palmPressure with
  | none => simp only [e] at h; cases h
  | some p =>
    simp only [e] at h ⊢
    split at h <;> rename_i e2
    · cases h
    · rw [if_neg e2]
      simpa using h

theorem palmDwt_flag (s : Pad) (t : Finger) (h : (s.palmDwt t).2 = true) : (s.palmDwt t).1.palm = .typing := by
  unfold Pad.palmDwt at h ⊢
  split at h <;> rename_i e
  · rw [if_pos e]
  · split at h <;> cases h

theorem palmTrk_flag (s : Pad) (t : Finger) (h : (s.palmTrk t).2 = true) : (s.palmTrk t).1.palm = .trackpoint := by
  unfold Pad.palmTrk at h ⊢
  split at h <;> rename_i e
  · cases h
  · rw [if_neg e]
    split at h <;> rename_i e2
    · rw [if_pos e2]
    · split at h <;> cases h

theorem palmTool_flag (s : Pad) (t : Finger) (h : (s.palmTool t).2 = true) : (s.palmTool t).1.palm = .tool := by
  unfold Pad.palmTool at h ⊢
  split at h <;> rename_i e
  · cases h
  · rw [if_neg e]
    split at h <;> rename_i e2
    · cases h
    · rw [if_neg e2]
      simpa using h

theorem palmSize_flag (s : Pad) (t : Finger) (h : (s.palmSize t).2 = true) : (s.palmSize t).1.palm = .size := by
  unfold Pad.palmSize at h ⊢
  cases e : s.cfg.palmSize with
  | none => simp only [e] at h; cases h
  | some z =>
    simp only [e] at h ⊢
    split at h <;> rename_i e2
    · cases h
    · rw [if_neg e2]
      split at h <;> rename_i e3
      · rw [if_pos e3]
      · cases h

theorem palmEdge_flag (s : Pad) (t : Finger) (v : View) (now : Nat) (h : (s.palmEdge t v now).2 = true) : (s.palmEdge t v now).1.palm = .edge := by
  unfold Pad.palmEdge at h ⊢
  split at h <;> rename_i e
  · cases h
  · rw [if_neg e]
    split at h <;> rename_i e2
    · cases h
    · rw [if_neg e2]
      split at h <;> rename_i e3
      · cases h
      · rw [if_neg e3]
        split at h <;> rename_i e4
        · cases h
        · rw [if_neg e4]
          split at h <;> rename_i e5
          · cases h
          · rw [if_neg e5]

/-- The weight of a touch is not touched by palm detection. -/
theorem palm_pressure_same (s : Pad) (t : Finger) (v : View) (now : Nat) :
    (s.palmPressure t).1.pressure = t.pressure ∧ (s.palmArb t).1.pressure = t.pressure ∧ (s.palmDwt t).1.pressure = t.pressure ∧ (s.palmTrk t).1.pressure = t.pressure ∧
      (s.palmTool t).1.pressure = t.pressure ∧ (s.palmSize t).1.pressure = t.pressure ∧ (s.palmEdge t v now).1.pressure = t.pressure := by
  refine ⟨?_, ?_, ?_, ?_, ?_, ?_, ?_⟩
  · unfold Pad.palmPressure; repeat' split
    all_goals first | rfl | (simp only; split <;> rfl)
  · unfold Pad.palmArb; repeat' split
    all_goals rfl
  · unfold Pad.palmDwt; repeat' split
    all_goals rfl
  · unfold Pad.palmTrk; repeat' split
    all_goals rfl
  · unfold Pad.palmTool; repeat' split
    all_goals first | rfl | (simp only; repeat' split) <;> rfl
  · unfold Pad.palmSize; repeat' split
    all_goals rfl
  · unfold Pad.palmEdge; repeat' split
    all_goals first | rfl | (simp only; split <;> rfl)

/-- A heavy touch is a palm, whatever it was before. -/
theorem palmDetect_heavy (s : Pad) (t : Finger) (v : View) (now : Nat) (p : Int) (hp : s.cfg.palmPressure = some p) (h : p < t.pressure) : (s.palmDetect t v now).palm ≠ .none := by
  unfold Pad.palmDetect
  simp only
  obtain ⟨w1, -, -, -, -, -, -⟩ := palm_pressure_same s t v now
  have k1 := palmPressure_flag s t
  generalize s.palmPressure t = r1 at w1 k1 ⊢
  split
  · next e => rw [k1 e]; simp
  obtain ⟨-, w2, -, -, -, -, -⟩ := palm_pressure_same s r1.1 v now
  have k2 : (s.palmArb r1.1).2 = true → (s.palmArb r1.1).1.palm = .arbitration := by
    unfold Pad.palmArb; split <;> simp
  generalize s.palmArb r1.1 = r2 at w2 k2 ⊢
  split
  · next e => rw [k2 e]; simp
  obtain ⟨-, -, w3, -, -, -, -⟩ := palm_pressure_same s r2.1 v now
  have k3 := palmDwt_flag s r2.1
  generalize s.palmDwt r2.1 = r3 at w3 k3 ⊢
  split
  · next e => rw [k3 e]; simp
  obtain ⟨-, -, -, w4, -, -, -⟩ := palm_pressure_same s r3.1 v now
  have k4 := palmTrk_flag s r3.1
  generalize s.palmTrk r3.1 = r4 at w4 k4 ⊢
  split
  · next e => rw [k4 e]; simp
  obtain ⟨-, -, -, -, w5, -, -⟩ := palm_pressure_same s r4.1 v now
  have k5 := palmTool_flag s r4.1
  generalize s.palmTool r4.1 = r5 at w5 k5 ⊢
  split
  · next e => rw [k5 e]; simp
  obtain ⟨-, -, -, -, -, w6, -⟩ := palm_pressure_same s r5.1 v now
  have k6 := palmSize_flag s r5.1
  generalize s.palmSize r5.1 = r6 at w6 k6 ⊢
  split
  · next e => rw [k6 e]; simp
  obtain ⟨-, -, -, -, -, -, w7⟩ := palm_pressure_same s r6.1 v now
  have k7 := palmEdge_flag s r6.1 v now
  generalize s.palmEdge r6.1 v now = r7 at w7 k7 ⊢
  split
  · next e => rw [k7 e]; simp
  · have hw : p < r7.1.pressure := by rw [w7, w6, w5, w4, w3, w2, w1]; exact h
    unfold Pad.palmPressure
    simp only [hp]
    split
    · next e => exact e.1
    · simp [hw]

/-- Palm detection of a touch in whose way nothing stands up to the last step. -/
theorem palmDetect_plain (s : Pad) (t : Finger) (v : View) (now : Nat) (ha : s.arb = false) (e1 : s.palmPressure t = (t, false))
    (e3 : s.palmDwt t = (t, false)) (e4 : s.palmTrk t = (t, false)) (e5 : s.palmTool t = (t, false)) (e6 : s.palmSize t = (t, false)) :
    s.palmDetect t v now = if (s.palmEdge t v now).2 then (s.palmEdge t v now).1 else (s.palmPressure (s.palmEdge t v now).1).1 := by
  have e2 : s.palmArb t = (t, false) := by unfold Pad.palmArb; rw [ha]; rfl
  unfold Pad.palmDetect
  simp only [e1, e2, e3, e4, e5, e6, Bool.false_eq_true, if_false]

end Libinput.Motion
