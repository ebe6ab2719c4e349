import Verif.Motion.PalmTouch
import Verif.Motion.PalmSpec
/-
A touch that is taken for a palm, over time.
-/
namespace Libinput.Motion
open Touch (St)

/-- Why a touch stays a palm: it is one for a reason that does not go away, or the keyboard or the trackpoint is still
used, or was used after the touch began. -/
def Kept (d : Dwt) (k : Trackpoint) (p : PCore) : Prop :=
  p.palm = .pressure ∨ p.palm = .size ∨ p.palm = .arbitration ∨
    (p.palm = .typing ∧ (d.active = true ∨ (p.palmTime ≠ 0 ∧ p.palmTime ≤ d.last))) ∨
    (p.palm = .trackpoint ∧ (k.active = true ∨ (p.palmTime ≠ 0 ∧ p.palmTime ≤ k.last)))

theorem Kept.palm {d : Dwt} {k : Trackpoint} {p : PCore} (h : Kept d k p) : p.palm ≠ .none := by
  rcases h with h | h | h | h | h <;> first | (rw [h]; simp) | (rw [h.1]; simp)

/-- Same palm, or a pen came near. -/
def Follows (p q : PCore) : Prop := q = p ∨ q = { p with palm := .arbitration }

theorem Follows.kept {d : Dwt} {k : Trackpoint} {p q : PCore} (h : Kept d k p) (f : Follows p q) : Kept d k q := by
  rcases f with rfl | rfl
  · exact h
  · exact .inr (.inr (.inl rfl))

theorem Follows.trans {p q r : PCore} (h : Follows p q) (k : Follows q r) : Follows p r := by
  rcases h with rfl | rfl
  · exact k
  · rcases k with rfl | rfl
    · exact .inr rfl
    · exact .inr rfl

theorem palmPressure_other (s : Pad) (t : Finger) (h : t.palm ≠ .none) (h2 : t.palm ≠ .pressure) : s.palmPressure t = (t, false) := by
  unfold Pad.palmPressure
  split
  · rfl
  · rw [if_pos ⟨h, h2⟩]

theorem palmPressure_pressure (s : Pad) (t : Finger) (h : t.palm = .pressure) : s.palmPressure t = (t, false) ∨ s.palmPressure t = (t, true) := by
  unfold Pad.palmPressure
  split
  · exact .inl rfl
  · rw [if_neg (by rw [h]; simp)]
    simp only
    right
    split
    · cases t; simp only at h; subst h; rfl
    · rw [h]; rfl

/-- A touch that has been down stays the palm it is. -/
theorem palmDetect_kept (s : Pad) (t : Finger) (v : View) (now : Nat) (hst : t.st = .update) (h : Kept s.dwt s.trk t.pcore) :
    Follows t.pcore (s.palmDetect t v now).pcore := by
  have hn : t.palm ≠ .none := h.palm
  have he : t.palm ≠ .edge := by
    rcases h with h | h | h | h | h <;> simp only [Finger.pcore] at h <;> first | (rw [h]; simp) | (rw [h.1]; simp)
  have ht : t.palm ≠ .tool := by
    rcases h with h | h | h | h | h <;> simp only [Finger.pcore] at h <;> first | (rw [h]; simp) | (rw [h.1]; simp)
  have e1 : s.palmPressure t = (t, false) ∨ s.palmPressure t = (t, true) := by
    by_cases hp : t.palm = .pressure
    · exact palmPressure_pressure s t hp
    · exact .inl (palmPressure_other s t hn hp)
  have e3 : s.palmDwt t = (t, false) := by
    unfold Pad.palmDwt
    rw [if_neg (by rw [hst]; simp)]
    split
    · next hc =>
      obtain ⟨c1, _, c3, c4⟩ := hc
      exfalso
      rcases h with h | h | h | h | h <;> simp only [Finger.pcore] at h
      · rw [h] at c3; cases c3
      · rw [h] at c3; cases c3
      · rw [h] at c3; cases c3
      · obtain ⟨_, h | ⟨h1, h2⟩⟩ := h
        · rw [h] at c1; cases c1
        · rcases c4 with c4 | c4 <;> omega
      · rw [h.1] at c3; cases c3
    · rfl
  have e4 : s.palmTrk t = (t, false) := by
    unfold Pad.palmTrk
    split
    · rfl
    · rw [if_neg (by rw [hst]; simp)]
      split
      · next hc =>
        obtain ⟨c3, _, c1, c4⟩ := hc
        exfalso
        rcases h with h | h | h | h | h <;> simp only [Finger.pcore] at h
        · rw [h] at c3; cases c3
        · rw [h] at c3; cases c3
        · rw [h] at c3; cases c3
        · rw [h.1] at c3; cases c3
        · obtain ⟨_, h | ⟨h1, h2⟩⟩ := h
          · rw [h] at c1; cases c1
          · rcases c4 with c4 | c4 <;> omega
      · rfl
  have e5 : s.palmTool t = (t, false) := by
    unfold Pad.palmTool
    split
    · rfl
    · rw [if_pos ⟨hn, ht⟩]
  have e6 : s.palmSize t = (t, false) ∨ s.palmSize t = (t, true) := by
    unfold Pad.palmSize
    split
    · exact .inl rfl
    · split
      · exact .inl rfl
      · next hc =>
        split
        · have hz : t.palm = .size := by
            by_cases hz : t.palm = .size
            · exact hz
            · exact absurd ⟨hn, hz⟩ hc
          right
          cases t; simp only at hz; subst hz; rfl
        · exact .inl rfl
  have e7 : s.palmEdge t v now = (t, false) := by
    unfold Pad.palmEdge
    rw [if_neg he]
    split
    · rfl
    · rw [if_pos (.inl (by rw [hst]; simp))]
  unfold Pad.palmDetect
  rcases e1 with e1 | e1
  · simp only [e1]
    simp only [Bool.false_eq_true, if_false]
    unfold Pad.palmArb
    by_cases ha : s.arb = true
    · simp only [if_pos ha, if_true]; exact .inr rfl
    · simp only [if_neg ha, Bool.false_eq_true, if_false, e3, e4, e5]
      rcases e6 with e6 | e6
      · simp only [e6, Bool.false_eq_true, if_false, e7, e1]; exact .inl rfl
      · simp only [e6, if_true]; exact .inl rfl
  · simp only [e1, if_true]; exact .inl rfl

theorem take_update (t : Finger) (v : View) (now : Nat) (h : v.st = .update) (ht : t.st ≠ .none) : (t.take v now).pcore = t.pcore ∧ (t.take v now).st = .update := by
  unfold Finger.take
  simp only [h, if_neg ht]
  exact ⟨rfl, trivial⟩

theorem bare_palm {t u : Finger} (h : u.bare = t.bare) : u.pcore = t.pcore ∧ u.st = t.st ∧ u.pressure = t.pressure ∧ u.touchMajor = t.touchMajor ∧ u.touchMinor = t.touchMinor ∧
    u.toolPalm = t.toolPalm ∧ u.pos = t.pos ∧ u.index = t.index := by
  have p : ∀ x : Finger, x.pcore = x.bare.pcore ∧ x.st = x.bare.st ∧ x.pressure = x.bare.pressure ∧ x.touchMajor = x.bare.touchMajor ∧ x.touchMinor = x.bare.touchMinor ∧ x.toolPalm = x.bare.toolPalm ∧
      x.pos = x.bare.pos ∧ x.index = x.bare.index :=
    fun x => ⟨rfl, rfl, rfl, rfl, rfl, rfl, rfl, rfl⟩
  obtain ⟨q1, q2, q3, q4, q5, q6, q7, q8⟩ := p u
  obtain ⟨r1, r2, r3, r4, r5, r6, r7, r8⟩ := p t
  rw [h] at q1 q2 q3 q4 q5 q6 q7 q8
  exact ⟨q1.trans r1.symm, q2.trans r2.symm, q3.trans r3.symm, q4.trans r4.symm, q5.trans r5.symm, q6.trans r6.symm, q7.trans r7.symm, q8.trans r8.symm⟩

/-- The touches are numbered. -/
def Numbered (s : Pad) : Prop := s.touches.map Finger.index = List.range s.touches.length

theorem numbered_shape {s t : Pad} (h : Shape s t) (k : Numbered s) : Numbered t := by
  unfold Numbered at k ⊢
  rw [h.index, h.length]
  exact k

theorem numbered_init (c : Config) (n : Nat) (m : Method) (dwt areas : Bool) : Numbered (init c n m dwt areas) := by
  unfold Numbered init
  simp [Function.comp_def]

theorem numbered_run (ops : List Op) (c : Config) (n : Nat) (m : Method) (dwt areas : Bool) : Numbered (run (init c n m dwt areas) ops).1 :=
  numbered_shape (shape_run ops _) (numbered_init c n m dwt areas)

/-- A frame in which a touch is taken for a palm is not because of that touch. -/
theorem frame_not_by (s : Pad) (vs : List View) (g : Frame) (hov : Nat → Bool) (now : Nat) (i : Nat) (u : Finger) (hn : Numbered s)
    (h : (s.judge vs g now).1.touches[i]? = some u) (hp : u.palm ≠ .none) : ∀ o ∈ (s.frame vs g hov now).2, ¬ o.by i := by
  intro o ho hb
  cases o with
  | motion w => exact palm_not_mover s vs g hov now i u (numbered_shape (shape_judge s vs g now) hn) h hp w ho hb
  | edge j a x =>
    obtain rfl : j = i := hb
    obtain ⟨u2, h1, h2, _⟩ := frame_scrolls s vs g hov now _ j a x hn ho
    rw [h] at h1
    cases h1
    exact hp h2.palm
  | edgeStop j a => exact hb
  | two e => exact hb
  | begin k m => exact hb
  | update k m => exact hb
  | end_ k m b => exact hb
  | bug => exact hb

/-- Everything but frames, and clearing, leaves the touches alone and moves nothing. -/
theorem step_core (s : Pad) (op : Op) (i : Nat) (h : StaysDown i op) (hf : ∀ now vs g hov, op ≠ .frame now vs g hov) :
    (step s op).1.touches.map Finger.core = s.touches.map Finger.core ∧ ∀ o ∈ (step s op).2, o.acts = false := by
  cases op with
  | frame now vs g hov => exact absurd rfl (hf now vs g hov)
  | clear now vs g => exact absurd h id
  | suspended b => exact ⟨rfl, by simp [step]⟩
  | key now k code press =>
    have ka := sends_stopActions s now
    have kb := stopActions_still s now
    simp only [step]
    split
    · unfold Pad.keyEvent
      repeat' split
      all_goals first
        | exact ⟨rfl, by simp⟩
        | exact ⟨ka.core, kb⟩
    · exact ⟨rfl, by simp⟩
  | pair k => exact ⟨rfl, by simp [step]⟩
  | unpair k =>
    simp only [step, Pad.unpair]
    split <;> exact ⟨rfl, by simp⟩
  | keyTimeout now =>
    simp only [step]
    split
    · unfold Pad.keyTimeout; split <;> exact ⟨rfl, by simp⟩
    · exact ⟨rfl, by simp⟩
  | trackpoint now =>
    simp only [step]
    split
    · unfold Pad.trkEvent
      simp only
      split
      · exact ⟨rfl, by simp⟩
      · split
        · exact ⟨rfl, by simp⟩
        · exact ⟨(sends_stopActions { s with trk := { s.trk with last := now, count := s.trk.count + 1 } } now).core, stopActions_still _ now⟩
    · exact ⟨rfl, by simp⟩
  | trkTimeout now =>
    simp only [step]
    split
    · unfold Pad.trkTimeout; split <;> exact ⟨rfl, by simp⟩
    · exact ⟨rfl, by simp⟩
  | gestTimeout now =>
    simp only [step]
    split
    · unfold Pad.gestTimeout
      simp only
      split
      · exact ⟨rfl, by simp⟩
      · exact ⟨((sends_gest s { s.gest with timer := none }).trans (sends_gestEnd { s with gest := { s.gest with timer := none } } now true)).core, gestEnd_still _ now true⟩
    · exact ⟨rfl, by simp⟩
  | edgeTimeout now j =>
    simp only [step]
    split
    · unfold Pad.edgeTimeout
      split
      · exact ⟨rfl, by simp⟩
      · next t ht =>
        refine ⟨?_, fun o ho => not_acts_of_bug (edgeEvent_out _ _ _ _ o ho)⟩
        have hc := edgeEvent_core s { t with edgeTimer := none } .timeout now
        have hlt := (List.getElem?_eq_some_iff.1 ht).1
        simp only [Pad.put]
        apply List.ext_getElem?
        intro k
        simp only [List.getElem?_map, List.getElem?_set]
        split
        · next e =>
          subst e
          simp only [if_true, Option.map_some, ht, hc]
          rfl
        · rfl
    · exact ⟨rfl, by simp⟩
  | arbitrate now vs g => exact absurd h id
  | arbitrateEnd now => simp only [step]; split <;> exact ⟨rfl, by simp⟩
  | arbTimeout now => simp only [step]; split <;> exact ⟨rfl, by simp⟩
  | setMethod now m =>
    simp only [step]
    unfold Pad.setMethod
    split
    · exact ⟨rfl, by simp⟩
    · refine ⟨((sends_each s _ edgeStop_core).trans (sends_stopTwoFinger (s.each Finger.edgeStop).1 now)).core, ?_⟩
      intro o ho
      simp only [List.mem_append] at ho
      rcases ho with ho | ho
      · exact each_out _ _ _ edgeStop_still o ho
      · exact stopTwoFinger_still _ now o ho
  | setDwt b => exact ⟨rfl, by simp [step]⟩
  | setAreas b => exact ⟨rfl, by simp [step]⟩

theorem not_by_of_still {o : Out} (h : o.acts = false) (i : Nat) : ¬ o.by i := by
  cases o <;> simp_all [Out.acts, Out.by]

/-- The touch `i` is down. -/
structure At (s : Pad) (i : Nat) (t : Finger) : Prop where
  get : s.touches[i]? = some t
  down : t.st = .begin ∨ t.st = .update

theorem At.here {s : Pad} {i : Nat} {t : Finger} (h : At s i t) : t.st ≠ .none := by
  rcases h.down with h | h <;> (rw [h]; simp)

theorem core_get {s t : Pad} (h : t.touches.map Finger.core = s.touches.map Finger.core) {i : Nat} {x : Finger} (hx : s.touches[i]? = some x) :
    ∃ y, t.touches[i]? = some y ∧ y.core = x.core := by
  have hc := congrArg (fun l => l[i]?) h
  simp only [List.getElem?_map, hx, Option.map_some] at hc
  cases hy : t.touches[i]? with
  | none => rw [hy] at hc; cases hc
  | some y =>
    rw [hy] at hc
    simp only [Option.map_some, Option.some.injEq] at hc
    exact ⟨y, rfl, hc⟩

/-- One step in which the touch stays down. -/
theorem step_kept (s : Pad) (op : Op) (i : Nat) (t : Finger) (hn : Numbered s) (ht : At s i t) (hk : Kept s.dwt s.trk t.pcore) (hs : StaysDown i op) :
    (∀ o ∈ (step s op).2, ¬ o.by i) ∧ ∃ u, At (step s op).1 i u ∧ Follows t.pcore u.pcore := by
  by_cases hf : ∃ now vs g hov, op = .frame now vs g hov
  · obtain ⟨now, vs, g, hov, rfl⟩ := hf
    obtain ⟨v, hv, hvs⟩ := hs
    obtain ⟨u, h1, h2, h3, _, h4⟩ := judge_handled s vs g now i t v ht.get hv
    have tk := take_update t v now hvs ht.here
    have hfol : Follows t.pcore u.pcore := by
      by_cases hc : (t.take v now).st ≠ .none ∧ (t.take v now).dirty = true
      · obtain ⟨s2, t2, k1, _, k3, k4⟩ := h4.1 hc
        obtain ⟨b1, b2, _⟩ := bare_palm k3
        have := palmDetect_kept s2 t2 v now (b2.trans tk.2) (by rw [k1.dwt, k1.trk, b1, tk.1]; exact hk)
        rw [← k4, b1, tk.1] at this
        exact this
      · rw [h4.2 hc, tk.1]; exact .inl rfl
    have hp : u.palm ≠ .none := (hfol.kept hk).palm
    obtain ⟨w, w1, w2, w3, w4⟩ := frame_handled s vs g hov now i u h1
    exact ⟨frame_not_by s vs g hov now i u hn h1 hp, w, ⟨w1, w4 (.inr (h3.trans hvs))⟩, by rw [w2]; exact hfol⟩
  · obtain ⟨k1, k2⟩ := step_core s op i hs (fun now vs g hov e => hf ⟨now, vs, g, hov, e⟩)
    obtain ⟨y, hy, hyc⟩ := core_get k1 ht.get
    refine ⟨fun o ho => not_by_of_still (k2 o ho) i, y, ⟨hy, ?_⟩, .inl (pcore_of_core hyc)⟩
    have hys : y.st = t.st := congrArg Core.st hyc
    rw [hys]; exact ht.down

/-- A history in which the touch stays down and what makes it a palm does not go away. -/
theorem run_kept : ∀ (ops : List Op) (s : Pad) (i : Nat) (t : Finger), Numbered s → At s i t → Kept s.dwt s.trk t.pcore → (∀ op ∈ ops, StaysDown i op) →
    (∀ a b, ops = a ++ b → ∀ p, Follows t.pcore p → Kept (run s a).1.dwt (run s a).1.trk p) →
    (∀ o ∈ (run s ops).2, ¬ o.by i) ∧ ∃ u, At (run s ops).1 i u ∧ Follows t.pcore u.pcore
  | [], s, i, t, _, ht, _, _, _ => ⟨by simp [run], t, ht, .inl rfl⟩
  | op :: ops, s, i, t, hn, ht, hk, hs, hq => by
    obtain ⟨h1, u, h2, h3⟩ := step_kept s op i t hn ht hk (hs op (by simp))
    have e : (run s [op]).1 = (step s op).1 := rfl
    obtain ⟨h4, w, h5, h6⟩ := run_kept ops (step s op).1 i u (numbered_shape (shape_step s op) hn) h2
      (by have := hq [op] ops rfl u.pcore h3; rw [e] at this; exact this) (fun x hx => hs x (by simp [hx]))
      (by
        intro a b hab p hp
        have := hq (op :: a) b (by rw [hab]; rfl) p (h3.trans hp)
        exact this)
    refine ⟨?_, w, h5, h3.trans h6⟩
    intro o ho
    simp only [run, List.mem_append] at ho
    rcases ho with ho | ho
    · exact h1 o ho
    · exact h4 o ho

end Libinput.Motion
