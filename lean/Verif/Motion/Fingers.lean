import Verif.Motion.Gesture
/-
How many fingers the events of a frame are about.
-/
namespace Libinput.Motion
open Touch (St)

theorem gestActive_iff (s : Pad) (t : Finger) : s.gestActive t = decide (Counts s t) := by
  rw [Bool.eq_iff_iff, decide_eq_true_eq]
  unfold Pad.gestActive Counts Pad.thumbIgnoredG Finger.down
  cases h : s.thumb.st <;> simp [and_assoc, and_left_comm] <;> grind

theorem counting_eq (s : Pad) : counting s = s.touches.countP s.gestActive := by
  unfold counting
  congr 1
  funext t
  exact (gestActive_iff s t).symm

/-- Events that are not about a gesture going on, and not about the pointer. -/
def Out.minor : Out → Bool
  | .edge .. | .edgeStop .. | .bug | .two _ | .end_ _ _ true => true
  | _ => false

theorem minor_of_ofEdge {o : Out} (h : o.ofEdge = true) : o.minor = true := by
  cases o <;> simp [Out.ofEdge] at h <;> rfl

theorem stopTwoFinger_out (s : Pad) (now : Nat) : ∀ o ∈ (s.stopTwoFinger now).2, o.minor = true := by
  unfold Pad.stopTwoFinger
  split
  · intro o ho; simp at ho
  · intro o ho
    simp only [List.mem_map] at ho
    obtain ⟨e, _, rfl⟩ := ho
    rfl

theorem gestEnd_out (s : Pad) (now : Nat) (b : Bool) : ∀ o ∈ (s.gestEnd now b).2, o.minor = true ∨ ∃ k n, o = .end_ k n b := by
  unfold Pad.gestEnd
  simp only
  split
  · intro o ho; simp at ho
  · split
    · intro o ho; simp at ho; subst ho; exact .inl rfl
    · intro o ho; simp at ho; subst ho; exact .inl rfl
    · intro o ho; exact .inl (stopTwoFinger_out _ now o ho)
    · intro o ho; simp at ho; exact .inr ⟨_, _, ho⟩
    · intro o ho; simp at ho; exact .inr ⟨_, _, ho⟩

theorem gestCancel_out (s : Pad) (now : Nat) : ∀ o ∈ (s.gestEnd now true).2, o.minor = true := by
  intro o ho
  rcases gestEnd_out s now true o ho with h | ⟨k, n, rfl⟩
  · exact h
  · rfl

/-- After counting the fingers, either something is pending or the count is right. -/
theorem gestState_count (s : Pad) (now : Nat) (h : (s.gestState now).1.gest.pending = 0) :
    (s.gestState now).1.gest.count = s.touches.countP s.gestActive := by
  unfold Pad.gestState at h ⊢
  simp only at h ⊢
  generalize s.touches.countP s.gestActive = a at h ⊢
  by_cases h1 : a = s.gest.count
  · rw [if_pos h1]; exact h1.symm
  · rw [if_neg h1] at h ⊢
    by_cases h2 : a = 0
    · rw [if_pos h2]; exact h2.symm
    · rw [if_neg h2] at h ⊢
      by_cases h3 : s.gest.started = false
      · rw [if_pos h3]
      · rw [if_neg h3] at h ⊢
        by_cases h4 : a ≠ s.gest.pending
        · rw [if_pos h4] at h; exact absurd h h2
        · rw [if_neg h4] at h
          have : a = s.gest.pending := by simpa using h4
          exact absurd (this.trans h) h2

theorem gestState_out (s : Pad) (now : Nat) : ∀ o ∈ (s.gestState now).2, o.minor = true ∨ (s.touches.countP s.gestActive = 0 ∧ ∃ k n, o = .end_ k n false) := by
  unfold Pad.gestState
  simp only
  split
  · intro o ho; simp at ho
  · split
    · next h =>
      intro o ho
      rcases gestEnd_out s now false o ho with h1 | h1
      · exact .inl h1
      · exact .inr ⟨h, h1⟩
    · split
      · intro o ho; simp at ho
      · split <;> (intro o ho; simp at ho)

/-- What `gestPost` sends. -/
def Told (g : Frame) (clickpad : Bool) (count : Nat) (o : Out) : Prop :=
  match o with
  | .begin _ n => n = count
  | .update _ n => n = count
  | .motion _ => count = 1 ∨ g.dragging = true ∨ (clickpad = true ∧ g.held = true)
  | .end_ _ _ c => c = true
  | _ => True

theorem told_minor {g : Frame} {b : Bool} {n : Nat} {o : Out} (h : o.minor = true) : Told g b n o := by
  cases o with
  | end_ k n c => cases c <;> simp [Out.minor] at h; rfl
  | motion w => simp [Out.minor] at h
  | begin k n => simp [Out.minor] at h
  | update k n => simp [Out.minor] at h
  | edge i a v => trivial
  | edgeStop i a => trivial
  | two e => trivial
  | bug => trivial

theorem gestStart_told (s : Pad) (g : Frame) (b : Bool) : ∀ o ∈ s.gestStart.2, Told g b s.gest.count o := by
  unfold Pad.gestStart
  split
  · intro o ho; simp at ho
  · simp only [beginOut]
    cases s.gest.st <;> intro o ho <;> simp at ho <;> subst ho <;> first | trivial | rfl

theorem gestStart_count (s : Pad) : s.gestStart.1.gest.count = s.gest.count := by
  unfold Pad.gestStart; split <;> rfl

theorem postGesture_told (s : Pad) (g : Frame) (b : Bool) (d : Nat → Nat) (now : Nat) : ∀ o ∈ (s.postGesture g d now).2, Told g b s.gest.count o := by
  unfold Pad.postGesture
  obtain ⟨s1, e1⟩ : ∃ x, x = (if s.gest.st = .none then s.gestNone now else s) := ⟨_, rfl⟩
  have h1 : s1.gest.count = s.gest.count := by
    rw [e1]; split
    · exact (gestNone_facts s now).1
    · rfl
  rw [← e1]; clear e1
  simp only
  obtain ⟨s2, e2⟩ : ∃ x, x = (if s1.gest.st = .unknown then s1.gestDetect g (d s1.gest.first) (d s1.gest.second) now else s1) := ⟨_, rfl⟩
  have h2 : s2.gest.count = s.gest.count := by
    rw [e2]; split
    · exact (gestDetect_facts s1 g _ _ now).count.trans h1
    · exact h1
  rw [← e2]; clear e2
  rw [← h2]
  split
  · unfold Pad.gestScroll
    split
    · intro o ho; simp at ho
    · split
      · intro o ho; simp at ho
      · intro o ho
        simp only [List.mem_append, List.mem_map] at ho
        rcases ho with ho | ⟨e, _, rfl⟩
        · exact gestStart_told s2 g b o ho
        · trivial
  · unfold Pad.gestSwipe
    split
    · intro o ho; simp at ho
    · intro o ho
      simp only [List.mem_append, List.mem_singleton] at ho
      rcases ho with ho | rfl
      · exact gestStart_told _ g b o ho
      · exact gestStart_count _
  · unfold Pad.gestPinch
    simp only
    split
    · intro o ho; simp at ho
    · intro o ho
      simp only [List.mem_append, List.mem_singleton] at ho
      rcases ho with ho | rfl
      · have := gestStart_told { s2 with gest := { s2.gest with center := s2.centerOf } } g b o ho; exact this
      · exact gestStart_count _
  · intro o ho; simp at ho
  · intro o ho; simp at ho

theorem gestPost_told (s : Pad) (g : Frame) (d : Nat → Nat) (now : Nat) (a : Nat) (ha : s.gest.pending = 0 → s.gest.count = a) :
    ∀ o ∈ (s.gestPost g d now).2, Told g s.cfg.clickpad a o := by
  unfold Pad.gestPost
  by_cases h0 : s.gest.count = 0
  · rw [if_pos h0]; intro o ho; simp at ho
  · rw [if_neg h0]
    simp only
    have hr : (∀ o ∈ (s.oneFinger g now).2, Told g s.cfg.clickpad a o) ∧
        ((s.oneFinger g now).1 = s ∨ ((s.oneFinger g now).1.gest.count = 1 ∧ (g.dragging = true ∨ (s.cfg.clickpad = true ∧ g.held = true)))) := by
      unfold Pad.oneFinger
      split
      · next hd =>
        refine ⟨fun o ho => told_minor (gestCancel_out s now o ho), .inr ⟨rfl, ?_⟩⟩
        rcases hd with hd | ⟨h1, h2, _⟩
        · exact .inl hd
        · exact .inr ⟨h1, h2⟩
      · exact ⟨fun o ho => by simp at ho, .inl rfl⟩
    obtain ⟨r, er⟩ : ∃ x, x = s.oneFinger g now := ⟨_, rfl⟩
    rw [← er] at hr ⊢
    obtain ⟨hr1, hr2⟩ := hr
    split
    · exact hr1
    · next hp =>
      have hp : r.1.gest.pending = 0 := by simpa using hp
      split
      · next hc =>
        intro o ho
        rw [List.mem_append] at ho
        rcases ho with ho | ho
        · exact hr1 o ho
        · have : ∃ w, o = .motion w := by
            split at ho
            · unfold Pad.postMotion at ho
              split at ho
              · simp at ho
              · simp at ho; exact ⟨_, ho⟩
            · simp at ho
          obtain ⟨w, rfl⟩ := this
          rcases hr2 with hr2 | ⟨_, hr2⟩
          · rw [hr2] at hp hc
            exact .inl ((ha hp).symm.trans hc)
          · exact .inr hr2
      · split
        · next hn hc =>
          intro o ho
          rw [List.mem_append] at ho
          rcases ho with ho | ho
          · exact hr1 o ho
          · have hx := postGesture_told r.1 g s.cfg.clickpad d now o ho
            rcases hr2 with hr2 | ⟨hr2, _⟩
            · rw [hr2] at hx hp
              rw [ha hp] at hx
              exact hx
            · exact absurd hr2 hn
        · exact hr1

theorem postEvents_told (s : Pad) (g : Frame) (d : Nat → Nat) (now : Nat) (a : Nat) (ha : s.gest.pending = 0 → s.gest.count = a) :
    ∀ o ∈ (s.postEvents g d now).2, Told g s.cfg.clickpad a o := by
  unfold Pad.postEvents
  simp only
  intro o ho
  rw [List.mem_append] at ho
  rcases ho with ho | ho
  · exact told_minor (minor_of_ofEdge (clicked_out s g o ho))
  · have k := same_clicked s g
    obtain ⟨t, et⟩ : ∃ x, x = (s.clicked g).1 := ⟨_, rfl⟩
    rw [← et] at ho k
    rw [← k.cfg]
    rw [← k.gest] at ha
    unfold Pad.postRest at ho
    split at ho
    · simp at ho
    · split at ho
      · simp only [List.mem_append] at ho
        rcases ho with ho | ho
        · exact told_minor (minor_of_ofEdge (each_out _ _ _ edgeStop_out o ho))
        · exact told_minor (gestCancel_out _ now o ho)
      · simp only [List.mem_append] at ho
        rcases ho with ho | ho
        · exact told_minor (minor_of_ofEdge (each_out _ _ _ (fun x => edgePost_out t x now) o ho))
        · have k2 := same_each t fun x => t.edgePost x now
          have := gestPost_told (t.each fun x => t.edgePost x now).1 g d now a (by rw [k2.gest]; exact ha) o ho
          rw [k2.cfg] at this
          exact this

/-- What a frame sends, seen with the number of touches that count. -/
theorem frame_told (s : Pad) (vs : List View) (g : Frame) (hov : Nat → Bool) (now : Nat) :
    ∀ o ∈ (s.frame vs g hov now).2, Told g s.cfg.clickpad (counting (s.judge vs g now).1) o ∨
      (counting (s.judge vs g now).1 = 0 ∧ ∃ k n, o = .end_ k n false) := by
  intro o ho
  unfold Pad.frame at ho
  simp only [List.mem_append] at ho
  have k := same_judge s vs g now
  rw [counting_eq]
  generalize hj : s.judge vs g now = j at ho k ⊢
  rcases ho with (ho | ho) | ho
  · rw [judge_out s vs g now o (by rw [hj]; exact ho)]; exact .inl trivial
  · rcases gestState_out j.1 now o ho with h | h
    · exact .inl (told_minor h)
    · exact .inr h
  · have := postEvents_told (j.1.gestState now).1 g _ now _ (gestState_count j.1 now) o ho
    rw [(gestState_cfg j.1 now).1, k.cfg] at this
    exact .inl this

/-! ### When all fingers are lifted -/

theorem take_st (t : Finger) (v : View) (now : Nat) : (t.take v now).st = v.st := by
  unfold Finger.take
  simp only
  split <;> rfl

/-- The states of the touches are not changed. -/
def stOf (s : Pad) : List St := s.touches.map Finger.st

theorem stOf_put (s : Pad) (i : Nat) (t u : Finger) (h : s.touches[i]? = some t) (hu : u.st = t.st) : stOf (s.put i u) = stOf s := by
  unfold stOf Pad.put
  apply List.ext_getElem?
  intro j
  simp only [List.getElem?_map, List.getElem?_set]
  by_cases hj : i = j
  · subst hj
    have hi := List.getElem?_eq_some_iff.1 h
    simp [hi.1, hu, h]
    rw [hi.2]
  · simp [hj]

theorem palmDetect_st (s : Pad) (t : Finger) (v : View) (now : Nat) : (s.palmDetect t v now).st = t.st ∧ (s.palmDetect t v now).index = t.index := by
  have h1 : ∀ t, (s.palmPressure t).1.st = t.st ∧ (s.palmPressure t).1.index = t.index := by
    intro t; unfold Pad.palmPressure; split
    · exact ⟨rfl, rfl⟩
    · split
      · exact ⟨rfl, rfl⟩
      · simp only; split <;> exact ⟨rfl, rfl⟩
  have h2 : ∀ t, (s.palmArb t).1.st = t.st ∧ (s.palmArb t).1.index = t.index := by
    intro t; unfold Pad.palmArb; split <;> exact ⟨rfl, rfl⟩
  have h3 : ∀ t, (s.palmDwt t).1.st = t.st ∧ (s.palmDwt t).1.index = t.index := by
    intro t; unfold Pad.palmDwt; split
    · exact ⟨rfl, rfl⟩
    · split <;> exact ⟨rfl, rfl⟩
  have h4 : ∀ t, (s.palmTrk t).1.st = t.st ∧ (s.palmTrk t).1.index = t.index := by
    intro t; unfold Pad.palmTrk; split
    · exact ⟨rfl, rfl⟩
    · split
      · exact ⟨rfl, rfl⟩
      · split <;> exact ⟨rfl, rfl⟩
  have h5 : ∀ t, (s.palmTool t).1.st = t.st ∧ (s.palmTool t).1.index = t.index := by
    intro t; unfold Pad.palmTool; split
    · exact ⟨rfl, rfl⟩
    · split
      · exact ⟨rfl, rfl⟩
      · simp only; split
        · exact ⟨rfl, rfl⟩
        · split <;> exact ⟨rfl, rfl⟩
  have h6 : ∀ t, (s.palmSize t).1.st = t.st ∧ (s.palmSize t).1.index = t.index := by
    intro t; unfold Pad.palmSize; split
    · exact ⟨rfl, rfl⟩
    · split
      · exact ⟨rfl, rfl⟩
      · split <;> exact ⟨rfl, rfl⟩
  have h7 : ∀ t, (s.palmEdge t v now).1.st = t.st ∧ (s.palmEdge t v now).1.index = t.index := by
    intro t; unfold Pad.palmEdge; split
    · simp only; split <;> exact ⟨rfl, rfl⟩
    · split
      · exact ⟨rfl, rfl⟩
      · split
        · exact ⟨rfl, rfl⟩
        · split
          · exact ⟨rfl, rfl⟩
          · split <;> exact ⟨rfl, rfl⟩
  have tr : ∀ {a b c : Finger}, (a.st = b.st ∧ a.index = b.index) → (b.st = c.st ∧ b.index = c.index) → (a.st = c.st ∧ a.index = c.index) :=
    fun x y => ⟨x.1.trans y.1, x.2.trans y.2⟩
  unfold Pad.palmDetect
  simp only
  have k1 := h1 t
  split
  · exact k1
  · have k2 := tr (h2 _) k1
    split
    · exact k2
    · have k3 := tr (h3 _) k2
      split
      · exact k3
      · have k4 := tr (h4 _) k3
        split
        · exact k4
        · have k5 := tr (h5 _) k4
          split
          · exact k5
          · have k6 := tr (h6 _) k5
            split
            · exact k6
            · have k7 := tr (h7 _) k6
              split
              · exact k7
              · exact tr (h1 _) k7

theorem finish_st (t : Finger) (v : View) : (t.finish v).st = t.st ∧ (t.finish v).index = t.index := by
  unfold Finger.finish Finger.push
  simp only
  split <;> exact ⟨rfl, rfl⟩

theorem forget_st (t : Finger) (w : Bool) : (t.forget w).st = t.st ∧ (t.forget w).index = t.index := by
  unfold Finger.forget
  split
  · exact ⟨rfl, rfl⟩
  · split <;> exact ⟨rfl, rfl⟩

theorem stOf_only {s t : Pad} (h : Only s t) : stOf t = stOf s := by simp [stOf, h.touches]

theorem stOf_processOne (s : Pad) (i : Nat) (v : View) (w : Bool) (now : Nat) : stOf (s.processOne i v w now) = stOf s := by
  unfold Pad.processOne
  split
  · rfl
  · next t ht =>
    split
    · rfl
    · simp only
      obtain ⟨t1, e1⟩ : ∃ x, x = t.forget w := ⟨_, rfl⟩
      have k1 : t1.st = t.st := by rw [e1]; exact (forget_st t w).1
      rw [← e1]
      split
      · exact stOf_put s i t _ ht k1
      · obtain ⟨t2, e2⟩ : ∃ x, x = (if v.jump = true then { t1 with hist := [] } else t1) := ⟨_, rfl⟩
        have k2 : t2.st = t.st := by rw [e2]; split <;> exact k1
        rw [← e2]
        have o := only_thumbUpdate (s.put i t2) t2
        obtain ⟨s2, es2⟩ : ∃ x, x = (s.put i t2).thumbUpdate t2 := ⟨_, rfl⟩
        rw [← es2] at o ⊢
        have hlt := (List.getElem?_eq_some_iff.1 ht).1
        have hget : s2.touches[i]? = some t2 := by rw [o.touches]; simp [Pad.put, hlt]
        rw [stOf_put s2 i t2 _ hget ((finish_st _ _).1.trans (palmDetect_st _ _ _ _).1), stOf_only o]
        exact stOf_put s i t t2 ht k2

theorem stOf_processAll (w : Bool) (now : Nat) : ∀ (vs : List View) (s : Pad) (i : Nat), stOf (s.processAll w now i vs) = stOf s
  | [], _, _ => rfl
  | v :: vs, s, i => (stOf_processAll w now vs _ (i + 1)).trans (stOf_processOne s i v w now)

theorem stOf_process (s : Pad) (vs : List View) (g : Frame) (now : Nat) : stOf (s.process vs g now) = (takeAll now s.touches vs).map Finger.st := by
  unfold Pad.process
  simp only
  split
  · rw [stOf_only (only_thumbMulti _), stOf_processAll]; rfl
  · rw [stOf_processAll]; rfl

theorem stOf_noteActive : ∀ (ts : List Finger) (vs : List View), (noteActive ts vs).map Finger.st = ts.map Finger.st
  | [], vs => by cases vs <;> rfl
  | t :: ts, [] => rfl
  | t :: ts, v :: vs => by simp only [noteActive, List.map_cons, stOf_noteActive ts vs]

theorem eachFinger_st (f : Finger → Finger × List Out) (h : ∀ t, (f t).1.st = t.st) : ∀ ts, (eachFinger f ts).1.map Finger.st = ts.map Finger.st
  | [] => rfl
  | t :: ts => by simp only [eachFinger, List.map_cons, h, eachFinger_st f h ts]

theorem setEdge_st (s : Pad) (t : Finger) (st : EdgeSt) (now : Nat) : (s.setEdge t st now).st = t.st := by
  unfold Pad.setEdge; cases st <;> rfl

theorem narrow_st (s : Pad) (t : Finger) (now : Nat) : (s.narrow t now).st = t.st := by
  unfold Pad.narrow; simp only; split
  · exact setEdge_st _ _ _ _
  · rfl

theorem edgeEvent_st (s : Pad) (t : Finger) (e : EdgeEv) (now : Nat) : (s.edgeEvent t e now).1.st = t.st := by
  unfold Pad.edgeEvent
  split <;> first | rfl | exact setEdge_st _ _ _ _ | exact narrow_st _ _ _ | (split <;> first | rfl | exact setEdge_st _ _ _ _ | exact narrow_st _ _ _)

theorem edgeState_st (s : Pad) (t : Finger) (now : Nat) : (s.edgeState t now).1.st = t.st := by
  unfold Pad.edgeState
  split
  · simp only; split <;> rfl
  · split
    · rfl
    · split <;> first | rfl | exact edgeEvent_st _ _ _ _

theorem stOf_judge (s : Pad) (vs : List View) (g : Frame) (now : Nat) : stOf (s.judge vs g now).1 = (takeAll now s.touches vs).map Finger.st := by
  unfold Pad.judge
  simp only
  have hp : ∀ (u : Pad), stOf (u.pin g) = stOf u := by
    intro u; unfold Pad.pin; split
    · simp only [stOf, List.map_map]; rfl
    · rfl
  rw [hp]
  show (eachFinger _ _).1.map Finger.st = _
  rw [eachFinger_st _ fun t => edgeState_st _ t now]
  show (noteActive _ vs).map Finger.st = _
  rw [stOf_noteActive]
  exact stOf_process s vs g now

theorem takeAll_st (now : Nat) : ∀ (ts : List Finger) (vs : List View), ts.length ≤ vs.length → noneDown vs →
    ∀ x ∈ (takeAll now ts vs).map Finger.st, x ≠ .begin ∧ x ≠ .update
  | [], vs, _, _ => by intro x hx; cases vs <;> simp [takeAll] at hx
  | t :: ts, [], h, _ => by simp at h
  | t :: ts, v :: vs, h, hn => by
    intro x hx
    simp only [takeAll, List.map_cons, List.mem_cons] at hx
    rcases hx with rfl | hx
    · rw [take_st]; exact hn v (by simp)
    · exact takeAll_st now ts vs (by simpa using h) (fun w hw => hn w (by simp [hw])) x hx

theorem counting_zero (s : Pad) (vs : List View) (g : Frame) (now : Nat) (h : s.touches.length ≤ vs.length) (hn : noneDown vs) :
    counting (s.judge vs g now).1 = 0 := by
  unfold counting
  rw [List.countP_eq_zero]
  intro t ht
  have := takeAll_st now s.touches vs h hn t.st (by rw [← stOf_judge s vs g now]; exact List.mem_map_of_mem ht)
  intro hc
  rcases (of_decide_eq_true hc).1 with e | e
  · exact this.1 e
  · exact this.2 e

theorem rest_postEvents (s : Pad) (g : Frame) (d : Nat → Nat) (now : Nat) (h : Rest s) (hc : s.gest.count = 0) :
    followAll .idle (s.postEvents g d now).2 = some .idle := by
  unfold Pad.postEvents
  simp only
  have k := same_clicked s g
  rw [followAll_append, followAll_ofEdge _ _ (clicked_out s g)]
  simp only [Option.bind_some]
  have h1 : Rest (s.clicked g).1 := ⟨by rw [k.gest]; exact h.st, by rw [k.gest]; exact h.started, by simp only [Pad.scrolls, k.scroll]; exact h.dirs⟩
  have hc1 : (s.clicked g).1.gest.count = 0 := by rw [k.gest]; exact hc
  generalize (s.clicked g).1 = t at h1 hc1
  unfold Pad.postRest
  split
  · rfl
  · split
    · simp only
      obtain ⟨q1, q2⟩ := good_each t .idle Finger.edgeStop edgeStop_out h1.inv
      rw [followAll_append, q1]
      exact (good_gestEnd _ .idle now true q2).1
    · simp only
      obtain ⟨q1, q2⟩ := good_each t .idle (fun x => t.edgePost x now) (fun x => edgePost_out t x now) h1.inv
      rw [followAll_append, q1]
      simp only [Option.bind_some]
      unfold Pad.gestPost
      rw [if_pos (by rw [(same_each t _).gest]; exact hc1)]
      rfl

/-- After a frame without fingers nothing is going on. -/
theorem frame_idle (s : Pad) (c : Now) (vs : List View) (g : Frame) (hov : Nat → Bool) (now : Nat) (hl : s.touches.length ≤ vs.length) (hn : noneDown vs) (h : GInv s c) :
    followAll c (s.frame vs g hov now).2 = some .idle := by
  have hz := counting_zero s vs g now hl hn
  rw [counting_eq] at hz
  unfold Pad.frame
  simp only
  have k := same_judge s vs g now
  have h1 := h.same k
  rw [followAll_append, followAll_append, followAll_ofEdge _ c fun o ho => by rw [judge_out s vs g now o ho]; rfl]
  generalize (s.judge vs g now).1 = j at hz h1
  simp only [Option.bind_some]
  have key : followAll c (j.gestState now).2 = some .idle ∧ Rest (j.gestState now).1 ∧ (j.gestState now).1.gest.count = 0 := by
    unfold Pad.gestState
    simp only [hz]
    by_cases h0 : 0 = j.gest.count
    · rw [if_pos h0]
      have hst : j.gest.st = .none := by
        cases e : j.gest.st with
        | none => rfl
        | unknown | scroll | pinch | swipe =>
          have := h1.counts (by rw [e]; exact fun x => by cases x)
          omega
      have hs : j.gest.started = false := by
        cases e : j.gest.started with
        | false => rfl
        | true => rcases h1.started e with x | x | x <;> (rw [hst] at x; cases x)
      rw [h1.idle_of_not hs]
      exact ⟨rfl, ⟨hst, hs, h1.still hs⟩, h0.symm⟩
    · rw [if_neg h0]
      simp only [if_true]
      obtain ⟨q1, q2⟩ := good_gestEnd j c now false h1
      exact ⟨q1, ⟨q2.st, q2.started, q2.dirs⟩, trivial⟩
  rw [key.1]
  exact rest_postEvents _ g _ now key.2.1 key.2.2

theorem lifted_noneDown : ∀ (ts : List Finger) (vs : List View), noneDown (lifted ts vs) ∧ (lifted ts vs).length = ts.length
  | [], _ => ⟨fun v hv => by simp [lifted] at hv, rfl⟩
  | t :: ts, vs => by
    obtain ⟨h1, h2⟩ := lifted_noneDown ts vs.tail
    refine ⟨?_, by simp [lifted, h2]⟩
    intro v hv
    simp only [lifted, List.mem_cons] at hv
    rcases hv with rfl | hv
    · simp only; split <;> exact ⟨(fun x => by cases x), (fun x => by cases x)⟩
    · exact h1 v hv

theorem clear_idle (s : Pad) (c : Now) (vs : List View) (g : Frame) (now : Nat) (h : GInv s c) : followAll c (s.clear vs g now).2 = some .idle := by
  have k : Same s (s.clicked g).1.thumbReset := (same_clicked s g).trans (only_thumbReset _).same
  obtain ⟨n1, n2⟩ := lifted_noneDown (s.clicked g).1.touches vs
  have f := frame_idle (s.clicked g).1.thumbReset c (lifted (s.clicked g).1.touches vs) { g with click := false } (fun _ => false) now
    (by rw [n2]; exact Nat.le_refl _) n1 (h.same k)
  unfold Pad.clear
  rw [followAll_append, followAll_ofEdge _ c (clicked_out s g)]
  exact f

theorem run_append (s : Pad) : ∀ (a b : List Op), run s (a ++ b) = ((run (run s a).1 b).1, (run s a).2 ++ (run (run s a).1 b).2) := by
  intro a
  induction a generalizing s with
  | nil => intro b; rfl
  | cons op ops ih => intro b; simp only [List.cons_append, run, ih, List.append_assoc]

end Libinput.Motion
