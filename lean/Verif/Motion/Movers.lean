import Verif.Motion.Keep
/-
Which touches move the pointer, and what is sent when no touch counts.
-/
namespace Libinput.Motion
open Touch (St)

theorem mem_eachFinger (f : Finger → Finger × List Out) : ∀ (ts : List Finger) (x : Finger), x ∈ (eachFinger f ts).1 → ∃ t ∈ ts, x = (f t).1
  | [], _, h => by simp [eachFinger] at h
  | t :: ts, x, h => by
    simp only [eachFinger, List.mem_cons] at h
    rcases h with h | h
    · exact ⟨t, by simp, h⟩
    · obtain ⟨y, h1, h2⟩ := mem_eachFinger f ts x h
      exact ⟨y, by simp [h1], h2⟩

theorem edgePost_area (s : Pad) (t : Finger) (now : Nat) (h : (s.edgePost t now).1.edgeSt = .area) : t.edgeSt = .area := by
  unfold Pad.edgePost at h
  split at h
  · exact h
  split at h
  · exact h
  split at h
  · exact h
  split at h
  · split at h <;> exact h
  split at h
  · exact h
  · unfold Pad.edgeScroll at h
    split at h
    · exact h
    · unfold Pad.edgeEvent at h
      simp only at h
      cases e : t.edgeSt <;> simp [e, Pad.setEdge] at h ⊢

theorem edgeStop_area (t : Finger) (h : t.edgeStop.1.edgeSt = .area) : t.edgeSt = .area ∨ t.dir ≠ none := by
  unfold Finger.edgeStop at h
  split at h
  · exact .inl h
  · next a e => exact .inr (by simp [e])

theorem postMotion_movers (s : Pad) (w : List Nat) (h : .motion w ∈ s.postMotion) : ∀ i ∈ w, ∃ t ∈ s.touches, t.index = i ∧ Counts s t ∧ t.dirty = true := by
  unfold Pad.postMotion at h
  split at h
  · simp at h
  · simp at h
    subst h
    intro i hi
    simp only [Pad.movers, List.mem_map, List.mem_filter] at hi
    obtain ⟨t, ⟨h1, h2⟩, h3⟩ := hi
    simp only [Bool.and_eq_true] at h2
    exact ⟨t, List.mem_of_mem_take h1, h3, of_decide_eq_true (by rw [← gestActive_iff]; exact h2.1), h2.2⟩

theorem postGesture_no_motion (s : Pad) (g : Frame) (d : Nat → Nat) (now : Nat) (w : List Nat) : .motion w ∉ (s.postGesture g d now).2 := by
  have hs : ∀ s : Pad, .motion w ∉ s.gestStart.2 := by
    intro s
    unfold Pad.gestStart
    split
    · simp
    · simp only [beginOut]; cases s.gest.st <;> simp
  unfold Pad.postGesture
  obtain ⟨s1, e1⟩ : ∃ x, x = (if s.gest.st = .none then s.gestNone now else s) := ⟨_, rfl⟩
  rw [← e1]
  simp only
  obtain ⟨s2, e2⟩ : ∃ x, x = (if s1.gest.st = .unknown then s1.gestDetect g (d s1.gest.first) (d s1.gest.second) now else s1) := ⟨_, rfl⟩
  rw [← e2]
  split
  · unfold Pad.gestScroll
    split
    · simp
    · split
      · simp
      · intro h
        simp only [List.mem_append, List.mem_map] at h
        rcases h with h | ⟨_, _, h⟩
        · exact hs s2 h
        · cases h
  · unfold Pad.gestSwipe
    split
    · simp
    · intro h
      simp only [List.mem_append, List.mem_singleton] at h
      rcases h with h | h
      · exact hs s2 h
      · cases h
  · unfold Pad.gestPinch
    simp only
    split
    · simp
    · intro h
      simp only [List.mem_append, List.mem_singleton] at h
      rcases h with h | h
      · exact hs _ h
      · cases h
  · simp
  · simp

theorem not_minor_motion {l : List Out} {w : List Nat} (h : ∀ o ∈ l, o.minor = true) : .motion w ∉ l := fun hm => by
  have := h _ hm
  simp [Out.minor] at this

theorem gestPost_movers (s : Pad) (g : Frame) (d : Nat → Nat) (now : Nat) (w : List Nat) (h : .motion w ∈ (s.gestPost g d now).2) :
    ∀ i ∈ w, ∃ t ∈ s.touches, t.index = i ∧ Counts s t ∧ t.dirty = true := by
  unfold Pad.gestPost at h
  split at h
  · simp at h
  · simp only at h
    have hone : .motion w ∉ (s.oneFinger g now).2 := by
      unfold Pad.oneFinger
      split
      · exact not_minor_motion (gestCancel_out s now)
      · simp
    have hk : (s.oneFinger g now).1.touches = s.touches ∧ (s.oneFinger g now).1.thumb = s.thumb ∧ (s.oneFinger g now).1.cfg = s.cfg := by
      unfold Pad.oneFinger
      split
      · have k := gestEnd_cfg s now true
        exact ⟨k.2.2.1, k.2.2.2.1, k.1⟩
      · exact ⟨rfl, rfl, rfl⟩
    generalize hq : s.oneFinger g now = q at h hone hk
    split at h
    · exact absurd h hone
    · split at h
      · rw [List.mem_append] at h
        rcases h with h | h
        · exact absurd h hone
        · split at h
          · intro i hi
            obtain ⟨t, h1, h2, h3, h4⟩ := postMotion_movers q.1 w h i hi
            refine ⟨t, by rw [← hk.1]; exact h1, h2, ?_, h4⟩
            unfold Counts at h3 ⊢
            rw [hk.2.1, hk.2.2] at h3
            exact h3
          · simp at h
      · split at h
        · rw [List.mem_append] at h
          rcases h with h | h
          · exact absurd h hone
          · exact absurd h (postGesture_no_motion _ _ _ _ w)
        · exact absurd h hone

/-- The touches that move the pointer in a frame. -/
theorem frame_movers (s : Pad) (vs : List View) (g : Frame) (hov : Nat → Bool) (now : Nat) (w : List Nat) (h : .motion w ∈ (s.frame vs g hov now).2) :
    ∀ i ∈ w, ∃ t ∈ (s.judge vs g now).1.touches, t.index = i ∧ t.dirty = true ∧
      (Counts (s.judge vs g now).1 t ∨ (g.click = true ∧ t.dir ≠ none ∧ Counts (s.judge vs g now).1 { t with edgeSt := .area })) := by
  unfold Pad.frame at h
  simp only [List.mem_append] at h
  rcases h with (h | h) | h
  · have := judge_out s vs g now _ h; cases this
  · rcases gestState_out _ now _ h with h | ⟨_, k, n, h⟩
    · simp [Out.minor] at h
    · cases h
  · generalize (s.judge vs g now).1 = j at h ⊢
    have kq := gestState_cfg j now
    generalize (j.gestState now).1 = q at h kq
    unfold Pad.postEvents at h
    simp only [List.mem_append] at h
    rcases h with h | h
    · exact absurd h (not_minor_motion fun o ho => minor_of_ofEdge (clicked_out q g o ho))
    · obtain ⟨p, ep⟩ : ∃ x, x = (q.clicked g).1 := ⟨_, rfl⟩
      rw [← ep] at h
      unfold Pad.postRest at h
      simp only at h
      split at h
      · simp at h
      · split at h
        · exfalso
          rw [List.mem_append] at h
          rcases h with h | h
          · exact not_minor_motion (fun o ho => minor_of_ofEdge (each_out _ _ _ edgeStop_out o ho)) h
          · exact not_minor_motion (gestCancel_out _ now) h
        · rw [List.mem_append] at h
          rcases h with h | h
          · exact absurd h (not_minor_motion fun o ho => minor_of_ofEdge (each_out _ _ _ (fun x => edgePost_out p x now) o ho))
          · intro i hi
            obtain ⟨t, h1, h2, h3, h4⟩ := gestPost_movers _ g _ now w h i hi
            obtain ⟨t1, h5, rfl⟩ := mem_eachFinger _ _ t h1
            have c1 := edgePost_core p t1 now
            have hc1 : Counts p t1 ∧ t1.index = i ∧ t1.dirty = true := by
              have e2 := congrArg Core.index c1
              have e3 := congrArg Core.st c1
              have e4 := congrArg Core.palm c1
              have e5 := congrArg Core.pinned c1
              have e6 := congrArg Core.active c1
              have e7 := congrArg Core.dirty c1
              simp only [Finger.core] at e2 e3 e4 e5 e6 e7
              obtain ⟨a1, a2, a3, a4, a5, a6⟩ := h3
              refine ⟨⟨by rw [← e3]; exact a1, e4 ▸ a2, e5 ▸ a3, e6 ▸ a4, edgePost_area p t1 now a5, ?_⟩, e2 ▸ h2, e7 ▸ h4⟩
              rw [← e2]; exact a6
            obtain ⟨b1, b2, b3⟩ := hc1
            have hp : (p.cfg = j.cfg ∧ p.thumb = j.thumb) ∧ (t1 ∈ j.touches ∨ (g.click = true ∧ ∃ t2 ∈ j.touches, t1 = t2.edgeStop.1)) := by
              rw [ep] at h5 ⊢
              unfold Pad.clicked at h5 ⊢
              split
              · next hg =>
                rw [if_pos hg] at h5
                refine ⟨⟨kq.1, kq.2.2.2.1⟩, .inr ⟨hg, ?_⟩⟩
                obtain ⟨t2, m1, m2⟩ := mem_eachFinger _ _ _ h5
                exact ⟨t2, kq.2.2.1 ▸ m1, m2⟩
              · next hg =>
                rw [if_neg hg] at h5
                exact ⟨⟨kq.1, kq.2.2.2.1⟩, .inl (kq.2.2.1 ▸ h5)⟩
            obtain ⟨⟨p1, p2⟩, p3⟩ := hp
            have b1' : Counts j t1 := by
              unfold Counts at b1 ⊢
              rw [p1, p2] at b1
              exact b1
            rcases p3 with p3 | ⟨hg, t2, m1, rfl⟩
            · exact ⟨t1, p3, b2, b3, .inl b1'⟩
            · have c2 := edgeStop_core t2
              have e2 := congrArg Core.index c2
              have e3 := congrArg Core.st c2
              have e4 := congrArg Core.palm c2
              have e5 := congrArg Core.pinned c2
              have e6 := congrArg Core.active c2
              have e7 := congrArg Core.dirty c2
              simp only [Finger.core] at e2 e3 e4 e5 e6 e7
              obtain ⟨a1, a2, a3, a4, a5, a6⟩ := b1'
              rw [e2] at b2 a6
              rw [e3] at a1
              rw [e4] at a2
              rw [e5] at a3
              rw [e6] at a4
              rw [e7] at b3
              refine ⟨t2, m1, b2, b3, ?_⟩
              rcases edgeStop_area t2 a5 with x | x
              · exact .inl ⟨a1, a2, a3, a4, x, a6⟩
              · exact .inr ⟨hg, x, a1, a2, a3, a4, rfl, a6⟩

theorem postEvents_minor (q : Pad) (g : Frame) (d : Nat → Nat) (now : Nat) (hc : q.gest.count = 0) : ∀ o ∈ (q.postEvents g d now).2, o.minor = true := by
  intro o ho
  unfold Pad.postEvents at ho
  simp only [List.mem_append] at ho
  rcases ho with ho | ho
  · exact minor_of_ofEdge (clicked_out q g o ho)
  · have k := same_clicked q g
    rw [← k.gest] at hc
    generalize (q.clicked g).1 = p at ho hc
    unfold Pad.postRest at ho
    simp only at ho
    split at ho
    · simp at ho
    · split at ho
      · rw [List.mem_append] at ho
        rcases ho with ho | ho
        · exact minor_of_ofEdge (each_out _ _ _ edgeStop_out o ho)
        · exact gestCancel_out _ now o ho
      · rw [List.mem_append] at ho
        rcases ho with ho | ho
        · exact minor_of_ofEdge (each_out _ _ _ (fun x => edgePost_out p x now) o ho)
        · unfold Pad.gestPost at ho
          rw [if_pos (by rw [(same_each p _).gest]; exact hc)] at ho
          simp at ho

/-- With no touch that counts, nothing goes on. -/
theorem frame_quiet (s : Pad) (vs : List View) (g : Frame) (hov : Nat → Bool) (now : Nat) (hz : counting (s.judge vs g now).1 = 0) :
    ∀ o ∈ (s.frame vs g hov now).2, o.minor = true ∨ ∃ k n, o = .end_ k n false := by
  intro o ho
  rw [counting_eq] at hz
  unfold Pad.frame at ho
  simp only [List.mem_append] at ho
  generalize hj : s.judge vs g now = j at ho hz
  rcases ho with (ho | ho) | ho
  · rw [judge_out s vs g now o (by rw [hj]; exact ho)]; exact .inl rfl
  · rcases gestState_out j.1 now o ho with h | ⟨_, h⟩
    · exact .inl h
    · exact .inr h
  · have hc : (j.1.gestState now).1.gest.count = 0 := by
      unfold Pad.gestState
      simp only [hz]
      split
      · next h => exact h.symm
      · simp
    exact .inl (postEvents_minor _ g _ now hc o ho)

/-- From rest, minor events end no gesture. -/
theorem followAll_minor : ∀ (os : List Out) (c : Now), (c = .idle ∨ c = .scrolling) → (∀ o ∈ os, o.minor = true) → (followAll c os).isSome = true →
    ∀ k n b, .end_ k n b ∉ os
  | [], _, _, _, _ => by simp
  | o :: os, c, hc, hm, hs => by
    intro k n b h
    have hmo := hm o (by simp)
    rw [List.mem_cons] at h
    rcases h with rfl | h
    · rcases hc with rfl | rfl <;> simp [followAll, follow] at hs
    · have hf : ∃ c', follow c o = some c' ∧ (c' = .idle ∨ c' = .scrolling) := by
        cases o with
        | two e => cases e <;> rcases hc with rfl | rfl <;> simp [follow]
        | edge i a v => rcases hc with rfl | rfl <;> simp [follow]
        | edgeStop i a => rcases hc with rfl | rfl <;> simp [follow]
        | bug => rcases hc with rfl | rfl <;> simp [follow]
        | end_ k n b => rcases hc with rfl | rfl <;> simp [followAll, follow] at hs
        | motion w => simp [Out.minor] at hmo
        | begin k n => simp [Out.minor] at hmo
        | update k n => simp [Out.minor] at hmo
      obtain ⟨c', e, hc'⟩ := hf
      simp only [followAll, e] at hs
      exact followAll_minor os c' hc' (fun o ho => hm o (by simp [ho])) hs k n b h

/-- When no touch counts any more, a gesture ends without being cancelled. -/
theorem frame_completes (s : Pad) (c : Now) (vs : List View) (g : Frame) (hov : Nat → Bool) (now : Nat) (h : GInv s c) (hz : counting (s.judge vs g now).1 = 0)
    (k : Kind) (n : Nat) : .end_ k n true ∉ (s.frame vs g hov now).2 := by
  intro ho
  rw [counting_eq] at hz
  have hk := same_judge s vs g now
  have h1 := h.same hk
  unfold Pad.frame at ho
  simp only [List.mem_append] at ho
  generalize hj : s.judge vs g now = j at ho hz h1
  rcases ho with (ho | ho) | ho
  · have := judge_out s vs g now _ (by rw [hj]; exact ho); cases this
  · unfold Pad.gestState at ho
    simp only [hz] at ho
    split at ho
    · simp at ho
    · simp only [if_true] at ho
      unfold Pad.gestEnd at ho
      simp only at ho
      split at ho
      · simp at ho
      · split at ho
        · simp at ho
        · simp at ho
        · unfold Pad.stopTwoFinger at ho
          split at ho <;> simp at ho
        · simp at ho
        · simp at ho
  · have key : Rest (j.1.gestState now).1 ∧ (j.1.gestState now).1.gest.count = 0 := by
      unfold Pad.gestState
      simp only [hz]
      by_cases h0 : 0 = j.1.gest.count
      · rw [if_pos h0]
        have hst : j.1.gest.st = .none := by
          cases e : j.1.gest.st with
          | none => rfl
          | unknown | scroll | pinch | swipe =>
            have := h1.counts (by rw [e]; exact fun x => by cases x)
            omega
        have hs : j.1.gest.started = false := by
          cases e : j.1.gest.started with
          | false => rfl
          | true => rcases h1.started e with x | x | x <;> (rw [hst] at x; cases x)
        exact ⟨⟨hst, hs, h1.still hs⟩, h0.symm⟩
      · rw [if_neg h0]
        simp only [if_true]
        obtain ⟨q1, q2⟩ := good_gestEnd j.1 c now false h1
        exact ⟨⟨q2.st, q2.started, q2.dirs⟩, trivial⟩
    generalize (j.1.gestState now).1 = q at ho key
    have hf := rest_postEvents q g (fun i => match vs[i]? with | some v => v.gestDirs | none => 0) now key.1 key.2
    have hm := postEvents_minor q g (fun i => match vs[i]? with | some v => v.gestDirs | none => 0) now key.2
    exact followAll_minor _ .idle (.inl rfl) hm (by rw [hf]; rfl) k n true ho

theorem clear_quiet (s : Pad) (vs : List View) (g : Frame) (now : Nat) : ∀ o ∈ (s.clear vs g now).2, o.minor = true ∨ ∃ k n, o = .end_ k n false := by
  intro o ho
  unfold Pad.clear at ho
  simp only [List.mem_append] at ho
  rcases ho with ho | ho
  · exact .inl (minor_of_ofEdge (clicked_out s g o ho))
  · obtain ⟨n1, n2⟩ := lifted_noneDown (s.clicked g).1.touches vs
    exact frame_quiet _ _ _ _ _ (counting_zero _ _ _ _ (by rw [n2]; exact Nat.le_refl _) n1) o ho

theorem stopActions_out (s : Pad) (now : Nat) : ∀ o ∈ (s.stopActions now).2, o.minor = true := by
  intro o ho
  unfold Pad.stopActions at ho
  simp only [List.mem_append] at ho
  rcases ho with ho | ho
  · exact minor_of_ofEdge (each_out _ _ _ edgeStop_out o ho)
  · exact gestCancel_out _ now o ho

/-- Everything but a frame only ends things. -/
theorem step_quiet (s : Pad) (op : Op) (hop : ∀ now vs g hov, op ≠ .frame now vs g hov) : ∀ o ∈ (step s op).2, o.minor = true ∨ ∃ k n, o = .end_ k n false := by
  intro o ho
  cases op with
  | frame now vs g hov => exact absurd rfl (hop now vs g hov)
  | clear now vs g => exact clear_quiet s vs g now o ho
  | suspended b => simp [step] at ho
  | key now k code press =>
    simp only [step] at ho
    split at ho
    · unfold Pad.keyEvent at ho
      repeat' split at ho
      all_goals first
        | (simp at ho; done)
        | exact .inl (stopActions_out s now o ho)
    · simp at ho
  | pair k => simp [step] at ho
  | unpair k => simp [step] at ho
  | keyTimeout now => simp only [step] at ho; split at ho <;> simp at ho
  | trackpoint now =>
    simp only [step] at ho
    split at ho
    · unfold Pad.trkEvent at ho
      simp only at ho
      split at ho
      · simp at ho
      · split at ho
        · simp at ho
        · exact .inl (stopActions_out _ now o ho)
    · simp at ho
  | trkTimeout now => simp only [step] at ho; split at ho <;> simp at ho
  | gestTimeout now =>
    simp only [step] at ho
    split at ho
    · unfold Pad.gestTimeout at ho
      simp only at ho
      split at ho
      · simp at ho
      · exact .inl (gestCancel_out _ now o ho)
    · simp at ho
  | edgeTimeout now i =>
    simp only [step] at ho
    split at ho
    · unfold Pad.edgeTimeout at ho
      split at ho
      · simp at ho
      · rw [edgeEvent_out _ _ _ _ o ho]; exact .inl rfl
    · simp at ho
  | arbitrate now vs g =>
    simp only [step] at ho
    split at ho
    · simp at ho
    · exact clear_quiet _ vs g now o ho
  | arbitrateEnd now => simp only [step] at ho; split at ho <;> simp at ho
  | arbTimeout now => simp only [step] at ho; split at ho <;> simp at ho
  | setMethod now m =>
    simp only [step] at ho
    unfold Pad.setMethod at ho
    split at ho
    · simp at ho
    · simp only [List.mem_append] at ho
      rcases ho with ho | ho
      · exact .inl (minor_of_ofEdge (each_out _ _ _ edgeStop_out o ho))
      · exact .inl (stopTwoFinger_out _ now o ho)
  | setDwt b => simp [step] at ho
  | setAreas b => simp [step] at ho

theorem counting_le (s : Pad) (vs : List View) (g : Frame) (now : Nat) (h : s.touches.length ≤ vs.length) : counting (s.judge vs g now).1 ≤ downs vs := by
  have h1 : counting (s.judge vs g now).1 ≤ (stOf (s.judge vs g now).1).countP fun x => x == .begin || x == .update := by
    unfold counting stOf
    rw [List.countP_map]
    apply List.countP_mono_left
    intro t _ ht
    rcases (of_decide_eq_true ht).1 with e | e <;> simp [e]
  rw [stOf_judge] at h1
  refine Nat.le_trans h1 ?_
  clear h1
  generalize s.touches = ts at h ⊢
  unfold downs
  induction ts generalizing vs with
  | nil => cases vs <;> simp [takeAll]
  | cons t ts ih =>
    cases vs with
    | nil => simp at h
    | cons v vs =>
      have := ih vs (by simpa using h)
      simp only [takeAll, List.map_cons, List.countP_cons, take_st]
      omega

/-! ### The number of fingers while events are sent -/

/-- The finger counts are kept. -/
def Cnt (s t : Pad) : Prop := t.gest.count = s.gest.count ∧ t.gest.pending = s.gest.pending

theorem Cnt.refl (s : Pad) : Cnt s s := ⟨rfl, rfl⟩
theorem Cnt.trans {s t u : Pad} (h : Cnt s t) (k : Cnt t u) : Cnt s u := ⟨k.1.trans h.1, k.2.trans h.2⟩
theorem Same.cnt {s t : Pad} (h : Same s t) : Cnt s t := ⟨by rw [h.gest], by rw [h.gest]⟩

theorem cnt_stopTwoFinger (s : Pad) (now : Nat) : Cnt s (s.stopTwoFinger now).1 := by
  unfold Pad.stopTwoFinger
  split <;> exact ⟨rfl, rfl⟩

theorem cnt_gestEnd (s : Pad) (now : Nat) (b : Bool) : Cnt s (s.gestEnd now b).1 := by
  unfold Pad.gestEnd
  simp only
  split
  · exact ⟨rfl, rfl⟩
  · split
    · exact ⟨rfl, rfl⟩
    · exact ⟨rfl, rfl⟩
    · exact Cnt.trans ⟨rfl, rfl⟩ (cnt_stopTwoFinger _ now)
    · exact ⟨rfl, rfl⟩
    · exact ⟨rfl, rfl⟩

theorem cnt_gestStart (s : Pad) : Cnt s s.gestStart.1 := by
  unfold Pad.gestStart
  split <;> exact ⟨rfl, rfl⟩

theorem cnt_gestNone (s : Pad) (now : Nat) : Cnt s (s.gestNone now) := by
  unfold Pad.gestNone Pad.watch
  repeat' (first | split | simp only)
  all_goals exact ⟨rfl, rfl⟩

theorem cnt_gestDetect (s : Pad) (g : Frame) (d1 d2 : Nat) (now : Nat) : Cnt s (s.gestDetect g d1 d2 now) := by
  unfold Pad.gestDetect
  simp only
  repeat' (split)
  all_goals exact ⟨rfl, rfl⟩

theorem cnt_postGesture (s : Pad) (g : Frame) (d : Nat → Nat) (now : Nat) : Cnt s (s.postGesture g d now).1 := by
  unfold Pad.postGesture
  obtain ⟨s1, e1⟩ : ∃ x, x = (if s.gest.st = .none then s.gestNone now else s) := ⟨_, rfl⟩
  have h1 : Cnt s s1 := by
    rw [e1]; split
    · exact cnt_gestNone s now
    · exact .refl s
  rw [← e1]
  simp only
  obtain ⟨s2, e2⟩ : ∃ x, x = (if s1.gest.st = .unknown then s1.gestDetect g (d s1.gest.first) (d s1.gest.second) now else s1) := ⟨_, rfl⟩
  have h2 : Cnt s s2 := by
    rw [e2]; split
    · exact h1.trans (cnt_gestDetect _ _ _ _ _)
    · exact h1
  rw [← e2]
  refine h2.trans ?_
  split
  · unfold Pad.gestScroll
    split
    · exact .refl s2
    · split
      · exact .refl s2
      · exact (cnt_gestStart s2).trans ⟨rfl, rfl⟩
  · unfold Pad.gestSwipe
    split
    · exact .refl s2
    · exact cnt_gestStart s2
  · unfold Pad.gestPinch
    simp only
    split
    · exact ⟨rfl, rfl⟩
    · exact Cnt.trans ⟨rfl, rfl⟩ (cnt_gestStart _)
  · exact .refl s2
  · exact .refl s2

theorem cnt_postEvents (s : Pad) (g : Frame) (d : Nat → Nat) (now : Nat) :
    Cnt s (s.postEvents g d now).1 ∨ ((s.postEvents g d now).1.gest.count = 1 ∧ (s.postEvents g d now).1.gest.pending = 0) := by
  unfold Pad.postEvents
  simp only
  have k := (same_clicked s g).cnt
  generalize (s.clicked g).1 = t at k
  unfold Pad.postRest
  simp only
  split
  · exact .inl k
  · split
    · exact .inl (k.trans ((same_each t _).cnt.trans (cnt_gestEnd _ now true)))
    · have k2 := k.trans (same_each t fun x => t.edgePost x now).cnt
      generalize (t.each fun x => t.edgePost x now).1 = u at k2
      unfold Pad.gestPost
      split
      · exact .inl k2
      · simp only
        have ho : (u.oneFinger g now).1 = u ∨ ((u.oneFinger g now).1.gest.count = 1 ∧ (u.oneFinger g now).1.gest.pending = 0) := by
          unfold Pad.oneFinger
          split
          · exact .inr ⟨rfl, rfl⟩
          · exact .inl rfl
        generalize u.oneFinger g now = r at ho
        rcases ho with ho | ho
        · rw [ho]
          left
          split
          · exact k2
          · split
            · exact k2
            · split
              · exact k2.trans (cnt_postGesture _ _ _ _)
              · exact k2
        · right
          rw [if_neg (by rw [ho.2]; exact fun h => h rfl), if_pos ho.1]
          exact ho

theorem frame_back (s : Pad) (vs : List View) (g : Frame) (hov : Nat → Bool) (now : Nat) (hn : counting (s.judge vs g now).1 ≠ 0)
    (h : (s.frame vs g hov now).1.gest.count = counting (s.judge vs g now).1) : (s.frame vs g hov now).1.gest.pending = 0 := by
  rw [counting_eq] at h hn
  unfold Pad.frame at h ⊢
  simp only at h ⊢
  rw [(same_settle _ hov).gest] at h ⊢
  generalize (s.judge vs g now).1 = j at h hn ⊢
  have k0 := fun d => cnt_postEvents (j.gestState now).1 g d now
  rcases k0 _ with k | k
  · rw [k.1] at h
    rw [k.2]
    unfold Pad.gestState at h ⊢
    simp only at h ⊢
    generalize j.touches.countP j.gestActive = a at h hn ⊢
    by_cases h1 : a = j.gest.count
    · rw [if_pos h1]
    · rw [if_neg h1] at h ⊢
      rw [if_neg hn] at h ⊢
      by_cases h3 : j.gest.started = false
      · rw [if_pos h3]
      · rw [if_neg h3] at h ⊢
        by_cases h4 : a ≠ j.gest.pending
        · rw [if_pos h4] at h; exact absurd h.symm h1
        · rw [if_neg h4] at h; exact absurd h.symm h1
  · exact k.2

end Libinput.Motion
