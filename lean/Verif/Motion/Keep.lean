import Verif.Motion.Fingers
/-
What sending events leaves alone.
-/
namespace Libinput.Motion
open Touch (St)

/-- What is known about a touch apart from edge scrolling and gestures. -/
structure Core where
  index : Nat
  st : St
  dirty : Bool
  pos : Point
  pinned : Bool
  palm : Palm
  palmTime : Nat
  palmFirst : Point
  active : Bool
  began : Nat
deriving DecidableEq

def Finger.core (t : Finger) : Core := ⟨t.index, t.st, t.dirty, t.pos, t.pinned, t.palm, t.palmTime, t.palmFirst, t.active, t.began⟩

/-- Sending events: only gestures, scrolling, edge scrolling and the thumb may differ. -/
structure Sends (s t : Pad) : Prop where
  cfg : t.cfg = s.cfg
  method : t.method = s.method
  areas : t.areas = s.areas
  dwt : t.dwt = s.dwt
  trk : t.trk = s.trk
  arb : t.arb = s.arb
  arbTimer : t.arbTimer = s.arbTimer
  suspended : t.suspended = s.suspended
  tapOff : t.tapOff = s.tapOff
  core : t.touches.map Finger.core = s.touches.map Finger.core

theorem Sends.refl (s : Pad) : Sends s s := ⟨rfl, rfl, rfl, rfl, rfl, rfl, rfl, rfl, rfl, rfl⟩
theorem Sends.trans {s t u : Pad} (h : Sends s t) (k : Sends t u) : Sends s u :=
  ⟨k.cfg.trans h.cfg, k.method.trans h.method, k.areas.trans h.areas, k.dwt.trans h.dwt, k.trk.trans h.trk, k.arb.trans h.arb,
    k.arbTimer.trans h.arbTimer, k.suspended.trans h.suspended, k.tapOff.trans h.tapOff, k.core.trans h.core⟩

theorem Sends.length {s t : Pad} (h : Sends s t) : t.touches.length = s.touches.length := by
  have := congrArg List.length h.core
  simpa using this

theorem sends_gest (s : Pad) (g : Gest) : Sends s { s with gest := g } := ⟨rfl, rfl, rfl, rfl, rfl, rfl, rfl, rfl, rfl, rfl⟩
theorem sends_scroll (s : Pad) (x : Scroll.State Int) : Sends s { s with scroll := x } := ⟨rfl, rfl, rfl, rfl, rfl, rfl, rfl, rfl, rfl, rfl⟩
theorem Only.sends {s t : Pad} (h : Only s t) : Sends s t :=
  ⟨h.same.cfg, h.same.method, h.same.areas, h.same.dwt, h.same.trk, h.same.arb, h.same.arbTimer, h.same.suspended, h.same.tapOff, by rw [h.touches]⟩

theorem sends_stopTwoFinger (s : Pad) (now : Nat) : Sends s (s.stopTwoFinger now).1 := by
  unfold Pad.stopTwoFinger
  split
  · exact .refl s
  · exact sends_scroll s _

theorem sends_gestEnd (s : Pad) (now : Nat) (b : Bool) : Sends s (s.gestEnd now b).1 := by
  unfold Pad.gestEnd
  simp only
  split
  · exact sends_gest s _
  · split
    · exact sends_gest s _
    · exact sends_gest s _
    · exact (sends_gest s _).trans (sends_stopTwoFinger _ now)
    · exact sends_gest s _
    · exact sends_gest s _

theorem sends_gestState (s : Pad) (now : Nat) : Sends s (s.gestState now).1 := by
  unfold Pad.gestState
  simp only
  split
  · exact sends_gest s _
  · split
    · exact (sends_gestEnd s now false).trans (sends_gest _ _)
    · split
      · exact sends_gest s _
      · split
        · exact sends_gest s _
        · exact .refl s

theorem sends_gestStart (s : Pad) : Sends s s.gestStart.1 := by
  unfold Pad.gestStart
  split
  · exact .refl s
  · exact sends_gest s _

theorem sends_start (s : Pad) (i : Nat) (p : Point) : Sends s (s.put i { s.touch i with start := p }) := by
  refine ⟨rfl, rfl, rfl, rfl, rfl, rfl, rfl, rfl, rfl, ?_⟩
  unfold Pad.put Pad.touch
  apply List.ext_getElem?
  intro j
  simp only [List.getElem?_map, List.getElem?_set]
  by_cases hj : i = j
  · subst hj
    by_cases hi : i < s.touches.length
    · simp [hi, Finger.core]
    · simp [hi]
  · simp [hj]

theorem sends_watch (s : Pad) (a b : Finger) (now : Nat) : Sends s (s.watch a b now) := by
  unfold Pad.watch
  exact ((sends_start s _ _).trans (sends_start _ _ _)).trans (sends_gest _ _)

theorem sends_gestNone (s : Pad) (now : Nat) : Sends s (s.gestNone now) := by
  unfold Pad.gestNone
  split
  · split
    · split
      · exact sends_gest s _
      · exact .refl s
    · split
      · exact sends_watch _ _ _ _
      · simp only; split
        · exact .refl s
        · exact sends_watch _ _ _ _
  · exact .refl s

theorem sends_toScroll (s : Pad) (g : Frame) : Sends s (s.toScroll g) := ⟨rfl, rfl, rfl, rfl, rfl, rfl, rfl, rfl, rfl, rfl⟩
theorem sends_toPinch (s : Pad) : Sends s s.toPinch := sends_gest s _
theorem sends_toSwipe (s : Pad) : Sends s s.toSwipe := sends_gest s _

theorem sends_gestDetect (s : Pad) (g : Frame) (d1 d2 : Nat) (now : Nat) : Sends s (s.gestDetect g d1 d2 now) := by
  unfold Pad.gestDetect
  simp only
  repeat' (split)
  all_goals first
    | exact .refl s
    | exact sends_toScroll s g
    | exact sends_toPinch s
    | exact sends_toSwipe s
    | exact (only_thumbSuppress s _).sends.trans (sends_gest _ _)

theorem sends_postGesture (s : Pad) (g : Frame) (d : Nat → Nat) (now : Nat) : Sends s (s.postGesture g d now).1 := by
  unfold Pad.postGesture
  obtain ⟨s1, e1⟩ : ∃ x, x = (if s.gest.st = .none then s.gestNone now else s) := ⟨_, rfl⟩
  have h1 : Sends s s1 := by
    rw [e1]; split
    · exact sends_gestNone s now
    · exact .refl s
  rw [← e1]
  simp only
  obtain ⟨s2, e2⟩ : ∃ x, x = (if s1.gest.st = .unknown then s1.gestDetect g (d s1.gest.first) (d s1.gest.second) now else s1) := ⟨_, rfl⟩
  have h2 : Sends s s2 := by
    rw [e2]; split
    · exact h1.trans (sends_gestDetect _ _ _ _ _)
    · exact h1
  rw [← e2]
  refine h2.trans ?_
  split
  · unfold Pad.gestScroll
    split
    · exact .refl s2
    · split
      · exact .refl s2
      · exact (sends_gestStart s2).trans (sends_scroll _ _)
  · unfold Pad.gestSwipe
    split
    · exact .refl s2
    · exact sends_gestStart s2
  · unfold Pad.gestPinch
    simp only
    split
    · exact sends_gest s2 _
    · exact (sends_gest s2 _).trans (sends_gestStart _)
  · exact .refl s2
  · exact .refl s2

theorem sends_oneFinger (s : Pad) (g : Frame) (now : Nat) : Sends s (s.oneFinger g now).1 := by
  unfold Pad.oneFinger
  split
  · exact (sends_gestEnd s now true).trans (sends_gest _ _)
  · exact .refl s

theorem sends_gestPost (s : Pad) (g : Frame) (d : Nat → Nat) (now : Nat) : Sends s (s.gestPost g d now).1 := by
  unfold Pad.gestPost
  split
  · exact .refl s
  · simp only
    have h := sends_oneFinger s g now
    split
    · exact h
    · split
      · exact h
      · split
        · exact h.trans (sends_postGesture _ _ _ _)
        · exact h

theorem eachFinger_core (f : Finger → Finger × List Out) (h : ∀ t, (f t).1.core = t.core) : ∀ ts, (eachFinger f ts).1.map Finger.core = ts.map Finger.core
  | [] => rfl
  | t :: ts => by simp only [eachFinger, List.map_cons, h, eachFinger_core f h ts]

theorem sends_each (s : Pad) (f : Finger → Finger × List Out) (h : ∀ t, (f t).1.core = t.core) : Sends s (s.each f).1 :=
  ⟨rfl, rfl, rfl, rfl, rfl, rfl, rfl, rfl, rfl, eachFinger_core f h s.touches⟩

theorem setEdge_core (s : Pad) (t : Finger) (st : EdgeSt) (now : Nat) : (s.setEdge t st now).core = t.core := by
  unfold Pad.setEdge; cases st <;> rfl

theorem narrow_core (s : Pad) (t : Finger) (now : Nat) : (s.narrow t now).core = t.core := by
  unfold Pad.narrow; simp only; split
  · exact setEdge_core _ _ _ _
  · rfl

theorem edgeEvent_core (s : Pad) (t : Finger) (e : EdgeEv) (now : Nat) : (s.edgeEvent t e now).1.core = t.core := by
  unfold Pad.edgeEvent
  split <;> first | rfl | exact setEdge_core _ _ _ _ | exact narrow_core _ _ _ | (split <;> first | rfl | exact setEdge_core _ _ _ _ | exact narrow_core _ _ _)

theorem edgeState_core (s : Pad) (t : Finger) (now : Nat) : (s.edgeState t now).1.core = t.core := by
  unfold Pad.edgeState
  split
  · simp only; split <;> rfl
  · split
    · rfl
    · split <;> first | rfl | exact edgeEvent_core _ _ _ _

theorem edgeStop_core (t : Finger) : t.edgeStop.1.core = t.core := by
  unfold Finger.edgeStop; split <;> rfl

theorem edgeScroll_core (s : Pad) (t : Finger) (a : Axis) (now : Nat) : (s.edgeScroll t a now).1.core = t.core := by
  unfold Pad.edgeScroll
  simp only
  split
  · rfl
  · exact (edgeEvent_core _ _ _ _).trans rfl

theorem edgePost_core (s : Pad) (t : Finger) (now : Nat) : (s.edgePost t now).1.core = t.core := by
  unfold Pad.edgePost
  repeat' split
  all_goals first | rfl | exact edgeScroll_core _ _ _ _

theorem sends_clicked (s : Pad) (g : Frame) : Sends s (s.clicked g).1 := by
  unfold Pad.clicked
  split
  · exact sends_each s _ edgeStop_core
  · exact .refl s

theorem sends_postEvents (s : Pad) (g : Frame) (d : Nat → Nat) (now : Nat) : Sends s (s.postEvents g d now).1 := by
  unfold Pad.postEvents
  simp only
  refine (sends_clicked s g).trans ?_
  generalize (s.clicked g).1 = t
  unfold Pad.postRest
  simp only
  split
  · exact .refl t
  · split
    · exact (sends_each t _ edgeStop_core).trans (sends_gestEnd _ _ _)
    · exact (sends_each t _ fun x => edgePost_core t x now).trans (sends_gestPost _ _ _ _)

theorem sends_stopActions (s : Pad) (now : Nat) : Sends s { (s.stopActions now).1 with tapOff := s.tapOff } := by
  unfold Pad.stopActions
  have h := (sends_each s _ edgeStop_core).trans (sends_gestEnd _ now true)
  exact ⟨h.cfg, h.method, h.areas, h.dwt, h.trk, h.arb, h.arbTimer, h.suspended, rfl, h.core⟩

/-! ### The configuration and the number of touches never change -/

structure Shape (s t : Pad) : Prop where
  cfg : t.cfg = s.cfg
  index : t.touches.map Finger.index = s.touches.map Finger.index

theorem Shape.refl (s : Pad) : Shape s s := ⟨rfl, rfl⟩
theorem Shape.trans {s t u : Pad} (h : Shape s t) (k : Shape t u) : Shape s u := ⟨k.cfg.trans h.cfg, k.index.trans h.index⟩
theorem Shape.length {s t : Pad} (h : Shape s t) : t.touches.length = s.touches.length := by
  have := congrArg List.length h.index
  simpa using this

theorem Sends.shape {s t : Pad} (h : Sends s t) : Shape s t := by
  refine ⟨h.cfg, ?_⟩
  have := congrArg (List.map Core.index) h.core
  simpa [Finger.core, Function.comp_def] using this

theorem take_index (t : Finger) (v : View) (now : Nat) : (t.take v now).index = t.index := by
  unfold Finger.take
  simp only
  by_cases h : t.st = .none
  · simp only [if_pos h]; split <;> rfl
  · simp only [if_neg h]; split <;> rfl

theorem takeAll_index (now : Nat) : ∀ (ts : List Finger) (vs : List View), (takeAll now ts vs).map Finger.index = ts.map Finger.index
  | [], vs => by cases vs <;> rfl
  | t :: ts, [] => rfl
  | t :: ts, v :: vs => by simp only [takeAll, List.map_cons, take_index, takeAll_index now ts vs]

theorem shape_put (s : Pad) (i : Nat) (t u : Finger) (h : s.touches[i]? = some t) (hu : u.index = t.index) : Shape s (s.put i u) := by
  refine ⟨rfl, ?_⟩
  unfold Pad.put
  apply List.ext_getElem?
  intro j
  simp only [List.getElem?_map, List.getElem?_set]
  by_cases hj : i = j
  · subst hj
    have hi := List.getElem?_eq_some_iff.1 h
    simp [hi.1, hu, h]
    rw [hi.2]
  · simp [hj]

theorem shape_processOne (s : Pad) (i : Nat) (v : View) (w : Bool) (now : Nat) : Shape s (s.processOne i v w now) := by
  unfold Pad.processOne
  split
  · exact .refl s
  · next t ht =>
    split
    · exact .refl s
    · simp only
      obtain ⟨t1, e1⟩ : ∃ x, x = t.forget w := ⟨_, rfl⟩
      have k1 : t1.index = t.index := by rw [e1]; exact (forget_st t w).2
      rw [← e1]
      split
      · exact shape_put s i t _ ht k1
      · obtain ⟨t2, e2⟩ : ∃ x, x = (if v.jump = true then { t1 with hist := [] } else t1) := ⟨_, rfl⟩
        have k2 : t2.index = t.index := by rw [e2]; split <;> exact k1
        rw [← e2]
        have o := only_thumbUpdate (s.put i t2) t2
        obtain ⟨s2, es2⟩ : ∃ x, x = (s.put i t2).thumbUpdate t2 := ⟨_, rfl⟩
        rw [← es2] at o ⊢
        have hlt := (List.getElem?_eq_some_iff.1 ht).1
        have hget : s2.touches[i]? = some t2 := by rw [o.touches]; simp [Pad.put, hlt]
        exact ((shape_put s i t t2 ht k2).trans o.sends.shape).trans
          (shape_put s2 i t2 _ hget ((finish_st _ _).2.trans (palmDetect_st _ _ _ _).2))

theorem shape_processAll (w : Bool) (now : Nat) : ∀ (vs : List View) (s : Pad) (i : Nat), Shape s (s.processAll w now i vs)
  | [], s, _ => .refl s
  | v :: vs, s, i => (shape_processOne s i v w now).trans (shape_processAll w now vs _ (i + 1))

theorem shape_process (s : Pad) (vs : List View) (g : Frame) (now : Nat) : Shape s (s.process vs g now) := by
  unfold Pad.process
  simp only
  have h : Shape s { s with touches := takeAll now s.touches vs } := ⟨rfl, takeAll_index now s.touches vs⟩
  split
  · exact (h.trans (shape_processAll _ now vs _ 0)).trans (only_thumbMulti _).sends.shape
  · exact h.trans (shape_processAll _ now vs _ 0)

theorem noteActive_index : ∀ (ts : List Finger) (vs : List View), (noteActive ts vs).map Finger.index = ts.map Finger.index
  | [], vs => by cases vs <;> rfl
  | t :: ts, [] => rfl
  | t :: ts, v :: vs => by simp only [noteActive, List.map_cons, noteActive_index ts vs]

theorem shape_pin (s : Pad) (g : Frame) : Shape s (s.pin g) := by
  unfold Pad.pin
  split
  · exact ⟨rfl, by simp [Function.comp_def]⟩
  · exact .refl s

theorem shape_judge (s : Pad) (vs : List View) (g : Frame) (now : Nat) : Shape s (s.judge vs g now).1 := by
  unfold Pad.judge
  simp only
  refine Shape.trans ?_ (shape_pin _ g)
  refine Shape.trans ?_ (sends_each _ _ fun x => edgeState_core _ x now).shape
  exact (shape_process s vs g now).trans ⟨rfl, noteActive_index _ vs⟩

theorem shape_settle (s : Pad) (h : Nat → Bool) : Shape s (s.settle h) := by
  unfold Pad.settle
  simp only
  have k : Shape s { s with touches := s.touches.map fun t => t.settle (h t.index) } := by
    refine ⟨rfl, ?_⟩
    rw [List.map_map]
    congr 1
    funext t
    simp only [Function.comp, Finger.settle]
    split <;> rfl
  split
  · exact k.trans (only_thumbReset _).sends.shape
  · exact k

theorem shape_frame (s : Pad) (vs : List View) (g : Frame) (hov : Nat → Bool) (now : Nat) : Shape s (s.frame vs g hov now).1 := by
  unfold Pad.frame
  simp only
  exact (((shape_judge s vs g now).trans (sends_gestState _ now).shape).trans (sends_postEvents _ g _ now).shape).trans (shape_settle _ hov)

theorem shape_clear (s : Pad) (vs : List View) (g : Frame) (now : Nat) : Shape s (s.clear vs g now).1 := by
  unfold Pad.clear
  simp only
  exact ((sends_clicked s g).shape.trans (only_thumbReset _).sends.shape).trans (shape_frame _ _ _ _ _)

theorem shape_stopActions (s : Pad) (now : Nat) : Shape s (s.stopActions now).1 := by
  have h := (sends_stopActions s now).shape
  exact ⟨h.cfg, h.index⟩

theorem shape_step (s : Pad) (op : Op) : Shape s (step s op).1 := by
  cases op with
  | frame now vs g hov => exact shape_frame s vs g hov now
  | clear now vs g => exact shape_clear s vs g now
  | suspended b => exact ⟨rfl, rfl⟩
  | key now k code press =>
    simp only [step]
    split
    · unfold Pad.keyEvent
      repeat' split
      all_goals first
        | exact ⟨rfl, rfl⟩
        | exact ⟨(shape_stopActions s now).cfg, (shape_stopActions s now).index⟩
    · exact .refl s
  | pair k => exact ⟨rfl, rfl⟩
  | unpair k =>
    simp only [step, Pad.unpair]
    split <;> exact ⟨rfl, rfl⟩
  | keyTimeout now =>
    simp only [step]
    split
    · unfold Pad.keyTimeout; split <;> exact ⟨rfl, rfl⟩
    · exact .refl s
  | trackpoint now =>
    simp only [step]
    split
    · unfold Pad.trkEvent
      simp only
      split
      · exact ⟨rfl, rfl⟩
      · split
        · exact ⟨rfl, rfl⟩
        · have h := shape_stopActions { s with trk := { s.trk with last := now, count := s.trk.count + 1 } } now
          exact ⟨h.cfg, h.index⟩
    · exact .refl s
  | trkTimeout now =>
    simp only [step]
    split
    · unfold Pad.trkTimeout; split <;> exact ⟨rfl, rfl⟩
    · exact .refl s
  | gestTimeout now =>
    simp only [step]
    split
    · unfold Pad.gestTimeout
      simp only
      split
      · exact ⟨rfl, rfl⟩
      · exact ((sends_gest s _).trans ((sends_gestEnd _ now true).trans (sends_gest _ _))).shape
    · exact .refl s
  | edgeTimeout now i =>
    simp only [step]
    split
    · unfold Pad.edgeTimeout
      split
      · exact .refl s
      · next t ht => exact shape_put s i t _ ht (congrArg Core.index (edgeEvent_core s _ _ now))
    · exact .refl s
  | arbitrate now vs g =>
    simp only [step]
    split
    · exact .refl s
    · have h := shape_clear { s with arbTimer := none } vs g now
      exact ⟨h.cfg, h.index⟩
  | arbitrateEnd now => simp only [step]; split <;> exact ⟨rfl, rfl⟩
  | arbTimeout now => simp only [step]; split <;> exact ⟨rfl, rfl⟩
  | setMethod now m =>
    simp only [step]
    unfold Pad.setMethod
    split
    · exact .refl s
    · have h := ((sends_each s _ edgeStop_core).trans (sends_stopTwoFinger _ now)).shape
      exact ⟨h.cfg, h.index⟩
  | setDwt b => exact ⟨rfl, rfl⟩
  | setAreas b => exact ⟨rfl, rfl⟩

theorem shape_run : ∀ (ops : List Op) (s : Pad), Shape s (run s ops).1
  | [], s => .refl s
  | op :: ops, s => (shape_step s op).trans (shape_run ops _)

theorem good_run : ∀ (ops : List Op) (s : Pad) (c : Now), Sound s.cfg → GInv s c → Good c (run s ops)
  | [], s, c, _, h => ⟨c, rfl, h⟩
  | op :: ops, s, c, hz, h => by
    obtain ⟨c1, h1, h2⟩ := good_step s c op hz h
    obtain ⟨c2, h3, h4⟩ := good_run ops (step s op).1 c1 (by rw [(shape_step s op).cfg]; exact hz) h2
    refine ⟨c2, ?_, h4⟩
    simp only [run]
    rw [followAll_append, h1]
    exact h3

end Libinput.Motion
