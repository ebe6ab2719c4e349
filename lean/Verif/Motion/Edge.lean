import Verif.Motion.Movers
/-
Edge scrolling: each touch sends scroll events and stops in the right order.
-/
namespace Libinput.Motion
open Touch (St)

/-! ### Lists of events -/

/-- The event is about edge scrolling by the touch `i`. -/
def Out.aboutEdge : Out → Option Nat
  | .edge i _ _ => some i
  | .edgeStop i _ => some i
  | _ => none

theorem scrollingFrom_append (i : Nat) : ∀ (a b : List Out) (c : Option Axis), scrollingFrom i c (a ++ b) = scrollingFrom i (scrollingFrom i c a) b
  | [], _, _ => rfl
  | o :: os, b, c => by cases o <;> simp only [List.cons_append, scrollingFrom, scrollingFrom_append i os b]

theorem scrolling_append (i : Nat) (a b : List Out) : scrolling i (a ++ b) = scrollingFrom i (scrolling i a) b := scrollingFrom_append i a b none

theorem followEdge_append (i : Nat) : ∀ (a b : List Out) (c : Option Axis), followEdge i c (a ++ b) = (followEdge i c a && followEdge i (scrollingFrom i c a) b)
  | [], _, _ => rfl
  | o :: os, b, c => by
    cases o <;> simp only [List.cons_append, followEdge, scrollingFrom]
    case edge j a v => by_cases h : j = i <;> simp [h, followEdge_append i os b, Bool.and_assoc]
    case edgeStop j a => by_cases h : j = i <;> simp [h, followEdge_append i os b, Bool.and_assoc]
    all_goals exact followEdge_append i os b c

/-- Events that are not about a touch do not concern it. -/
theorem skip (i : Nat) : ∀ (os : List Out) (c : Option Axis), (∀ o ∈ os, o.aboutEdge ≠ some i) → followEdge i c os = true ∧ scrollingFrom i c os = c
  | [], _, _ => ⟨rfl, rfl⟩
  | o :: os, c, h => by
    have ih := skip i os c fun o ho => h o (by simp [ho])
    have ho := h o (by simp)
    cases o <;> simp only [followEdge, scrollingFrom] <;> simp_all [Out.aboutEdge]

/-- The touch `i` moves from scrolling on `c` to scrolling on `c'` by these events. -/
def Edged (i : Nat) (c : Option Axis) (os : List Out) (c' : Option Axis) : Prop := followEdge i c os = true ∧ scrollingFrom i c os = c'

theorem Edged.append {i : Nat} {a b : List Out} {c c' c'' : Option Axis} (h : Edged i c a c') (k : Edged i c' b c'') : Edged i c (a ++ b) c'' := by
  refine ⟨?_, ?_⟩
  · rw [followEdge_append, h.1, h.2, k.1]; rfl
  · rw [scrollingFrom_append, h.2, k.2]

theorem Edged.skip {i : Nat} {os : List Out} {c : Option Axis} (h : ∀ o ∈ os, o.aboutEdge ≠ some i) : Edged i c os c := Motion.skip i os c h

theorem edged_each (f : Finger → Finger × List Out) (hf : ∀ t, ∀ o ∈ (f t).2, ∀ j, o.aboutEdge = some j → j = t.index) (i : Nat) (c c' : Option Axis) :
    ∀ (ts : List Finger) (a : Nat), ts.map Finger.index = List.range' a ts.length → a ≤ i →
    (∀ t, ts[i - a]? = some t → Edged i c (f t).2 c') → (ts.length ≤ i - a → c' = c) → Edged i c (eachFinger f ts).2 c'
  | [], a, _, _, _, h => by rw [h (by simp)]; exact ⟨rfl, rfl⟩
  | t :: ts, a, hi, ha, h, hl => by
    simp only [List.map_cons, List.length_cons, List.range'_succ, List.cons.injEq] at hi
    simp only [eachFinger]
    by_cases e : i = a
    · subst e
      have h1 := h t (by simp)
      refine h1.append (Edged.skip ?_)
      intro o ho hx
      have : ∃ u ∈ ts, o ∈ (f u).2 := by
        clear hi h hl h1
        induction ts with
        | nil => simp [eachFinger] at ho
        | cons u us ih =>
          simp only [eachFinger, List.mem_append] at ho
          rcases ho with ho | ho
          · exact ⟨u, by simp, ho⟩
          · obtain ⟨w, h1, h2⟩ := ih ho
            exact ⟨w, by simp [h1], h2⟩
      obtain ⟨u, h2, h3⟩ := this
      have h4 := hf u o h3 i hx
      have h5 : u.index ∈ List.range' (i + 1) ts.length := by rw [← hi.2]; exact List.mem_map_of_mem h2
      rw [List.mem_range'_1] at h5
      omega
    · have hlt : a < i := by omega
      have h0 : Edged i c (f t).2 c := Edged.skip fun o ho hx => by
        have := hf t o ho i hx
        omega
      refine h0.append (edged_each f hf i c c' ts (a + 1) hi.2 (by omega) ?_ ?_)
      · intro u hu
        apply h u
        rw [show i - a = (i - (a + 1)) + 1 by omega]
        simpa using hu
      · intro hx
        apply hl
        simp only [List.length_cons]
        omega

/-! ### What does not concern edge scrolling -/

theorem gestEnd_noEdge (s : Pad) (now : Nat) (b : Bool) : ∀ o ∈ (s.gestEnd now b).2, o.aboutEdge = none := by
  intro o ho
  unfold Pad.gestEnd at ho
  simp only at ho
  split at ho
  · simp at ho
  · split at ho
    · simp at ho; subst ho; rfl
    · simp at ho; subst ho; rfl
    · unfold Pad.stopTwoFinger at ho
      split at ho
      · simp at ho
      · simp only [List.mem_map] at ho
        obtain ⟨e, _, rfl⟩ := ho
        rfl
    · simp at ho; subst ho; rfl
    · simp at ho; subst ho; rfl

theorem gestState_noEdge (s : Pad) (now : Nat) : ∀ o ∈ (s.gestState now).2, o.aboutEdge = none := by
  unfold Pad.gestState
  simp only
  split
  · intro o ho; simp at ho
  · split
    · exact gestEnd_noEdge s now false
    · split
      · intro o ho; simp at ho
      · split <;> (intro o ho; simp at ho)

theorem gestStart_noEdge (s : Pad) : ∀ o ∈ s.gestStart.2, o.aboutEdge = none := by
  unfold Pad.gestStart
  split
  · intro o ho; simp at ho
  · simp only [beginOut]
    cases s.gest.st <;> intro o ho <;> simp at ho <;> subst ho <;> rfl

theorem postGesture_noEdge (s : Pad) (g : Frame) (d : Nat → Nat) (now : Nat) : ∀ o ∈ (s.postGesture g d now).2, o.aboutEdge = none := by
  unfold Pad.postGesture
  obtain ⟨s1, e1⟩ : ∃ x, x = (if s.gest.st = .none then s.gestNone now else s) := ⟨_, rfl⟩
  rw [← e1]
  simp only
  obtain ⟨s2, e2⟩ : ∃ x, x = (if s1.gest.st = .unknown then s1.gestDetect g (d s1.gest.first) (d s1.gest.second) now else s1) := ⟨_, rfl⟩
  rw [← e2]
  split
  · unfold Pad.gestScroll
    split
    · intro o ho; simp at ho
    · split
      · intro o ho; simp at ho
      · intro o ho
        simp only [List.mem_append, List.mem_map] at ho
        rcases ho with ho | ⟨e, _, rfl⟩
        · exact gestStart_noEdge s2 o ho
        · rfl
  · unfold Pad.gestSwipe
    split
    · intro o ho; simp at ho
    · intro o ho
      simp only [List.mem_append, List.mem_singleton] at ho
      rcases ho with ho | rfl
      · exact gestStart_noEdge s2 o ho
      · rfl
  · unfold Pad.gestPinch
    simp only
    split
    · intro o ho; simp at ho
    · intro o ho
      simp only [List.mem_append, List.mem_singleton] at ho
      rcases ho with ho | rfl
      · exact gestStart_noEdge _ o ho
      · rfl
  · intro o ho; simp at ho
  · intro o ho; simp at ho

theorem gestPost_noEdge (s : Pad) (g : Frame) (d : Nat → Nat) (now : Nat) : ∀ o ∈ (s.gestPost g d now).2, o.aboutEdge = none := by
  unfold Pad.gestPost
  split
  · intro o ho; simp at ho
  · simp only
    have h1 : ∀ o ∈ (s.oneFinger g now).2, o.aboutEdge = none := by
      unfold Pad.oneFinger
      split
      · exact gestEnd_noEdge s now true
      · intro o ho; simp at ho
    generalize s.oneFinger g now = r at h1
    split
    · exact h1
    · split
      · intro o ho
        rw [List.mem_append] at ho
        rcases ho with ho | ho
        · exact h1 o ho
        · split at ho
          · unfold Pad.postMotion at ho
            split at ho
            · simp at ho
            · simp at ho; subst ho; rfl
          · simp at ho
      · split
        · intro o ho
          rw [List.mem_append] at ho
          rcases ho with ho | ho
          · exact h1 o ho
          · exact postGesture_noEdge _ g d now o ho
        · exact h1

/-- A touch without what gestures note about it. -/
def Finger.plain (t : Finger) : Finger := { t with start := {} }

/-- The touches are the same but for that. -/
def Mild (s t : Pad) : Prop := t.touches.map Finger.plain = s.touches.map Finger.plain

theorem Mild.refl (s : Pad) : Mild s s := rfl
theorem Mild.trans {s t u : Pad} (h : Mild s t) (k : Mild t u) : Mild s u := Eq.trans (α := List Finger) k h
theorem mild_of {s t : Pad} (h : t.touches = s.touches) : Mild s t := by unfold Mild; rw [h]

theorem mild_start (s : Pad) (i : Nat) (p : Point) : Mild s (s.put i { s.touch i with start := p }) := by
  unfold Mild Pad.put Pad.touch
  apply List.ext_getElem?
  intro j
  simp only [List.getElem?_map, List.getElem?_set]
  by_cases hj : i = j
  · subst hj
    by_cases hi : i < s.touches.length
    · simp [hi, Finger.plain]
    · simp [hi]
  · simp [hj]

theorem mild_watch (s : Pad) (a b : Finger) (now : Nat) : Mild s (s.watch a b now) := by
  unfold Pad.watch
  exact (mild_start s _ _).trans ((mild_start _ _ _).trans (mild_of rfl))

theorem mild_gestNone (s : Pad) (now : Nat) : Mild s (s.gestNone now) := by
  unfold Pad.gestNone
  split
  · split
    · split
      · exact mild_of rfl
      · exact .refl s
    · split
      · exact mild_watch _ _ _ _
      · simp only; split
        · exact .refl s
        · exact mild_watch _ _ _ _
  · exact .refl s

theorem mild_gestDetect (s : Pad) (g : Frame) (d1 d2 : Nat) (now : Nat) : Mild s (s.gestDetect g d1 d2 now) := by
  unfold Pad.gestDetect
  simp only
  repeat' (split)
  all_goals first
    | exact mild_of rfl
    | exact mild_of (only_thumbSuppress s _).touches

theorem mild_postGesture (s : Pad) (g : Frame) (d : Nat → Nat) (now : Nat) : Mild s (s.postGesture g d now).1 := by
  unfold Pad.postGesture
  obtain ⟨s1, e1⟩ : ∃ x, x = (if s.gest.st = .none then s.gestNone now else s) := ⟨_, rfl⟩
  have h1 : Mild s s1 := by
    rw [e1]; split
    · exact mild_gestNone s now
    · exact .refl s
  rw [← e1]
  simp only
  obtain ⟨s2, e2⟩ : ∃ x, x = (if s1.gest.st = .unknown then s1.gestDetect g (d s1.gest.first) (d s1.gest.second) now else s1) := ⟨_, rfl⟩
  have h2 : Mild s s2 := by
    rw [e2]; split
    · exact h1.trans (mild_gestDetect _ _ _ _ _)
    · exact h1
  rw [← e2]
  refine h2.trans ?_
  have hs : ∀ s : Pad, s.gestStart.1.touches = s.touches := by
    intro s; unfold Pad.gestStart; split <;> rfl
  split
  · unfold Pad.gestScroll
    split
    · exact .refl s2
    · split
      · exact .refl s2
      · exact mild_of (hs s2)
  · unfold Pad.gestSwipe
    split
    · exact .refl s2
    · exact mild_of (hs s2)
  · unfold Pad.gestPinch
    simp only
    split
    · exact mild_of rfl
    · exact mild_of (hs _)
  · exact .refl s2
  · exact .refl s2

theorem mild_gestPost (s : Pad) (g : Frame) (d : Nat → Nat) (now : Nat) : Mild s (s.gestPost g d now).1 := by
  unfold Pad.gestPost
  split
  · exact .refl s
  · simp only
    have h : Mild s (s.oneFinger g now).1 := by
      unfold Pad.oneFinger
      split
      · exact mild_of (gestEnd_cfg s now true).2.2.1
      · exact .refl s
    split
    · exact h
    · split
      · exact h
      · split
        · exact h.trans (mild_postGesture _ _ _ _)
        · exact h

/-! ### What processing leaves alone -/

/-- What edge scrolling knows about a touch. -/
structure ECore where
  index : Nat
  st : St
  dirty : Bool
  edgeSt : EdgeSt
  edgeR : Bool
  edgeB : Bool
  dir : Option Axis
  edgeTimer : Option Nat
  from_ : Point
deriving DecidableEq

def Finger.ecore (t : Finger) : ECore := ⟨t.index, t.st, t.dirty, t.edgeSt, t.edgeR, t.edgeB, t.dir, t.edgeTimer, t.from_⟩

theorem palmDetect_ecore (s : Pad) (t : Finger) (v : View) (now : Nat) : (s.palmDetect t v now).ecore = t.ecore := by
  have h1 : ∀ t, (s.palmPressure t).1.ecore = t.ecore := by
    intro t; unfold Pad.palmPressure; split
    · rfl
    · split
      · rfl
      · simp only; split <;> rfl
  have h2 : ∀ t, (s.palmArb t).1.ecore = t.ecore := by
    intro t; unfold Pad.palmArb; split <;> rfl
  have h3 : ∀ t, (s.palmDwt t).1.ecore = t.ecore := by
    intro t; unfold Pad.palmDwt; split
    · rfl
    · split <;> rfl
  have h4 : ∀ t, (s.palmTrk t).1.ecore = t.ecore := by
    intro t; unfold Pad.palmTrk; split
    · rfl
    · split
      · rfl
      · split <;> rfl
  have h5 : ∀ t, (s.palmTool t).1.ecore = t.ecore := by
    intro t; unfold Pad.palmTool; split
    · rfl
    · split
      · rfl
      · simp only; split
        · rfl
        · split <;> rfl
  have h6 : ∀ t, (s.palmSize t).1.ecore = t.ecore := by
    intro t; unfold Pad.palmSize; split
    · rfl
    · split
      · rfl
      · split <;> rfl
  have h7 : ∀ t, (s.palmEdge t v now).1.ecore = t.ecore := by
    intro t; unfold Pad.palmEdge; split
    · simp only; split <;> rfl
    · split
      · rfl
      · split
        · rfl
        · split
          · rfl
          · split <;> rfl
  unfold Pad.palmDetect
  simp only
  have k1 := h1 t
  split
  · exact k1
  · have k2 := (h2 _).trans k1
    split
    · exact k2
    · have k3 := (h3 _).trans k2
      split
      · exact k3
      · have k4 := (h4 _).trans k3
        split
        · exact k4
        · have k5 := (h5 _).trans k4
          split
          · exact k5
          · have k6 := (h6 _).trans k5
            split
            · exact k6
            · have k7 := (h7 _).trans k6
              split
              · exact k7
              · exact (h1 _).trans k7

theorem finish_ecore (t : Finger) (v : View) : (t.finish v).ecore = t.ecore := by
  unfold Finger.finish Finger.push
  simp only
  split <;> rfl

theorem forget_ecore (t : Finger) (w : Bool) : (t.forget w).ecore = t.ecore := by
  unfold Finger.forget
  split
  · rfl
  · split <;> rfl

/-- All touches, as edge scrolling sees them. -/
def eOf (s : Pad) : List ECore := s.touches.map Finger.ecore

theorem eOf_put (s : Pad) (i : Nat) (t u : Finger) (h : s.touches[i]? = some t) (hu : u.ecore = t.ecore) : eOf (s.put i u) = eOf s := by
  unfold eOf Pad.put
  apply List.ext_getElem?
  intro j
  simp only [List.getElem?_map, List.getElem?_set]
  by_cases hj : i = j
  · subst hj
    have hi := List.getElem?_eq_some_iff.1 h
    simp [hi.1, hu]
    rw [hi.2]
  · simp [hj]

theorem eOf_only {s t : Pad} (h : Only s t) : eOf t = eOf s := by simp [eOf, h.touches]

theorem eOf_processOne (s : Pad) (i : Nat) (v : View) (w : Bool) (now : Nat) : eOf (s.processOne i v w now) = eOf s := by
  unfold Pad.processOne
  split
  · rfl
  · next t ht =>
    split
    · rfl
    · simp only
      obtain ⟨t1, e1⟩ : ∃ x, x = t.forget w := ⟨_, rfl⟩
      have k1 : t1.ecore = t.ecore := by rw [e1]; exact forget_ecore t w
      rw [← e1]
      split
      · exact eOf_put s i t _ ht k1
      · obtain ⟨t2, e2⟩ : ∃ x, x = (if v.jump = true then { t1 with hist := [] } else t1) := ⟨_, rfl⟩
        have k2 : t2.ecore = t.ecore := by rw [e2]; split <;> exact k1
        rw [← e2]
        have o := only_thumbUpdate (s.put i t2) t2
        obtain ⟨s2, es2⟩ : ∃ x, x = (s.put i t2).thumbUpdate t2 := ⟨_, rfl⟩
        rw [← es2] at o ⊢
        have hlt := (List.getElem?_eq_some_iff.1 ht).1
        have hget : s2.touches[i]? = some t2 := by rw [o.touches]; simp [Pad.put, hlt]
        rw [eOf_put s2 i t2 _ hget ((finish_ecore _ _).trans (palmDetect_ecore _ _ _ _)), eOf_only o]
        exact eOf_put s i t t2 ht k2

theorem eOf_processAll (w : Bool) (now : Nat) : ∀ (vs : List View) (s : Pad) (i : Nat), eOf (s.processAll w now i vs) = eOf s
  | [], _, _ => rfl
  | v :: vs, s, i => (eOf_processAll w now vs _ (i + 1)).trans (eOf_processOne s i v w now)

theorem eOf_process (s : Pad) (vs : List View) (g : Frame) (now : Nat) : eOf (s.process vs g now) = (takeAll now s.touches vs).map Finger.ecore := by
  unfold Pad.process
  simp only
  split
  · rw [eOf_only (only_thumbMulti _), eOf_processAll]; rfl
  · rw [eOf_processAll]; rfl

theorem noteActive_ecore : ∀ (ts : List Finger) (vs : List View), (noteActive ts vs).map Finger.ecore = ts.map Finger.ecore
  | [], vs => by cases vs <;> rfl
  | t :: ts, [] => rfl
  | t :: ts, v :: vs => by simp only [noteActive, List.map_cons, noteActive_ecore ts vs]; rfl

theorem take_ecore (t : Finger) (v : View) (now : Nat) : (t.take v now).ecore = { t.ecore with st := v.st, dirty := v.dirty } := by
  unfold Finger.take
  simp only
  by_cases h : t.st = .none
  · simp only [if_pos h]; split <;> rfl
  · simp only [if_neg h]; split <;> rfl

theorem takeAll_get (now : Nat) : ∀ (ts : List Finger) (vs : List View) (i : Nat) (t : Finger) (v : View), ts[i]? = some t → vs[i]? = some v →
    (takeAll now ts vs)[i]? = some (t.take v now)
  | [], _, _, _, _, h, _ => by simp at h
  | t :: ts, [], _, _, _, _, h => by simp at h
  | t :: ts, v :: vs, 0, _, _, h, k => by simp at h k; subst h; subst k; rfl
  | t :: ts, v :: vs, i + 1, u, w, h, k => by
    simp only [takeAll, List.getElem?_cons_succ] at h k ⊢
    exact takeAll_get now ts vs i u w h k

end Libinput.Motion
