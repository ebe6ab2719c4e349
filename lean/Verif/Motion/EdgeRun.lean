import Verif.Motion.EdgeFrame
/-
A careful history keeps the invariant of edge scrolling.
-/
namespace Libinput.Motion
open Touch (St)

theorem em_of_ecore {m : Method} {t u : Finger} (e : u.ecore = t.ecore) (h : EM m t) : EM m u := by
  simp only [Finger.ecore, ECore.mk.injEq] at e
  obtain ⟨_, e2, e3, e4, e5, e6, e7, _, _⟩ := e
  refine ⟨?_, ?_, ?_, ?_⟩
  · intro a ha; rw [e7] at ha; have := h.dir a ha; unfold Finger.edgeAxis at this ⊢; rw [e4, e5, e6, e2, e3]; exact this
  · intro k; unfold Finger.off at k; rw [e4] at k; have := h.bits k; unfold Finger.noEdge at this ⊢; rw [e5, e6]; exact this
  · intro k; unfold Finger.down at k; rw [e2] at k; have := h.up k; unfold Finger.off at this ⊢; rw [e4]; exact this
  · intro k; have := h.method k; unfold Finger.off at this ⊢; rw [e4]; exact this

theorem eachFinger_map (f : Finger → Finger × List Out) : ∀ ts, (eachFinger f ts).1 = ts.map fun t => (f t).1
  | [] => rfl
  | t :: ts => by simp only [eachFinger, List.map_cons, eachFinger_map f ts]

theorem each_get (s : Pad) (f : Finger → Finger × List Out) (i : Nat) (t : Finger) (h : s.touches[i]? = some t) : (s.each f).1.touches[i]? = some (f t).1 := by
  show (eachFinger f s.touches).1[i]? = _
  rw [eachFinger_map]
  simp [h]

theorem noteActive_get : ∀ (ts : List Finger) (vs : List View) (i : Nat) (t : Finger), ts[i]? = some t → ∃ b, (noteActive ts vs)[i]? = some { t with active := b }
  | [], _, _, _, h => by simp at h
  | t :: ts, [], i, u, h => ⟨u.active, h⟩
  | t :: ts, v :: vs, 0, u, h => ⟨v.active, by simp at h; subst h; rfl⟩
  | t :: ts, v :: vs, i + 1, u, h => by
    simp only [List.getElem?_cons_succ] at h
    obtain ⟨b, hb⟩ := noteActive_get ts vs i u h
    exact ⟨b, by simpa [noteActive] using hb⟩

/-- A touch after it was judged. -/
structure Judged (s : Pad) (vs : List View) (g : Frame) (now : Nat) (i : Nat) (t : Finger) (v : View) (u : Finger) : Prop where
  get : (s.judge vs g now).1.touches[i]? = some u
  index : u.index = t.index
  st : u.st = v.st
  dirty : u.dirty = v.dirty
  made : ∃ p x : Finger, ∃ b c, (s.process vs g now).touches[i]? = some p ∧ p.ecore = { t.ecore with st := v.st, dirty := v.dirty } ∧ x = { p with active := c } ∧
    u = { (((s.process vs g now).buttons vs).edgeState x now).1 with pinned := b }

theorem judge_touch (s : Pad) (vs : List View) (g : Frame) (now : Nat) (i : Nat) (t : Finger) (v : View) (ht : s.touches[i]? = some t) (hv : vs[i]? = some v) :
    ∃ u, Judged s vs g now i t v u := by
  have he := eOf_process s vs g now
  have hi := congrArg (fun l => l[i]?) he
  simp only [eOf, List.getElem?_map, takeAll_get now _ _ i t v ht hv, Option.map_some] at hi
  cases hp : (s.process vs g now).touches[i]? with
  | none => rw [hp] at hi; cases hi
  | some p =>
    rw [hp] at hi
    simp only [Option.map_some, Option.some.injEq] at hi
    rw [take_ecore] at hi
    obtain ⟨c, hc⟩ := noteActive_get (s.process vs g now).touches vs i p hp
    have hx : ((s.process vs g now).buttons vs).touches[i]? = some { p with active := c } := hc
    have hy := each_get ((s.process vs g now).buttons vs) (fun t => ((s.process vs g now).buttons vs).edgeState t now) i _ hx
    have key : ∃ b, (s.judge vs g now).1.touches[i]? = some { (((s.process vs g now).buttons vs).edgeState { p with active := c } now).1 with pinned := b } := by
      unfold Pad.judge
      simp only
      generalize (((s.process vs g now).buttons vs).each fun t => ((s.process vs g now).buttons vs).edgeState t now).1 = w at hy
      unfold Pad.pin
      split
      · exact ⟨true, by simp [hy]⟩
      · exact ⟨_, hy⟩
    obtain ⟨b, hb⟩ := key
    have hcore := edgeState_core ((s.process vs g now).buttons vs) { p with active := c } now
    refine ⟨_, hb, ?_, ?_, ?_, p, _, b, c, hp, hi, rfl, rfl⟩
    · exact (congrArg Core.index hcore).trans (congrArg ECore.index hi)
    · exact (congrArg Core.st hcore).trans (congrArg ECore.st hi)
    · exact (congrArg Core.dirty hcore).trans (congrArg ECore.dirty hi)

theorem Judged.em {s : Pad} {vs : List View} {g : Frame} {now i : Nat} {t : Finger} {v : View} {u : Finger} (h : Judged s vs g now i t v u)
    (he : EI s.method t) (hf : Touch.Spec.fits t.down (v.st, v.dirty) = true) : EM s.method u ∧ u.dir = t.dir := by
  obtain ⟨p, x, b, c, h1, h2, rfl, rfl⟩ := h.made
  have hs : ((s.process vs g now).buttons vs).method = s.method := ((same_process s vs g now).trans (same_buttons _ vs)).method
  have e2 : p.st = v.st ∧ p.dirty = v.dirty := ⟨congrArg ECore.st h2, congrArg ECore.dirty h2⟩
  have := em_edgeState ((s.process vs g now).buttons vs) t { p with active := c } now (by rw [hs]; exact he)
    (by have e3 : p.ecore = { t.ecore with st := p.st, dirty := p.dirty } := (by rw [e2.1, e2.2]; exact h2); exact e3) (by unfold Fit; simp only [e2.1, e2.2]; exact hf)
  rw [hs] at this
  exact ⟨em_of_ecore (t := (((s.process vs g now).buttons vs).edgeState { p with active := c } now).1) rfl this.1, this.2⟩

theorem Judged.palm {s : Pad} {vs : List View} {g : Frame} {now i : Nat} {t : Finger} {v : View} {u : Finger} (h : Judged s vs g now i t v u) :
    ∃ p, (s.process vs g now).touches[i]? = some p ∧ u.palm = p.palm := by
  obtain ⟨p, x, b, c, h1, h2, rfl, rfl⟩ := h.made
  exact ⟨p, h1, congrArg Core.palm (edgeState_core ((s.process vs g now).buttons vs) { p with active := c } now)⟩

theorem judge_thumb (s : Pad) (vs : List View) (g : Frame) (now : Nat) : (s.judge vs g now).1.thumb = (s.process vs g now).thumb := by
  unfold Pad.judge Pad.pin
  simp only
  split <;> rfl

/-! ### Sending -/

/-- What sending the events of a frame does to one touch. -/
def Pad.postOne (q : Pad) (g : Frame) (now : Nat) (u : Finger) : Finger × List Out :=
  let r := if g.click then u.edgeStop else (u, [])
  let p := if q.suspended then (r.1, []) else if g.ignore || q.trk.active || q.dwt.active then r.1.edgeStop else q.edgePost r.1 now
  (p.1, r.2 ++ p.2)

theorem Edged.split {i : Nat} {a b : List Out} {c c' : Option Axis} (h : Edged i c (a ++ b) c') : Edged i c a (scrollingFrom i c a) ∧ Edged i (scrollingFrom i c a) b c' := by
  unfold Edged at h ⊢
  rw [followEdge_append, scrollingFrom_append, Bool.and_eq_true] at h
  exact ⟨⟨h.1.1, rfl⟩, h.1.2, h.2⟩

theorem edgeStop_about (t : Finger) : ∀ o ∈ t.edgeStop.2, ∀ j, o.aboutEdge = some j → j = t.index := by
  unfold Finger.edgeStop
  split <;> intro o ho j hj <;> simp at ho
  subst ho
  exact (Option.some.inj hj).symm

theorem edgePost_about (s : Pad) (t : Finger) (now : Nat) : ∀ o ∈ (s.edgePost t now).2, ∀ j, o.aboutEdge = some j → j = t.index := by
  unfold Pad.edgePost
  split
  · intro o ho; simp at ho
  split
  · intro o ho; simp at ho
  split
  · intro o ho; simp at ho
  split
  · split
    · intro o ho; simp at ho
    · intro o ho j hj; simp at ho; subst ho; exact (Option.some.inj hj).symm
  split
  · intro o ho; simp at ho
  · have hb : ∀ o ∈ t.edgeBug, o = .bug := by
      unfold Finger.edgeBug
      split <;> intro o ho <;> simp at ho
      exact ho
    unfold Pad.edgeScroll
    split
    · intro o ho j hj; rw [hb o ho] at hj; cases hj
    · intro o ho j hj
      simp only [List.mem_append, List.mem_cons] at ho
      rcases ho with ho | ho | ho
      · rw [hb o ho] at hj; cases hj
      · subst ho; exact (Option.some.inj hj).symm
      · rw [edgeEvent_out _ _ _ _ o ho] at hj; cases hj

theorem edged_pad (s : Pad) (f : Finger → Finger × List Out) (n : Nat) (hi : s.touches.map Finger.index = List.range n)
    (hf : ∀ t, ∀ o ∈ (f t).2, ∀ j, o.aboutEdge = some j → j = t.index) (i : Nat) (t : Finger) (ht : s.touches[i]? = some t) (c c' : Option Axis)
    (h : Edged i c (f t).2 c') : Edged i c (s.each f).2 c' := by
  have hn : s.touches.length = n := by have := congrArg List.length hi; simpa using this
  refine edged_each f hf i c c' s.touches 0 (by rw [hn, hi, List.range_eq_range']) (Nat.zero_le _) ?_ ?_
  · intro u hu
    rw [Nat.sub_zero, ht] at hu
    cases hu
    exact h
  · intro hl
    have := (List.getElem?_eq_some_iff.1 ht).1
    omega

theorem clicked_touch (q : Pad) (g : Frame) (n i : Nat) (u : Finger) (hi : q.touches.map Finger.index = List.range n) (hu : q.touches[i]? = some u) :
    (q.clicked g).1.touches[i]? = some (if g.click then u.edgeStop else (u, [])).1 ∧
      ∀ c c', Edged i c (if g.click then u.edgeStop else (u, [])).2 c' → Edged i c (q.clicked g).2 c' := by
  unfold Pad.clicked
  split
  · exact ⟨each_get q _ i u hu, fun c c' h => edged_pad q _ n hi edgeStop_about i u hu c c' h⟩
  · exact ⟨hu, fun c c' h => h⟩

theorem postEvents_touch (q : Pad) (g : Frame) (d : Nat → Nat) (now n i : Nat) (u : Finger) (hi : q.touches.map Finger.index = List.range n) (hu : q.touches[i]? = some u) :
    (∃ w, (q.postEvents g d now).1.touches[i]? = some w ∧ w.plain = (q.postOne g now u).1.plain) ∧
      ∀ c c', Edged i c (q.postOne g now u).2 c' → Edged i c (q.postEvents g d now).2 c' := by
  have hq := clicked_touch q g n i u hi hu
  have hi2 := (sends_clicked q g).shape.index.trans hi
  have hep : ∀ t, (q.clicked g).1.edgePost t now = q.edgePost t now := by
    intro t; unfold Pad.clicked; split <;> rfl
  have k := same_clicked q g
  unfold Pad.postEvents Pad.postOne
  simp only
  obtain ⟨r, er⟩ : ∃ x, x = (if g.click then u.edgeStop else (u, [])) := ⟨_, rfl⟩
  rw [← er] at hq ⊢
  obtain ⟨w, ew⟩ : ∃ x, x = q.clicked g := ⟨_, rfl⟩
  rw [← ew] at hq hi2 hep k ⊢
  unfold Pad.postRest
  rw [k.suspended, k.trk, k.dwt]
  have tail : ∀ (x : List Out) (y : List Out), (∀ o ∈ y, o.aboutEdge = none) → ∀ c c', Edged i c x c' → Edged i c (x ++ y) c' := by
    intro x y hy c c' h
    exact h.append (Edged.skip fun o ho hx => by rw [hy o ho] at hx; cases hx)
  by_cases hs : q.suspended = true
  · rw [if_pos hs, if_pos hs]
    refine ⟨⟨_, hq.1, rfl⟩, fun c c' h => ?_⟩
    simp only [List.append_nil] at h ⊢
    exact hq.2 c c' h
  · rw [if_neg hs, if_neg hs]
    split
    · simp only
      refine ⟨⟨r.1.edgeStop.1, ?_, rfl⟩, fun c c' h => ?_⟩
      · rw [(gestEnd_cfg _ now true).2.2.1]
        exact each_get w.1 _ i r.1 hq.1
      · obtain ⟨h1, h2⟩ := h.split
        refine (hq.2 _ _ h1).append (tail _ _ (gestEnd_noEdge _ _ _) _ _ ?_)
        exact edged_pad w.1 _ n hi2 edgeStop_about i r.1 hq.1 _ _ h2
    · simp only
      refine ⟨?_, fun c c' h => ?_⟩
      · have hm := mild_gestPost (w.1.each fun t => w.1.edgePost t now).1 g d now
        have hg := each_get w.1 (fun t => w.1.edgePost t now) i r.1 hq.1
        have := congrArg (fun l => l[i]?) hm
        simp only [List.getElem?_map, hg, Option.map_some] at this
        cases e : ((w.1.each fun t => w.1.edgePost t now).1.gestPost g d now).1.touches[i]? with
        | none => rw [e] at this; cases this
        | some y =>
          rw [e] at this
          simp only [Option.map_some, Option.some.injEq] at this
          exact ⟨y, rfl, by rw [this, hep]⟩
      · obtain ⟨h1, h2⟩ := h.split
        refine (hq.2 _ _ h1).append (tail _ _ (gestPost_noEdge _ _ _ _) _ _ ?_)
        refine edged_pad w.1 _ n hi2 (fun t => edgePost_about w.1 t now) i r.1 hq.1 _ _ ?_
        rw [hep]
        exact h2

/-- One touch: what is sent is in order, and the invariant holds again. -/
theorem em_postOne (q : Pad) (g : Frame) (now : Nat) (u : Finger) (h : EM q.method u) :
    EM q.method (q.postOne g now u).1 ∧ Edged u.index u.dir (q.postOne g now u).2 (q.postOne g now u).1.dir ∧ (q.postOne g now u).1.core = u.core ∧
      (u.st = .end_ → u.dir ≠ none → q.suspended = false → u.palm = .none → q.thumbIgnored u = false → (q.postOne g now u).1.dir = none) ∧
      ((u.dirty = true → u.off ∨ u.palm ≠ .none) → u.dir = none → (q.postOne g now u).1.dir = none) ∧
      (u.st = .end_ → u.dir = none → (q.postOne g now u).1.dir = none) := by
  unfold Pad.postOne
  simp only
  have h1 : EM q.method (if g.click = true then u.edgeStop else (u, [])).1 ∧ Edged u.index u.dir (if g.click = true then u.edgeStop else (u, [])).2 (if g.click = true then u.edgeStop else (u, [])).1.dir ∧
      (if g.click = true then u.edgeStop else (u, [])).1.core = u.core ∧ (u.dir = none → (if g.click = true then u.edgeStop else (u, [])).1.dir = none) ∧
      (u.off → (if g.click = true then u.edgeStop else (u, [])).1.off) := by
    split
    · obtain ⟨a, b, c⟩ := em_edgeStop h
      refine ⟨a, by rw [b]; exact c, edgeStop_core u, fun _ => b, fun ho => ?_⟩
      unfold Finger.edgeStop
      split
      · exact ho
      · exact .inr rfl
    · exact ⟨h, ⟨rfl, rfl⟩, rfl, id, id⟩
  generalize (if g.click = true then u.edgeStop else (u, [])) = r at h1
  obtain ⟨a1, a2, a3, a4, a5⟩ := h1
  have ei : r.1.index = u.index := congrArg Core.index a3
  have es : r.1.st = u.st := congrArg Core.st a3
  have ed : r.1.dirty = u.dirty := congrArg Core.dirty a3
  have ep : r.1.palm = u.palm := congrArg Core.palm a3
  by_cases hs : q.suspended = true
  · rw [if_pos hs]
    simp only [List.append_nil]
    refine ⟨a1, a2, a3, fun _ _ k => (by rw [hs] at k; cases k), fun _ => a4, fun _ => a4⟩
  · rw [if_neg hs]
    split
    · obtain ⟨b1, b2, b3⟩ := em_edgeStop a1
      refine ⟨b1, ?_, (edgeStop_core _).trans a3, fun _ _ _ _ _ => b2, fun _ _ => b2, fun _ _ => b2⟩
      rw [b2]
      exact a2.append (by rw [ei] at b3; exact b3)
    · obtain ⟨b1, b2, b3, b4⟩ := em_edgePost q r.1 now a1
      have it : q.thumbIgnored r.1 = q.thumbIgnored u := by unfold Pad.thumbIgnored; rw [ei]
      refine ⟨b1, a2.append (by rw [ei] at b2; exact b2), (edgePost_core q r.1 now).trans a3, ?_, ?_, ?_⟩
      · intro k1 _ _ k4 k5
        exact b3 (by rw [es]; exact k1) (by rw [ep]; exact k4) (by rw [it]; exact k5)
      · intro k1 k2
        refine b4 (fun x => ?_) (a4 k2)
        rw [ed] at x
        rcases k1 x with y | y
        · exact .inl (a5 y)
        · exact .inr (by rw [ep]; exact y)
      · intro k1 k2
        exact b4 (fun _ => .inl (a1.up (by unfold Finger.down; simp [es, k1]))) (a4 k2)

/-! ### A frame -/

theorem plain_ecore {t u : Finger} (h : u.plain = t.plain) : u.ecore = t.ecore := by
  have : ∀ x : Finger, x.ecore = x.plain.ecore := fun x => rfl
  rw [this u, h, ← this t]

/-- What is always true in careful histories. -/
structure Inv (s : Pad) (ds : List Bool) (past : List Out) : Prop where
  index : s.touches.map Finger.index = List.range ds.length
  down : ∀ (i : Nat) (t : Finger), s.touches[i]? = some t → ds[i]? = some t.down
  calm : ∀ (i : Nat) (t : Finger), s.touches[i]? = some t → t.st = .none ∨ t.st = .hovering ∨ t.st = .update
  edge : ∀ (i : Nat) (t : Finger), s.touches[i]? = some t → EI s.method t
  dir : ∀ (i : Nat) (t : Finger), s.touches[i]? = some t → t.dir = scrolling i past
  arb : s.arb = true → ∀ t ∈ s.touches, t.dir = none

theorem fitsAll_get : ∀ (ds : List Bool) (vs : List (St × Bool)), Touch.Spec.fitsAll ds vs = true → ds.length = vs.length ∧ ∀ (i : Nat) (d : Bool) (v : St × Bool), ds[i]? = some d → vs[i]? = some v → Touch.Spec.fits d v = true
  | [], [], _ => ⟨rfl, fun i d v h => by simp at h⟩
  | [], v :: vs, h => by simp [Touch.Spec.fitsAll] at h
  | d :: ds, [], h => by simp [Touch.Spec.fitsAll] at h
  | d :: ds, v :: vs, h => by
    simp only [Touch.Spec.fitsAll, Bool.and_eq_true] at h
    obtain ⟨h1, h2⟩ := fitsAll_get ds vs h.2
    refine ⟨by simp [h1], ?_⟩
    intro i d' v' hd hv
    cases i with
    | zero => simp at hd hv; subst hd; subst hv; exact h.1
    | succ i => simp at hd hv; exact h2 i d' v' hd hv

/-- What is asked of a frame. -/
structure FrameOk (s : Pad) (ds : List Bool) (past : List Out) (vs : List View) : Prop where
  fits : Touch.Spec.fitsAll ds (vs.map fun v => (v.st, v.dirty)) = true
  ends : ∀ (i : Nat) (v : View), vs[i]? = some v → v.st = .end_ → scrolling i past ≠ none →
    s.suspended = false ∧ ¬ PalmLike s.cfg v ∧ (s.cfg.thumbs = true → ∀ w ∈ vs, w.st ≠ .begin)

theorem frame_eq (s : Pad) (vs : List View) (g : Frame) (hov : Nat → Bool) (now : Nat) : ∃ d, s.frame vs g hov now =
    ((((s.judge vs g now).1.gestState now).1.postEvents g d now).1.settle hov,
      (s.judge vs g now).2 ++ ((s.judge vs g now).1.gestState now).2 ++ (((s.judge vs g now).1.gestState now).1.postEvents g d now).2) := ⟨_, rfl⟩

theorem frame_touch (s : Pad) (ds : List Bool) (past : List Out) (vs : List View) (g : Frame) (hov : Nat → Bool) (now : Nat) (h : Inv s ds past) (hok : FrameOk s ds past vs)
    (i : Nat) (t : Finger) (ht : s.touches[i]? = some t) :
    ∃ v w, vs[i]? = some v ∧ (s.frame vs g hov now).1.touches[i]? = some w ∧ EI s.method w ∧ Edged i t.dir (s.frame vs g hov now).2 w.dir ∧
      w.down = (v.st == .begin || v.st == .update) ∧ (w.st = .none ∨ w.st = .hovering ∨ w.st = .update) ∧ (s.arb = true → w.dir = none) := by
  obtain ⟨hlen, hfit⟩ := fitsAll_get _ _ hok.fits
  have hn : s.touches.length = ds.length := by have := congrArg List.length h.index; simpa using this
  have hlt := (List.getElem?_eq_some_iff.1 ht).1
  simp only [List.length_map] at hlen
  have hv : vs[i]? = some vs[i] := List.getElem?_eq_getElem (by omega)
  generalize vs[i] = v at hv
  have hf := hfit i t.down (v.st, v.dirty) (h.down i t ht) (by simp [hv])
  have he := h.edge i t ht
  have hidx := indices_get h.index ht
  obtain ⟨u, hj⟩ := judge_touch s vs g now i t v ht hv
  obtain ⟨hem, hdir⟩ := hj.em he hf
  have hjs := same_judge s vs g now
  have hq := gestState_cfg (s.judge vs g now).1 now
  have hqs := sends_gestState (s.judge vs g now).1 now
  have hjidx := (shape_judge s vs g now).index.trans h.index
  obtain ⟨q, eq⟩ : ∃ x, x = ((s.judge vs g now).1.gestState now).1 := ⟨_, rfl⟩
  rw [← eq] at hq hqs
  have hqu : q.touches[i]? = some u := by rw [hq.2.2.1]; exact hj.get
  have hqi : q.touches.map Finger.index = List.range ds.length := by rw [hq.2.2.1]; exact hjidx
  have hqm : q.method = s.method := hqs.method.trans hjs.method
  have hpt := fun d => postEvents_touch q g d now ds.length i u hqi hqu
  obtain ⟨p1, p2, p3, p4, p5, p6⟩ := em_postOne q g now u (by rw [hqm]; exact hem)
  rw [hqm] at p1
  have ui : u.index = i := hj.index.trans hidx
  rw [ui] at p2
  -- the stop of a touch that ended
  have hstop : (q.postOne g now u).1.st = .end_ → (q.postOne g now u).1.dir = none := by
    intro hst
    have hst : u.st = .end_ := (congrArg Core.st p3).symm.trans hst
    cases e : u.dir with
    | none => exact p6 hst e
    | some a =>
      have hvst : v.st = .end_ := hj.st ▸ hst
      have hsc : scrolling i past ≠ none := by rw [← h.dir i t ht, ← hdir, e]; simp
      obtain ⟨o1, o2, o3⟩ := hok.ends i v hv hvst hsc
      have hd : v.dirty = true := by
        simp only [Touch.Spec.fits, hvst, Bool.and_eq_true] at hf
        exact hf.2
      have harb : s.arb = false := by
        cases ea : s.arb with
        | false => rfl
        | true =>
          have := h.arb ea t (List.mem_of_getElem? ht)
          rw [hdir, this] at e; cases e
      obtain ⟨y, y1, y2⟩ := process_end s vs g now i t v ht hv hvst hd harb o2
      obtain ⟨y', y3, y4⟩ := hj.palm
      rw [y1] at y3; cases y3
      have hnt := process_thumb s vs g now ds.length i t v h.index ht hv hvst hd o3 (by omega)
      apply p4 hst (by rw [e]; simp) (by rw [hqs.suspended, hjs.suspended]; exact o1) (y4.trans y2)
      apply NotThumb.ignored
      rw [ui]
      unfold NotThumb at hnt ⊢
      rw [hq.2.2.2.1, judge_thumb, hqs.cfg, hjs.cfg]
      rw [(same_process s vs g now).cfg] at hnt
      exact hnt
  have harb' : s.arb = true → (q.postOne g now u).1.dir = none := by
    intro ha
    have hdn : u.dir = none := by rw [hdir]; exact h.arb ha t (List.mem_of_getElem? ht)
    apply p5 _ hdn
    intro hd
    by_cases hst : v.st = .none
    · exact .inl (hem.up (by unfold Finger.down; simp [hj.st, hst]))
    · right
      obtain ⟨y, y1, y2⟩ := process_arb s vs g now i t v ht hv hst (hj.dirty ▸ hd) ha
      obtain ⟨y', y3, y4⟩ := hj.palm
      rw [y1] at y3; cases y3
      rw [y4]; exact y2
  obtain ⟨d, ed⟩ := frame_eq s vs g hov now
  rw [← eq] at ed
  obtain ⟨⟨w, w1, w2⟩, w3⟩ := hpt d
  have wcore := plain_ecore w2
  have hei : EI s.method w := ei_of_ecore wcore (p1.ei hstop)
  obtain ⟨s1, s2⟩ := ei_settle hei (hov w.index)
  have wst : w.st = v.st := (congrArg ECore.st wcore).trans ((congrArg Core.st p3).trans hj.st)
  have wd : w.dirty = v.dirty := (congrArg ECore.dirty wcore).trans ((congrArg Core.dirty p3).trans hj.dirty)
  have wdir : w.dir = (q.postOne g now u).1.dir := congrArg ECore.dir wcore
  refine ⟨v, w.settle (hov w.index), hv, ?_, s1, ?_, ?_, ?_, ?_⟩
  · rw [ed]
    unfold Pad.settle
    simp only
    split <;> simp [w1, Pad.thumbReset]
  · rw [s2, wdir, ← hdir]
    rw [ed, List.append_assoc]
    refine Edged.append (Edged.skip ?_) (Edged.append (Edged.skip ?_) (w3 _ _ p2))
    · intro o ho hx
      rw [judge_out s vs g now o ho] at hx; cases hx
    · intro o ho hx
      rw [gestState_noEdge _ now o ho] at hx; cases hx
  · unfold Finger.settle
    simp only [Touch.Spec.fits] at hf
    cases e : v.st <;> simp [e] at hf <;> rw [e] at wst <;> cases e2 : v.dirty <;> rw [e2] at wd <;> simp [wst, wd, Finger.down, e2] at hf ⊢
    all_goals (cases hov w.index <;> decide)
  · unfold Finger.settle
    simp only [Touch.Spec.fits] at hf
    cases e : v.st <;> simp [e] at hf <;> rw [e] at wst <;> cases e2 : v.dirty <;> rw [e2] at wd <;> simp [wst, wd, e2] at hf ⊢
    all_goals (cases hov w.index <;> simp)
  · intro ha
    rw [s2, wdir]
    exact harb' ha

theorem frame_keeps (s : Pad) (vs : List View) (g : Frame) (hov : Nat → Bool) (now : Nat) : (s.frame vs g hov now).1.method = s.method ∧ (s.frame vs g hov now).1.arb = s.arb := by
  unfold Pad.frame
  simp only
  have a := same_judge s vs g now
  have b := sends_gestState (s.judge vs g now).1 now
  have c := fun d => sends_postEvents ((s.judge vs g now).1.gestState now).1 g d now
  have d := fun d => same_settle (((s.judge vs g now).1.gestState now).1.postEvents g d now).1 hov
  exact ⟨(d _).method.trans ((c _).method.trans (b.method.trans a.method)), (d _).arb.trans ((c _).arb.trans (b.arb.trans a.arb))⟩

theorem inv_frame (s : Pad) (ds : List Bool) (past : List Out) (vs : List View) (g : Frame) (hov : Nat → Bool) (now : Nat) (h : Inv s ds past) (hok : FrameOk s ds past vs) :
    Inv (s.frame vs g hov now).1 (vs.map fun v => v.st == .begin || v.st == .update) (past ++ (s.frame vs g hov now).2) ∧
      ∀ i, i < ds.length → followEdge i (scrolling i past) (s.frame vs g hov now).2 = true := by
  have hlen : ds.length = vs.length := by have := (fitsAll_get _ _ hok.fits).1; simpa using this
  have hn : s.touches.length = ds.length := by have := congrArg List.length h.index; simpa using this
  have hsh := shape_frame s vs g hov now
  have back : ∀ (i : Nat) (w : Finger), (s.frame vs g hov now).1.touches[i]? = some w → ∃ t, s.touches[i]? = some t := by
    intro i w hw
    have := (List.getElem?_eq_some_iff.1 hw).1
    exact ⟨_, List.getElem?_eq_getElem (by rw [hsh.length] at this; exact this)⟩
  have key := frame_touch s ds past vs g hov now h hok
  have km := frame_keeps s vs g hov now
  refine ⟨⟨?_, ?_, ?_, ?_, ?_, ?_⟩, ?_⟩
  · rw [hsh.index, h.index, hlen, List.length_map]
  · intro i w hw
    obtain ⟨t, ht⟩ := back i w hw
    obtain ⟨v, w', a1, a2, _, _, a5, _⟩ := key i t ht
    rw [hw] at a2; cases a2
    simp [a1, a5]
  · intro i w hw
    obtain ⟨t, ht⟩ := back i w hw
    obtain ⟨v, w', a1, a2, _, _, _, a6, _⟩ := key i t ht
    rw [hw] at a2; cases a2
    exact a6
  · intro i w hw
    obtain ⟨t, ht⟩ := back i w hw
    obtain ⟨v, w', a1, a2, a3, _⟩ := key i t ht
    rw [hw] at a2; cases a2
    rw [km.1]; exact a3
  · intro i w hw
    obtain ⟨t, ht⟩ := back i w hw
    obtain ⟨v, w', a1, a2, _, a4, _⟩ := key i t ht
    rw [hw] at a2; cases a2
    rw [scrolling_append, ← h.dir i t ht]
    exact a4.2.symm
  · intro ha w hw
    rw [km.2] at ha
    obtain ⟨i, hi⟩ := List.getElem?_of_mem hw
    obtain ⟨t, ht⟩ := back i w hi
    obtain ⟨v, w', a1, a2, _, _, _, _, a7⟩ := key i t ht
    rw [hi] at a2; cases a2
    exact a7 ha
  · intro i hlt
    obtain ⟨t, ht⟩ : ∃ t, s.touches[i]? = some t := ⟨_, List.getElem?_eq_getElem (by omega)⟩
    obtain ⟨v, w', _, _, _, a4, _⟩ := key i t ht
    rw [← h.dir i t ht]
    exact a4.1

end Libinput.Motion
