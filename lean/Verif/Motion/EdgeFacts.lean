import Verif.Motion.EdgeStep
import Verif.Motion.Movers
/-
When a touch scrolls along an edge.
-/
namespace Libinput.Motion
open Touch (St)

theorem mem_each (f : Finger → Finger × List Out) (s : Pad) (o : Out) (h : o ∈ (s.each f).2) : ∃ t ∈ s.touches, o ∈ (f t).2 := by
  have : ∀ ts : List Finger, o ∈ (eachFinger f ts).2 → ∃ t ∈ ts, o ∈ (f t).2 := by
    intro ts
    induction ts with
    | nil => intro k; simp [eachFinger] at k
    | cons t ts ih =>
      intro k
      simp only [eachFinger, List.mem_append] at k
      rcases k with k | k
      · exact ⟨t, by simp, k⟩
      · obtain ⟨u, h1, h2⟩ := ih k
        exact ⟨u, by simp [h1], h2⟩
  exact this _ h

theorem get_of_index {s : Pad} {n i : Nat} {t : Finger} (hi : s.touches.map Finger.index = List.range n) (ht : t ∈ s.touches) (e : t.index = i) : s.touches[i]? = some t := by
  obtain ⟨j, hj⟩ := List.getElem?_of_mem ht
  have := indices_get hi hj
  rw [← e, this]
  exact hj

/-- When a touch sends a scroll event. -/
structure Scrolls (s : Pad) (t : Finger) (i : Nat) (a : Axis) (x : Int) : Prop where
  index : t.index = i
  dirty : t.dirty = true
  palm : t.palm = .none
  thumb : s.thumbIgnored t = false
  axis : t.edgeAxis = some a
  right : a = .vertical → s.onRight t = true
  bottom : a = .horizontal → s.onBottom t = true
  delta : s.cfg.edgeDelta t a = x
  value : x ≠ 0

theorem edgePost_mem (s : Pad) (t : Finger) (now i : Nat) (a : Axis) (x : Int) (h : .edge i a x ∈ (s.edgePost t now).2) : Scrolls s t i a x := by
  unfold Pad.edgePost at h
  split at h
  · simp at h
  next hd =>
  split at h
  · simp at h
  next hp =>
  split at h
  · simp at h
  next hz =>
  split at h
  · split at h <;> simp at h
  next hb =>
  split at h
  · simp at h
  next b hax =>
  have hbug : ∀ o ∈ t.edgeBug, o = .bug := by
    unfold Finger.edgeBug
    split <;> intro o ho <;> simp at ho
    exact ho
  unfold Pad.edgeScroll at h
  split at h
  · have := hbug _ h; cases this
  next hdl =>
  simp only [List.mem_append, List.mem_cons] at h
  rcases h with h | h | h
  · have := hbug _ h; cases this
  · cases h
    simp only [not_or] at hp
    have hr : (t.edgeR = true ∧ t.edgeB = false ∧ a = .vertical) ∨ (t.edgeR = false ∧ t.edgeB = true ∧ a = .horizontal) := by
      unfold Finger.edgeAxis at hax
      cases e1 : t.edgeR <;> cases e2 : t.edgeB <;> simp [e1, e2] at hax ⊢ <;> exact hax.symm
    refine ⟨rfl, by simpa using hd, by simpa using hp.1, by simpa using hp.2, hax, ?_, ?_, rfl, hdl⟩
    · intro e; subst e
      rcases hr with ⟨r1, r2, _⟩ | ⟨_, _, r3⟩
      · simpa [r1, r2] using hz
      · cases r3
    · intro e; subst e
      rcases hr with ⟨_, _, r3⟩ | ⟨r1, r2, _⟩
      · cases r3
      · simpa [r1, r2] using hz
  · have := edgeEvent_out _ _ _ _ _ h; cases this

theorem noAbout_edge {l : List Out} (h : ∀ o ∈ l, o.aboutEdge = none) {i : Nat} {a : Axis} {x : Int} : .edge i a x ∉ l := fun k => by
  have := h _ k; cases this

theorem edgeStop_noScroll (t : Finger) {i : Nat} {a : Axis} {x : Int} : .edge i a x ∉ t.edgeStop.2 := by
  unfold Finger.edgeStop
  split <;> simp

theorem stop_noScroll (s : Pad) {i : Nat} {a : Axis} {x : Int} : .edge i a x ∉ (s.each Finger.edgeStop).2 := by
  intro k
  obtain ⟨t, _, h⟩ := mem_each _ _ _ k
  exact edgeStop_noScroll t h

/-- A frame that scrolls along an edge. -/
theorem frame_scrolls (s : Pad) (vs : List View) (g : Frame) (hov : Nat → Bool) (now n i : Nat) (a : Axis) (x : Int) (hi : s.touches.map Finger.index = List.range n)
    (h : .edge i a x ∈ (s.frame vs g hov now).2) :
    ∃ u, (s.judge vs g now).1.touches[i]? = some u ∧ Scrolls (s.judge vs g now).1 u i a x ∧ (g.click = true → u.dir = none) ∧
      s.suspended = false ∧ g.ignore = false ∧ s.trk.active = false ∧ s.dwt.active = false := by
  have hjs := same_judge s vs g now
  have hjidx := (shape_judge s vs g now).index.trans hi
  obtain ⟨d, ed⟩ := frame_eq s vs g hov now
  rw [ed] at h
  simp only [List.mem_append] at h
  rcases h with (h | h) | h
  · have := judge_out s vs g now _ h; cases this
  · exact absurd h (noAbout_edge (gestState_noEdge _ now))
  obtain ⟨j, ej⟩ : ∃ y, y = (s.judge vs g now).1 := ⟨_, rfl⟩
  rw [← ej] at h hjs hjidx ⊢
  have hq := gestState_cfg j now
  have hqs := sends_gestState j now
  obtain ⟨q, eq⟩ : ∃ y, y = (j.gestState now).1 := ⟨_, rfl⟩
  rw [← eq] at h hq hqs
  unfold Pad.postEvents at h
  simp only [List.mem_append] at h
  rcases h with h | h
  · exfalso
    unfold Pad.clicked at h
    split at h
    · exact stop_noScroll _ h
    · simp at h
  have kc := same_clicked q g
  have hep : ∀ t, (q.clicked g).1.edgePost t now = q.edgePost t now := by
    intro t; unfold Pad.clicked; split <;> rfl
  have hmem : ∀ t ∈ (q.clicked g).1.touches, ∃ u ∈ q.touches, t = (if g.click then u.edgeStop.1 else u) := by
    intro t ht
    unfold Pad.clicked at ht
    split at ht
    · next hg =>
      obtain ⟨u, h1, h2⟩ := mem_eachFinger _ _ t ht
      exact ⟨u, h1, by rw [if_pos hg]; exact h2⟩
    · next hg => exact ⟨t, ht, by rw [if_neg hg]⟩
  obtain ⟨w, ew⟩ : ∃ y, y = (q.clicked g).1 := ⟨_, rfl⟩
  rw [← ew] at h kc hep hmem
  unfold Pad.postRest at h
  rw [kc.suspended, kc.trk, kc.dwt] at h
  by_cases hs : q.suspended = true
  · rw [if_pos hs] at h; simp at h
  rw [if_neg hs] at h
  by_cases hg : (g.ignore || q.trk.active || q.dwt.active) = true
  · rw [if_pos hg] at h
    simp only [List.mem_append] at h
    rcases h with h | h
    · exact absurd h (stop_noScroll _)
    · exact absurd h (noAbout_edge (gestEnd_noEdge _ _ _))
  rw [if_neg hg] at h
  simp only [List.mem_append] at h
  rcases h with h | h
  · obtain ⟨t, ht, ho⟩ := mem_each _ _ _ h
    rw [hep] at ho
    have hsc := edgePost_mem q t now i a x ho
    obtain ⟨u, hu, et⟩ := hmem t ht
    have hut : t = u ∧ (g.click = true → u.dir = none) := by
      split at et
      · next hc =>
        unfold Finger.edgeStop at et
        split at et
        · next hd => exact ⟨et, fun _ => hd⟩
        · exfalso
          have := hsc.axis
          rw [et] at this
          cases this
      · next hc => exact ⟨et, fun k => absurd k hc⟩
    obtain ⟨rfl, hd⟩ := hut
    have hju : j.touches[i]? = some t := get_of_index hjidx (hq.2.2.1 ▸ hu) hsc.index
    have hm : q.method = j.method := hqs.method
    simp only [Bool.not_eq_true, Bool.or_eq_false_iff] at hg hs
    refine ⟨t, hju, ⟨hsc.index, hsc.dirty, hsc.palm, ?_, hsc.axis, ?_, ?_, ?_, hsc.value⟩, hd, ?_, hg.1.1, ?_, ?_⟩
    · have := hsc.thumb
      unfold Pad.thumbIgnored at this ⊢
      rw [hqs.cfg, hq.2.2.2.1] at this
      exact this
    · intro e
      have := hsc.right e
      unfold Pad.onRight at this ⊢
      rw [hqs.cfg, hm] at this
      exact this
    · intro e
      have := hsc.bottom e
      unfold Pad.onBottom at this ⊢
      rw [hqs.cfg, hm] at this
      exact this
    · rw [← hqs.cfg]; exact hsc.delta
    · rw [← hjs.suspended, ← hqs.suspended]; exact hs
    · rw [← hjs.trk, ← hqs.trk]; exact hg.1.2
    · rw [← hjs.dwt, ← hqs.dwt]; exact hg.2
  · exact absurd h (noAbout_edge (gestPost_noEdge _ _ _ _))

theorem Judged.pos {s : Pad} {vs : List View} {g : Frame} {now i : Nat} {t : Finger} {v : View} {u : Finger} (h : Judged s vs g now i t v u)
    (ht : s.touches[i]? = some t) (hv : vs[i]? = some v) (hst : v.st ≠ .none) (hd : v.dirty = true) : u.pos = v.pos := by
  obtain ⟨p, x, b, c, h1, h2, rfl, rfl⟩ := h.made
  obtain ⟨p', h3, s2, t2, h4, h5, h6⟩ := process_self s vs g now i t v ht hv hst hd
  rw [h1] at h3
  cases h3
  have := congrArg Core.pos (edgeState_core ((s.process vs g now).buttons vs) { p with active := c } now)
  refine this.trans ?_
  show p.pos = v.pos
  rw [h6]
  exact (finish_palm _ _).2

theorem careful_append : ∀ (a b : List Op) (s : Pad) (ds : List Bool) (past : List Out),
    Careful s ds past (a ++ b) ↔ Careful s ds past a ∧ Careful (run s a).1 (downsRun s ds a) (past ++ (run s a).2) b
  | [], b, s, ds, past => by simp [Careful, run, downsRun]
  | op :: a, b, s, ds, past => by
    simp only [List.cons_append, Careful, run, downsRun]
    rw [careful_append a b]
    simp only [List.append_assoc, and_assoc]

/-! ### A touch that does not scroll -/

/-- A touch that is not on an edge, or that came to the edge at `p` at the time `T` and has not moved yet. -/
def Quiet (P : Option (Point × Nat)) (t : Finger) : Prop :=
  t.dir = none ∧ (t.off ∨ (t.edgeSt = .new ∧ ∃ p T, P = some (p, T) ∧ t.from_ = p ∧ ∀ e, t.edgeTimer = some e → T + 300000 ≤ e))

theorem quiet_of_ecore {P : Option (Point × Nat)} {t u : Finger} (e : u.ecore = t.ecore) (h : Quiet P t) : Quiet P u := by
  simp only [Finger.ecore, ECore.mk.injEq] at e
  obtain ⟨_, _, _, e4, _, _, e7, e8, e9⟩ := e
  unfold Quiet Finger.off at h ⊢
  rw [e4, e7, e8, e9]
  exact h

/-- The point is less than 3 mm away on each axis. -/
def Close (c : Config) (p q : Point) : Prop := (q.x - p.x).natAbs < 3 * c.rx ∧ (q.y - p.y).natAbs < 3 * c.ry

theorem quiet_edgeStop {P : Option (Point × Nat)} {t : Finger} (h : Quiet P t) : t.edgeStop.1 = t := by
  unfold Finger.edgeStop
  rw [h.1]

/-- A quiet touch sends nothing and stays quiet. -/
theorem quiet_edgePost (s : Pad) (P : Option (Point × Nat)) (t : Finger) (now : Nat) (h : Quiet P t) (hb : t.off → t.noEdge)
    (hc : t.dirty = true → ∀ p T, P = some (p, T) → Close s.cfg p t.pos) :
    (s.edgePost t now).1 = t ∧ ∀ i a x, .edge i a x ∉ (s.edgePost t now).2 := by
  unfold Pad.edgePost
  split
  · exact ⟨rfl, by simp⟩
  next hd =>
  split
  · exact ⟨rfl, by simp⟩
  split
  · exact ⟨rfl, by simp⟩
  split
  · rw [h.1]; exact ⟨rfl, by simp⟩
  next hbits =>
  split
  · exact ⟨rfl, by simp⟩
  next a ha =>
  rcases h.2 with k | ⟨k1, p, T, k2, k3, _⟩
  · have := hb k; simp [this.1, this.2] at hbits
  · have hcl := hc (by simpa using hd) p T k2
    have hz : s.cfg.edgeDelta t a = 0 := by
      unfold Config.edgeDelta
      rw [if_pos]
      refine ⟨k1, ?_⟩
      unfold Config.farEnough
      rw [k3]
      unfold Close at hcl
      apply decide_eq_false
      cases a
      · show ¬ 3 * s.cfg.ry ≤ (t.pos.y - p.y).natAbs; omega
      · show ¬ 3 * s.cfg.rx ≤ (t.pos.x - p.x).natAbs; omega
    unfold Pad.edgeScroll
    rw [if_pos hz]
    refine ⟨rfl, ?_⟩
    unfold Finger.edgeBug
    simp [k1]

theorem quiet_postOne (q : Pad) (P : Option (Point × Nat)) (g : Frame) (now : Nat) (u : Finger) (h : Quiet P u) (hb : u.off → u.noEdge)
    (hc : u.dirty = true → ∀ p T, P = some (p, T) → Close q.cfg p u.pos) : (q.postOne g now u).1 = u := by
  unfold Pad.postOne
  simp only
  have e1 : (if g.click = true then u.edgeStop else (u, [])).1 = u := by
    split
    · exact quiet_edgeStop h
    · rfl
  rw [e1]
  split
  · rfl
  · split
    · exact quiet_edgeStop h
    · exact (quiet_edgePost q P u now h hb hc).1

theorem quiet_edgeState (s : Pad) (P : Option (Point × Nat)) (t : Finger) (now : Nat) (h : Quiet P t) (hst : t.st = .update) : Quiet P (s.edgeState t now).1 := by
  unfold Pad.edgeState
  split
  · simp only [hst]; exact h
  split
  · exact h
  simp only [hst]
  have nar : t.edgeSt = .new → Quiet P (s.narrow t now) := by
    intro k
    refine ⟨(narrow_dir s t now).trans h.1, ?_⟩
    unfold Pad.narrow
    simp only
    split
    · exact .inl (.inr rfl)
    · rcases h.2 with x | x
      · rcases x with x | x <;> rw [x] at k <;> cases k
      · exact .inr x
  unfold Pad.edgeEvent
  rcases h.2 with (k | k) | k
  · simp only [k]; exact h
  · simp only [k]; exact h
  · simp only [k.1]; exact nar k.1

/-- What is asked of an operation for a touch to stay quiet. -/
def CalmOp (c : Config) (i : Nat) (P : Option (Point × Nat)) : Op → Prop
  | .frame _ vs _ _ => ∀ (v : View), vs[i]? = some v → v.st ≠ .end_ ∧ (v.dirty = true → ∀ p T, P = some (p, T) → Close c p v.pos)
  | .edgeTimeout now j => j = i → ∀ p T, P = some (p, T) → now < T + 300000
  | .clear _ _ _ | .arbitrate _ _ _ => False
  | _ => True

/-- A frame leaves a quiet touch quiet. -/
theorem quiet_frame (s : Pad) (ds : List Bool) (past : List Out) (vs : List View) (g : Frame) (hov : Nat → Bool) (now : Nat) (P : Option (Point × Nat)) (h : Inv s ds past)
    (hok : FrameOk s ds past vs) (i : Nat) (t u : Finger) (v : View) (ht : s.touches[i]? = some t) (hv : vs[i]? = some v) (hj : Judged s vs g now i t v u) (hq : Quiet P u)
    (hst : v.st = .begin ∨ v.st = .update) (hc : v.dirty = true → ∀ p T, P = some (p, T) → Close s.cfg p v.pos) :
    (∃ w, (s.frame vs g hov now).1.touches[i]? = some w ∧ Quiet P w ∧ w.down = true) ∧ ∀ a x, .edge i a x ∉ (s.frame vs g hov now).2 := by
  obtain ⟨hlen, hfit⟩ := fitsAll_get _ _ hok.fits
  have hf := hfit i t.down (v.st, v.dirty) (h.down i t ht) (by simp [hv])
  obtain ⟨hem, _⟩ := hj.em (h.edge i t ht) hf
  have hjs := same_judge s vs g now
  have hjidx := (shape_judge s vs g now).index.trans h.index
  have hstn : v.st ≠ .none := by rcases hst with e | e <;> rw [e] <;> decide
  have hcu : u.dirty = true → ∀ p T, P = some (p, T) → Close s.cfg p u.pos := by
    intro hd
    rw [hj.dirty] at hd
    rw [hj.pos ht hv hstn hd]
    exact hc hd
  refine ⟨?_, ?_⟩
  · obtain ⟨v', w, w1, w2, _, _, w5, _⟩ := frame_touch s ds past vs g hov now h hok i t ht
    rw [hv] at w1; cases w1
    refine ⟨w, w2, ?_, by rw [w5]; rcases hst with e | e <;> rw [e] <;> rfl⟩
    have hqg := gestState_cfg (s.judge vs g now).1 now
    have hqs := sends_gestState (s.judge vs g now).1 now
    obtain ⟨d, ed⟩ := frame_eq s vs g hov now
    rw [ed] at w2
    obtain ⟨q, eq⟩ : ∃ x, x = ((s.judge vs g now).1.gestState now).1 := ⟨_, rfl⟩
    rw [← eq] at hqg hqs w2
    have hqu : q.touches[i]? = some u := by rw [hqg.2.2.1]; exact hj.get
    have hqi : q.touches.map Finger.index = List.range ds.length := by rw [hqg.2.2.1]; exact hjidx
    obtain ⟨⟨y, y1, y2⟩, _⟩ := postEvents_touch q g d now ds.length i u hqi hqu
    rw [quiet_postOne q P g now u hq hem.bits (by rw [hqs.cfg, hjs.cfg]; exact hcu)] at y2
    have hy : Quiet P y := quiet_of_ecore (plain_ecore y2) hq
    have : (((q.postEvents g d now).1.settle hov).touches)[i]? = some (y.settle (hov y.index)) := by
      unfold Pad.settle
      simp only
      split <;> simp [y1, Pad.thumbReset]
    rw [this] at w2
    cases w2
    unfold Finger.settle
    split
    · exact hy
    · exact hy
  · intro a x hm
    obtain ⟨u', k1, k2, _⟩ := frame_scrolls s vs g hov now ds.length i a x h.index hm
    rw [hj.get] at k1; cases k1
    have := (quiet_edgePost (s.judge vs g now).1 P u now hq hem.bits (by rw [hjs.cfg]; exact hcu)).2 i a x
    apply this
    unfold Pad.edgePost
    rw [if_neg (by simp [k2.dirty]), if_neg (by simp [k2.palm, k2.thumb])]
    have hax := k2.axis
    have hr : (u.edgeR = true ∧ u.edgeB = false ∧ a = .vertical) ∨ (u.edgeR = false ∧ u.edgeB = true ∧ a = .horizontal) := by
      unfold Finger.edgeAxis at hax
      cases e1 : u.edgeR <;> cases e2 : u.edgeB <;> simp [e1, e2] at hax ⊢ <;> exact hax.symm
    rw [if_neg, if_neg]
    · simp only [hax]
      unfold Pad.edgeScroll
      rw [k2.delta, if_neg k2.value]
      simp [k2.index]
    · rcases hr with ⟨r1, r2, _⟩ | ⟨r1, r2, _⟩ <;> simp [r1, r2]
    · rcases hr with ⟨r1, r2, r3⟩ | ⟨r1, r2, r3⟩
      · simp [r1, r2, k2.right r3]
      · simp [r1, r2, k2.bottom r3]

theorem Judged.quiet {s : Pad} {vs : List View} {g : Frame} {now i : Nat} {t : Finger} {v : View} {u : Finger} {P : Option (Point × Nat)} (h : Judged s vs g now i t v u)
    (hq : Quiet P t) (hst : v.st = .update) : Quiet P u := by
  obtain ⟨p, x, b, c, h1, h2, rfl, rfl⟩ := h.made
  have e : ({ p with active := c } : Finger).ecore = ({ t with st := v.st, dirty := v.dirty } : Finger).ecore := h2
  have hp : Quiet P { p with active := c } := quiet_of_ecore e hq
  have := quiet_edgeState ((s.process vs g now).buttons vs) P { p with active := c } now hp ((congrArg ECore.st h2).trans hst)
  exact quiet_of_ecore (t := (((s.process vs g now).buttons vs).edgeState { p with active := c } now).1) rfl this

/-- The touch that just began. -/
theorem landed_state (z : Pad) (y : Finger) (now : Nat) (ho : y.off) (e2 : y.dir = none) (e3 : y.st = .begin) (e4 : y.dirty = true) :
    Quiet (some (y.pos, now)) (z.edgeState y now).1 ∧
      ((z.method = .edge → y.pos.x ≤ z.cfg.rightEdge ∧ y.pos.y ≤ z.cfg.bottomEdge) → Quiet none (z.edgeState y now).1) := by
  have off : ∀ (P : Option (Point × Nat)) (y : Finger), y.dir = none → y.off → Quiet P y := fun P y h1 h2 => ⟨h1, .inl h2⟩
  unfold Pad.edgeState
  split
  · simp only [e3]
    exact ⟨off _ _ e2 (.inr rfl), fun _ => off _ _ e2 (.inr rfl)⟩
  next hm =>
  rw [if_neg (by simp [e4])]
  simp only [e3]
  have hm : z.method = .edge := by simpa using hm
  unfold Pad.edgeEvent
  rcases ho with k | k
  · simp only [k]
    split
    · next hon =>
      refine ⟨⟨e2, .inr ⟨rfl, y.pos, now, rfl, rfl, ?_⟩⟩, fun hno => ?_⟩
      · intro e he
        simp only [Pad.setEdge] at he
        split at he
        · cases he
        · cases he; exact Nat.le_refl _
      · exfalso
        obtain ⟨n1, n2⟩ := hno hm
        unfold Pad.onRight Pad.onBottom at hon
        simp only [Bool.or_eq_true, Bool.and_eq_true, decide_eq_true_eq] at hon
        omega
    · exact ⟨off _ _ e2 (.inr rfl), fun _ => off _ _ e2 (.inr rfl)⟩
  · simp only [k]
    exact ⟨off _ _ e2 (.inr k), fun _ => off _ _ e2 (.inr k)⟩

theorem Judged.landed {s : Pad} {vs : List View} {g : Frame} {now i : Nat} {t : Finger} {v : View} {u : Finger} (h : Judged s vs g now i t v u)
    (ht : s.touches[i]? = some t) (hv : vs[i]? = some v) (ho : t.off) (hd : t.dir = none) (hst : v.st = .begin) (hdirty : v.dirty = true) :
    Quiet (some (v.pos, now)) u ∧ ((s.method = .edge → v.pos.x ≤ s.cfg.rightEdge ∧ v.pos.y ≤ s.cfg.bottomEdge) → Quiet none u) := by
  obtain ⟨p, x, b, c, h1, h2, rfl, rfl⟩ := h.made
  obtain ⟨p', h3, s2, t2, h4, h5, h6⟩ := process_self s vs g now i t v ht hv (by rw [hst]; decide) hdirty
  rw [h1] at h3
  cases h3
  have ppos : p.pos = v.pos := by rw [h6]; exact (finish_palm _ _).2
  have hs := (same_process s vs g now).trans (same_buttons _ vs)
  generalize (s.process vs g now).buttons vs = z at hs
  have e1 : p.off := by have e1 : p.edgeSt = t.edgeSt := congrArg ECore.edgeSt h2; unfold Finger.off at ho ⊢; rw [e1]; exact ho
  have key := landed_state z { p with active := c } now e1 ((congrArg ECore.dir h2).trans hd) ((congrArg ECore.st h2).trans hst) ((congrArg ECore.dirty h2).trans hdirty)
  rw [← ppos, ← hs.method, ← hs.cfg]
  exact ⟨quiet_of_ecore (t := (z.edgeState { p with active := c } now).1) rfl key.1, fun k => quiet_of_ecore (t := (z.edgeState { p with active := c } now).1) rfl (key.2 k)⟩

/-! ### Histories -/

/-- The touch `i` is down and quiet. -/
def QuietAt (P : Option (Point × Nat)) (i : Nat) (s : Pad) : Prop := ∃ t, s.touches[i]? = some t ∧ Quiet P t ∧ t.down = true

theorem quietAt_touches {P : Option (Point × Nat)} {i : Nat} {s s' : Pad} (h : QuietAt P i s) (e : s'.touches = s.touches) : QuietAt P i s' := by
  unfold QuietAt; rw [e]; exact h

theorem quietAt_stop {P : Option (Point × Nat)} {i : Nat} {s : Pad} (h : QuietAt P i s) : QuietAt P i (s.each Finger.edgeStop).1 := by
  obtain ⟨t, h1, h2, h3⟩ := h
  exact ⟨t, by rw [each_get s _ i t h1, quiet_edgeStop h2], h2, h3⟩

theorem quietAt_stopActions {P : Option (Point × Nat)} {i : Nat} {s : Pad} (now : Nat) (h : QuietAt P i s) :
    QuietAt P i (s.stopActions now).1 ∧ ∀ j a x, .edge j a x ∉ (s.stopActions now).2 := by
  unfold Pad.stopActions
  simp only
  have k := gestEnd_cfg (s.each Finger.edgeStop).1 now true
  refine ⟨quietAt_touches (quietAt_stop h) k.2.2.1, fun j a x hm => ?_⟩
  rw [List.mem_append] at hm
  rcases hm with hm | hm
  · exact stop_noScroll _ hm
  · exact noAbout_edge (gestEnd_noEdge _ _ _) hm

/-- An operation that is careful and calm. -/
theorem quiet_step (s : Pad) (ds : List Bool) (past : List Out) (op : Op) (P : Option (Point × Nat)) (i : Nat) (h : Inv s ds past) (hc : CarefulOp s ds past op)
    (hcalm : CalmOp s.cfg i P op) (hq : QuietAt P i s) : QuietAt P i (step s op).1 ∧ ∀ a x, .edge i a x ∉ (step s op).2 := by
  have nil : ∀ {a x}, Out.edge i a x ∉ ([] : List Out) := by simp
  cases op with
  | frame now vs g hov =>
    obtain ⟨t, h1, h2, h3⟩ := hq
    have hok : FrameOk s ds past vs := ⟨hc.1, hc.2⟩
    obtain ⟨hlen, hfit⟩ := fitsAll_get _ _ hok.fits
    have hn : s.touches.length = ds.length := by have := congrArg List.length h.index; simpa using this
    have hlt := (List.getElem?_eq_some_iff.1 h1).1
    simp only [List.length_map] at hlen
    have hv : vs[i]? = some vs[i] := List.getElem?_eq_getElem (by omega)
    generalize vs[i] = v at hv
    have hf := hfit i t.down (v.st, v.dirty) (h.down i t h1) (by simp [hv])
    obtain ⟨c1, c2⟩ := hcalm v hv
    have hst : v.st = .update := by
      rw [h3] at hf
      simp only [Touch.Spec.fits] at hf
      cases e : v.st <;> simp [e] at hf c1 ⊢
    obtain ⟨u, hj⟩ := judge_touch s vs g now i t v h1 hv
    exact quiet_frame s ds past vs g hov now P h hok i t u v h1 hv hj (hj.quiet h2 hst) (.inr hst) c2
  | clear now vs g => exact hcalm.elim
  | arbitrate now vs g => exact hcalm.elim
  | suspended b => exact ⟨quietAt_touches hq rfl, fun _ _ => nil⟩
  | key now k code press =>
    simp only [step]
    split
    · unfold Pad.keyEvent
      repeat' split
      all_goals first
        | exact ⟨quietAt_touches hq rfl, fun _ _ => nil⟩
        | skip
      obtain ⟨k1, k2⟩ := quietAt_stopActions now hq
      exact ⟨quietAt_touches k1 rfl, k2 i⟩
    · exact ⟨quietAt_touches hq rfl, fun _ _ => nil⟩
  | pair k => exact ⟨quietAt_touches hq rfl, fun _ _ => nil⟩
  | unpair k =>
    simp only [step, Pad.unpair]
    split <;> exact ⟨quietAt_touches hq rfl, fun _ _ => nil⟩
  | keyTimeout now =>
    simp only [step]
    split
    · unfold Pad.keyTimeout; split <;> exact ⟨quietAt_touches hq rfl, fun _ _ => nil⟩
    · exact ⟨hq, fun _ _ => nil⟩
  | trackpoint now =>
    simp only [step]
    split
    · unfold Pad.trkEvent
      simp only
      split
      · exact ⟨quietAt_touches hq rfl, fun _ _ => nil⟩
      · split
        · exact ⟨quietAt_touches hq rfl, fun _ _ => nil⟩
        · have k0 : QuietAt P i { s with trk := { s.trk with last := now, count := s.trk.count + 1 } } := quietAt_touches hq rfl
          obtain ⟨k1, k2⟩ := quietAt_stopActions now k0
          exact ⟨quietAt_touches k1 rfl, k2 i⟩
    · exact ⟨hq, fun _ _ => nil⟩
  | trkTimeout now =>
    simp only [step]
    split
    · unfold Pad.trkTimeout; split <;> exact ⟨quietAt_touches hq rfl, fun _ _ => nil⟩
    · exact ⟨hq, fun _ _ => nil⟩
  | gestTimeout now =>
    simp only [step]
    split
    · unfold Pad.gestTimeout
      simp only
      split
      · exact ⟨quietAt_touches hq rfl, fun _ _ => nil⟩
      · have k := gestEnd_cfg { s with gest := { s.gest with timer := none } } now true
        exact ⟨quietAt_touches hq k.2.2.1, fun _ _ => noAbout_edge (gestEnd_noEdge _ now true)⟩
    · exact ⟨hq, fun _ _ => nil⟩
  | edgeTimeout now j =>
    simp only [step]
    split
    · next hdue =>
      unfold Pad.edgeTimeout
      split
      · exact ⟨hq, fun _ _ => nil⟩
      · next t ht =>
        refine ⟨?_, fun a x hm => ?_⟩
        · obtain ⟨u, h1, h2, h3⟩ := hq
          by_cases e : j = i
          · subst e
            rw [h1] at ht; cases ht
            have hlt := (List.getElem?_eq_some_iff.1 h1).1
            refine ⟨(s.edgeEvent { t with edgeTimer := none } .timeout now).1, by simp [Pad.put, hlt], ?_, ?_⟩
            · rcases h2.2 with k | ⟨k1, p, T, k2, k3, k4⟩
              · unfold Pad.edgeEvent
                rcases k with k | k <;> simp only [k] <;> exact ⟨h2.1, .inl (by unfold Finger.off; simp [k])⟩
              · exfalso
                have hnow := hcalm rfl p T k2
                have htu : s.touch j = t := by unfold Pad.touch; simp [List.getD, h1]
                rw [htu] at hdue
                cases e : t.edgeTimer with
                | none => rw [e] at hdue; cases hdue
                | some d =>
                  have := k4 d e
                  rw [e] at hdue
                  simp only [due, decide_eq_true_eq] at hdue
                  omega
            · have := congrArg Core.st (edgeEvent_core s { t with edgeTimer := none } .timeout now)
              simp only [Finger.core] at this
              unfold Finger.down at h3 ⊢
              rw [this]; exact h3
          · exact ⟨u, by simp [Pad.put, e, h1], h2, h3⟩
        · have := edgeEvent_out _ _ _ _ _ hm; cases this
    · exact ⟨hq, fun _ _ => nil⟩
  | arbitrateEnd now => simp only [step]; split <;> exact ⟨quietAt_touches hq rfl, fun _ _ => nil⟩
  | arbTimeout now => simp only [step]; split <;> exact ⟨quietAt_touches hq rfl, fun _ _ => nil⟩
  | setMethod now m =>
    simp only [step]
    unfold Pad.setMethod
    split
    · exact ⟨hq, fun _ _ => nil⟩
    · simp only
      have k : ((s.each Finger.edgeStop).1.stopTwoFinger now).1.touches = (s.each Finger.edgeStop).1.touches := by
        unfold Pad.stopTwoFinger; split <;> rfl
      refine ⟨quietAt_touches (quietAt_stop hq) k, fun a x hm => ?_⟩
      rw [List.mem_append] at hm
      rcases hm with hm | hm
      · exact stop_noScroll _ hm
      · unfold Pad.stopTwoFinger at hm
        split at hm
        · simp at hm
        · simp at hm
  | setDwt b => exact ⟨quietAt_touches hq rfl, fun _ _ => nil⟩
  | setAreas b => exact ⟨quietAt_touches hq rfl, fun _ _ => nil⟩

theorem quiet_run (P : Option (Point × Nat)) (i : Nat) : ∀ (ops : List Op) (s : Pad) (ds : List Bool) (past : List Out), Inv s ds past → Careful s ds past ops →
    (∀ op ∈ ops, CalmOp s.cfg i P op) → QuietAt P i s → ∀ a x, .edge i a x ∉ (run s ops).2
  | [], s, ds, past, _, _, _, _, a, x => by simp [run]
  | op :: ops, s, ds, past, h, hc, hcalm, hq, a, x => by
    obtain ⟨q1, q2⟩ := quiet_step s ds past op P i h hc.1 (hcalm op (by simp)) hq
    have k := keeps_step s ds past op h hc.1
    simp only [run, List.mem_append, not_or]
    refine ⟨q2 a x, quiet_run P i ops _ _ _ k.1 hc.2 (fun o ho => ?_) q1 a x⟩
    rw [(shape_step s op).cfg]
    exact hcalm o (by simp [ho])

/-- The frame in which a touch lands. -/
theorem landed_frame (s : Pad) (ds : List Bool) (past : List Out) (vs : List View) (g : Frame) (hov : Nat → Bool) (now : Nat) (h : Inv s ds past)
    (hok : FrameOk s ds past vs) (i : Nat) (v : View) (hv : vs[i]? = some v) (hst : v.st = .begin) (hr : 0 < s.cfg.rx ∧ 0 < s.cfg.ry) :
    (QuietAt (some (v.pos, now)) i (s.frame vs g hov now).1 ∧ ∀ a x, .edge i a x ∉ (s.frame vs g hov now).2) ∧
      ((s.method = .edge → v.pos.x ≤ s.cfg.rightEdge ∧ v.pos.y ≤ s.cfg.bottomEdge) → QuietAt none i (s.frame vs g hov now).1) := by
  obtain ⟨hlen, hfit⟩ := fitsAll_get _ _ hok.fits
  have hn : s.touches.length = ds.length := by have := congrArg List.length h.index; simpa using this
  have hlt := (List.getElem?_eq_some_iff.1 hv).1
  simp only [List.length_map] at hlen
  obtain ⟨t, ht⟩ : ∃ t, s.touches[i]? = some t := ⟨_, List.getElem?_eq_getElem (by omega)⟩
  have hf := hfit i t.down (v.st, v.dirty) (h.down i t ht) (by simp [hv])
  simp only [Touch.Spec.fits, hst, Bool.and_eq_true, Bool.not_eq_true'] at hf
  have hup := (h.edge i t ht).up hf.1
  have hdir := (h.edge i t ht).dir_off hup
  obtain ⟨u, hj⟩ := judge_touch s vs g now i t v ht hv
  obtain ⟨k1, k2⟩ := hj.landed ht hv hup hdir hst hf.2
  refine ⟨?_, fun hno => ?_⟩
  · refine quiet_frame s ds past vs g hov now _ h hok i t u v ht hv hj k1 (.inl hst) ?_
    intro _ p T e
    cases e
    unfold Close
    omega
  · exact (quiet_frame s ds past vs g hov now none h hok i t u v ht hv hj (k2 hno) (.inl hst) (fun _ p T e => by cases e)).1

end Libinput.Motion
