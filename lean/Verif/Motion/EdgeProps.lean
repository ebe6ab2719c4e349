import Verif.Motion.EdgeFacts
import Verif.Motion.EdgeDemo
/-
Edge scrolling of a touchpad (C41).
-/
namespace Libinput.Motion
open Touch (St)

/-- The events of each touch come in order: scroll events that are not zero and stay on one axis, then a stop on that axis. -/
theorem edge_scrolling_ordered (c : Config) (n : Nat) (m : Method) (dwt areas : Bool) (ops : List Op)
    (hc : Careful (init c n m dwt areas) (List.replicate n false) [] ops) (i : Nat) (hi : i < n) :
    followEdge i none (run (init c n m dwt areas) ops).2 = true := by
  have k := (keeps_run ops _ _ _ (inv_init c n m dwt areas) hc).2 i (by simpa using hi)
  exact k

example : Careful (demo .edge) nobody [] (slide 1000 940 200 0 20 ++ [demoFrame 6000 [at_ .end_ 940 280]]) ∧
    (run (demo .edge) (slide 1000 940 200 0 20 ++ [demoFrame 6000 [at_ .end_ 940 280]])).2 =
      [.edge 0 .vertical 20, .edge 0 .vertical 20, .edge 0 .vertical 20, .edgeStop 0 .vertical] :=
  ⟨careful_sound _ _ _ _ (by decide) (by decide +kernel), by decide +kernel⟩

/-- The order is a real restriction. -/
example : followEdge 0 none [.edge 0 .vertical 0] = false ∧ followEdge 0 none [.edge 0 .vertical 1, .edge 0 .horizontal 1] = false ∧
    followEdge 0 none [.edgeStop 0 .vertical] = false ∧ followEdge 0 none [.edge 0 .vertical 1, .edgeStop 0 .horizontal] = false ∧
    followEdge 0 none [.edge 0 .vertical 1, .edgeStop 0 .vertical, .edgeStop 0 .vertical] = false ∧
    followEdge 0 none [.edge 0 .vertical 1, .edge 1 .horizontal 1, .edgeStop 0 .vertical, .edge 0 .horizontal 1] = true := by decide

/-- A touch that is not down does not scroll: its scrolling was stopped. -/
theorem edge_scrolling_terminated (c : Config) (n : Nat) (m : Method) (dwt areas : Bool) (ops : List Op)
    (hc : Careful (init c n m dwt areas) (List.replicate n false) [] ops) (i : Nat)
    (hu : (downsRun (init c n m dwt areas) (List.replicate n false) ops)[i]? = some false) :
    scrolling i (run (init c n m dwt areas) ops).2 = none := by
  have k := (keeps_run ops _ _ _ (inv_init c n m dwt areas) hc).1
  rw [List.nil_append] at k
  have hn : (run (init c n m dwt areas) ops).1.touches.length = (downsRun (init c n m dwt areas) (List.replicate n false) ops).length := by
    have := congrArg List.length k.index; simpa using this
  have hlt := (List.getElem?_eq_some_iff.1 hu).1
  obtain ⟨t, ht⟩ : ∃ t, (run (init c n m dwt areas) ops).1.touches[i]? = some t := ⟨_, List.getElem?_eq_getElem (by omega)⟩
  have hd := k.down i t ht
  rw [hu] at hd
  rw [← k.dir i t ht]
  exact (k.edge i t ht).dir_off ((k.edge i t ht).up (by simpa using hd.symm))

example : scrolling 0 (run (demo .edge) (slide 1000 940 200 0 20)).2 = some .vertical ∧
    (downsRun (demo .edge) nobody (slide 1000 940 200 0 20))[0]? = some true ∧
    (downsRun (demo .edge) nobody (slide 1000 940 200 0 20 ++ [demoFrame 6000 [at_ .end_ 940 280]]))[0]? = some false := by decide +kernel

/-- A key press stops edge scrolling. -/
theorem edge_scrolling_stops_typing (c : Config) (n : Nat) (m : Method) (dwt areas : Bool) (ops : List Op)
    (hc : Careful (init c n m dwt areas) (List.replicate n false) [] ops) (now k code : Nat)
    (hp : k ∈ (run (init c n m dwt areas) ops).1.dwt.paired) (hen : (run (init c n m dwt areas) ops).1.dwt.enabled = true)
    (hcode : isIgnoredKey code = false ∧ isModifier code = false) (hmods : (run (init c n m dwt areas) ops).1.dwt.mods = [])
    (hact : (run (init c n m dwt areas) ops).1.dwt.active = false) (i : Nat) (hi : i < n) :
    scrolling i (run (init c n m dwt areas) (ops ++ [.key now k code true])).2 = none := by
  have kr := keeps_run ops _ _ _ (inv_init c n m dwt areas) hc
  have k1 := kr.1
  rw [List.nil_append] at k1
  rw [run_append]
  obtain ⟨s, es⟩ : ∃ x, x = (run (init c n m dwt areas) ops).1 := ⟨_, rfl⟩
  rw [← es] at k1 hp hen hmods hact ⊢
  have e1 : (run s [.key now k code true]).2 = (s.stopActions now).2 := by
    simp only [run, step, List.append_nil]
    rw [if_pos hp]
    unfold Pad.keyEvent
    simp [hen, hcode.1, hcode.2, hmods, hact]
  rw [e1]
  have hst := keeps_stopActions s now _ _ k1
  have hlen : s.touches.length = n := by
    rw [es, (shape_run ops (init c n m dwt areas)).length]; simp [init]
  have e2 : (s.stopActions now).1.touches = (s.each Finger.edgeStop).1.touches := (gestEnd_cfg (s.each Finger.edgeStop).1 now true).2.2.1
  obtain ⟨t, ht⟩ : ∃ t, (s.stopActions now).1.touches[i]? = some t := ⟨_, List.getElem?_eq_getElem (by rw [(shape_stopActions s now).length]; omega)⟩
  rw [← hst.1.dir i t ht]
  rw [e2] at ht
  exact (keeps_stop s _ _ k1).2 t (List.mem_of_getElem? ht)

example : (run (demo .edge) (.pair 1 :: slide 1000 940 200 0 20 ++ [.key 6000 1 30 true])).2.getLast? = some (.edgeStop 0 .vertical) := by decide +kernel

/-- Where: a scroll event comes from a touch that is down and moved, on the right edge for the vertical axis and on the bottom
edge for the horizontal one; it is no palm and no resting thumb, edge scrolling is on, and neither typing nor the trackpoint
disables the touchpad. -/
theorem edge_scroll_where (c : Config) (n : Nat) (m : Method) (dwt areas : Bool) (ops : List Op) (now : Nat) (vs : List View) (g : Frame) (hov : Nat → Bool)
    (hc : Careful (init c n m dwt areas) (List.replicate n false) [] (ops ++ [.frame now vs g hov])) (s : Pad) (es : s = (run (init c n m dwt areas) ops).1)
    (i : Nat) (a : Axis) (x : Int) (h : .edge i a x ∈ (step s (.frame now vs g hov)).2) :
    (s.method = .edge ∧ s.suspended = false ∧ s.dwt.active = false ∧ s.trk.active = false ∧ g.ignore = false) ∧
      (∃ v, vs[i]? = some v ∧ (v.st = .begin ∨ v.st = .update) ∧ v.dirty = true ∧
        (a = .vertical → c.rightEdge < v.pos.x) ∧ (a = .horizontal → c.bottomEdge < v.pos.y)) ∧
      ∃ u, (s.judge vs g now).1.touches[i]? = some u ∧ u.palm = .none ∧ (s.judge vs g now).1.thumbIgnored u = false ∧ x = u.delta.along a ∧ x ≠ 0 := by
  rw [careful_append] at hc
  have k := (keeps_run ops _ _ _ (inv_init c n m dwt areas) hc.1).1
  have hcf := hc.2.1
  rw [← es] at k hcf
  have hcfg : s.cfg = c := by rw [es, (shape_run ops (init c n m dwt areas)).cfg]; rfl
  obtain ⟨u, h1, h2, h3, h4, h5, h6, h7⟩ := frame_scrolls s vs g hov now _ i a x k.index h
  have hjs := same_judge s vs g now
  have hlt : i < s.touches.length := by
    have := (List.getElem?_eq_some_iff.1 h1).1
    rw [(shape_judge s vs g now).length] at this; exact this
  obtain ⟨t, ht⟩ : ∃ t, s.touches[i]? = some t := ⟨_, List.getElem?_eq_getElem hlt⟩
  obtain ⟨hlen, hfit⟩ := fitsAll_get _ _ hcf.1
  have hn : s.touches.length = (downsRun (init c n m dwt areas) (List.replicate n false) ops).length := by have := congrArg List.length k.index; simpa using this
  simp only [List.length_map] at hlen
  have hv : vs[i]? = some vs[i] := List.getElem?_eq_getElem (by omega)
  generalize vs[i] = v at hv
  have hf := hfit i t.down (v.st, v.dirty) (k.down i t ht) (by simp [hv])
  obtain ⟨u', hj⟩ := judge_touch s vs g now i t v ht hv
  have := hj.get
  rw [h1] at this
  cases this
  obtain ⟨hem, _⟩ := hj.em (k.edge i t ht) hf
  have hnoff : ¬ u.off := by
    intro ho
    have := hem.bits ho
    have hax := h2.axis
    unfold Finger.edgeAxis at hax
    rw [this.1, this.2] at hax
    cases hax
  have hst : v.st = .begin ∨ v.st = .update := by
    have : u.down ≠ false := fun x => hnoff (hem.up x)
    unfold Finger.down at this
    rw [hj.st] at this
    by_cases e : v.st = .begin
    · exact .inl e
    · exact .inr (by simpa [e] using this)
  have hd : v.dirty = true := hj.dirty ▸ h2.dirty
  have hpos := hj.pos ht hv (by rcases hst with e | e <;> rw [e] <;> decide) hd
  have hmeth : s.method = .edge := by
    cases e : s.method with
    | edge => rfl
    | _ => exact absurd (hem.method (by rw [e]; decide)) hnoff
  refine ⟨⟨hmeth, h4, h7, h6, h5⟩, ⟨v, hv, hst, hd, ?_, ?_⟩, u, h1, h2.palm, h2.thumb, ?_, h2.value⟩
  · intro e
    have := h2.right e
    unfold Pad.onRight at this
    rw [hjs.cfg, hcfg, hpos] at this
    simp at this
    exact this.2
  · intro e
    have := h2.bottom e
    unfold Pad.onBottom at this
    rw [hjs.cfg, hcfg, hpos] at this
    simp at this
    exact this.2
  · have := h2.delta
    have hv := h2.value
    unfold Config.edgeDelta at this
    split at this
    · exact absurd this.symm hv
    · exact this.symm

example : .edge 0 .vertical 20 ∈ (step (run (demo .edge) ((slide 1000 940 200 0 20).take 4)).1 (demoFrame 5000 [at_ .update 940 280])).2 ∧
    .edge 0 .horizontal 20 ∈ (step (run (demo .edge) ((slide 1000 500 540 20 0).take 4)).1 (demoFrame 5000 [at_ .update 580 540])).2 := by decide +kernel

/-- A touch does not scroll and move the pointer in the same frame. -/
theorem edge_scroll_no_motion (c : Config) (n : Nat) (m : Method) (dwt areas : Bool) (ops : List Op) (now : Nat) (vs : List View) (g : Frame) (hov : Nat → Bool)
    (hc : Careful (init c n m dwt areas) (List.replicate n false) [] (ops ++ [.frame now vs g hov])) (i : Nat) (a : Axis) (x : Int) (w : List Nat)
    (h : .edge i a x ∈ (step (run (init c n m dwt areas) ops).1 (.frame now vs g hov)).2)
    (hm : .motion w ∈ (step (run (init c n m dwt areas) ops).1 (.frame now vs g hov)).2) : i ∉ w := by
  rw [careful_append] at hc
  have k := (keeps_run ops _ _ _ (inv_init c n m dwt areas) hc.1).1
  have hcf := hc.2.1
  generalize (run (init c n m dwt areas) ops).1 = s at k hcf h hm
  intro hw
  obtain ⟨u, h1, h2, h3, _⟩ := frame_scrolls s vs g hov now _ i a x k.index h
  obtain ⟨t, t1, t2, t3, t4⟩ := frame_movers s vs g hov now w hm i hw
  have := get_of_index ((shape_judge s vs g now).index.trans k.index) t1 t2
  rw [h1] at this
  cases this
  rcases t4 with t4 | ⟨k1, k2, _⟩
  · have hlt : i < s.touches.length := by
      have := (List.getElem?_eq_some_iff.1 h1).1
      rw [(shape_judge s vs g now).length] at this; exact this
    obtain ⟨t, ht⟩ : ∃ t, s.touches[i]? = some t := ⟨_, List.getElem?_eq_getElem hlt⟩
    obtain ⟨hlen, hfit⟩ := fitsAll_get _ _ hcf.1
    have hn : s.touches.length = (downsRun (init c n m dwt areas) (List.replicate n false) ops).length := by have := congrArg List.length k.index; simpa using this
    simp only [List.length_map] at hlen
    have hv : vs[i]? = some vs[i] := List.getElem?_eq_getElem (by omega)
    generalize vs[i] = v at hv
    have hf := hfit i t.down (v.st, v.dirty) (k.down i t ht) (by simp [hv])
    obtain ⟨u', hj⟩ := judge_touch s vs g now i t v ht hv
    have := hj.get
    rw [h1] at this
    cases this
    obtain ⟨hem, _⟩ := hj.em (k.edge i t ht) hf
    have hn := hem.bits (.inr t4.2.2.2.2.1)
    have hax := h2.axis
    unfold Finger.edgeAxis at hax
    rw [hn.1, hn.2] at hax
    cases hax
  · exact k2 (h3 k1)

/-- One finger scrolls on the edge while another moves the pointer. -/
def scrollAndMove : List Op :=
  [demoFrame 1000 [at_ .begin 940 200], demoFrame 2000 [at_ .update 940 220, at_ .begin 300 200], demoFrame 3000 [at_ .update 940 240, at_ .update 300 220],
    demoFrame 4000 [at_ .update 940 260, at_ .update 300 240], demoFrame 5000 [at_ .update 940 280, at_ .update 300 260]]

example : Careful (demo .edge) nobody [] (scrollAndMove ++ [demoFrame 6000 [at_ .update 940 300, at_ .update 300 280]]) ∧
    (step (run (demo .edge) scrollAndMove).1 (demoFrame 6000 [at_ .update 940 300, at_ .update 300 280])).2 = [.edge 0 .vertical 20, .motion [1]] :=
  ⟨careful_sound _ _ _ _ (by decide) (by decide +kernel), by decide +kernel⟩

/-- What is asked of the operations after a touch landed: it is not lifted, by the user or by the touchpad. -/
def staysDown (i : Nat) : Op → Prop
  | .frame _ vs _ _ => ∀ (v : View), vs[i]? = some v → v.st ≠ .end_
  | .clear _ _ _ | .arbitrate _ _ _ => False
  | _ => True

/-- A touch that lands outside the edges does not scroll, wherever it goes afterwards. -/
theorem edge_scroll_needs_landing (c : Config) (n : Nat) (m : Method) (dwt areas : Bool) (ops : List Op) (now : Nat) (vs : List View) (g : Frame) (hov : Nat → Bool) (rest : List Op)
    (hc : Careful (init c n m dwt areas) (List.replicate n false) [] (ops ++ .frame now vs g hov :: rest)) (hr : 0 < c.rx ∧ 0 < c.ry) (i : Nat) (v : View) (hv : vs[i]? = some v)
    (hb : v.st = .begin) (hout : v.pos.x ≤ c.rightEdge ∧ v.pos.y ≤ c.bottomEdge) (hstay : ∀ op ∈ rest, staysDown i op) (a : Axis) (x : Int) :
    .edge i a x ∉ (run (run (init c n m dwt areas) ops).1 (.frame now vs g hov :: rest)).2 := by
  rw [careful_append] at hc
  have k := (keeps_run ops _ _ _ (inv_init c n m dwt areas) hc.1).1
  have hcf := hc.2
  have hcfg : (run (init c n m dwt areas) ops).1.cfg = c := by rw [(shape_run ops (init c n m dwt areas)).cfg]; rfl
  generalize (run (init c n m dwt areas) ops).1 = s at k hcf hcfg
  obtain ⟨l1, l2⟩ := landed_frame s _ _ vs g hov now k ⟨hcf.1.1, hcf.1.2⟩ i v hv hb (by rw [hcfg]; exact hr)
  have k2 := keeps_step s _ _ _ k hcf.1
  simp only [run, List.mem_append, not_or]
  refine ⟨l1.2 a x, quiet_run none i rest _ _ _ k2.1 hcf.2 ?_ (l2 fun _ => by rw [hcfg]; exact hout) a x⟩
  intro op hop
  have := hstay op hop
  cases op with
  | frame now vs g hov => exact fun v hv => ⟨this v hv, (fun _ p T e => by cases e)⟩
  | edgeTimeout now j => exact (fun _ p T e => by cases e)
  | clear _ _ _ => exact this
  | arbitrate _ _ _ => exact this
  | _ => trivial

/-- A finger that came down in the middle moves the pointer on the edge; the same movement of one that came down on the edge
scrolls. -/
example : Careful (demo .edge) nobody [] ([demoFrame 1000 [at_ .begin 500 200]] ++ (slide 1000 940 200 0 20).tail) ∧
    (run (demo .edge) ([demoFrame 1000 [at_ .begin 500 200]] ++ (slide 1000 940 200 0 20).tail)).2 = [.motion [0], .motion [0], .motion [0]] ∧
    (∀ op ∈ (slide 1000 940 200 0 20).tail, staysDown 0 op) ∧
    (run (demo .edge) (slide 1000 940 200 0 20)).2 = [.edge 0 .vertical 20, .edge 0 .vertical 20, .edge 0 .vertical 20] := by
  refine ⟨careful_sound _ _ _ _ (by decide) (by decide +kernel), by decide +kernel, ?_, by decide +kernel⟩
  intro op hop
  simp only [slide, List.tail_cons, List.mem_cons, List.not_mem_nil, or_false] at hop
  rcases hop with rfl | rfl | rfl | rfl <;> (intro v hv; simp [at_] at hv; subst hv; decide)

/-- What is asked of the operations for a touch to stay where it landed: it is not lifted, it stays less than 3 mm from
where it landed on each axis, and its timer does not go off within the first 300 ms. -/
def staysNear (c : Config) (i : Nat) (p : Point) (since : Nat) : Op → Prop
  | .frame _ vs _ _ => ∀ (v : View), vs[i]? = some v → v.st ≠ .end_ ∧ (v.dirty = true → (v.pos.x - p.x).natAbs < 3 * c.rx ∧ (v.pos.y - p.y).natAbs < 3 * c.ry)
  | .edgeTimeout now j => j = i → now < since + 300000
  | .clear _ _ _ | .arbitrate _ _ _ => False
  | _ => True

/-- A touch does not scroll before it moved 3 mm or stayed for 300 ms. -/
theorem edge_scroll_threshold (c : Config) (n : Nat) (m : Method) (dwt areas : Bool) (ops : List Op) (now : Nat) (vs : List View) (g : Frame) (hov : Nat → Bool) (rest : List Op)
    (hc : Careful (init c n m dwt areas) (List.replicate n false) [] (ops ++ .frame now vs g hov :: rest)) (hr : 0 < c.rx ∧ 0 < c.ry) (i : Nat) (v : View) (hv : vs[i]? = some v)
    (hb : v.st = .begin) (hstay : ∀ op ∈ rest, staysNear c i v.pos now op) (a : Axis) (x : Int) :
    .edge i a x ∉ (run (run (init c n m dwt areas) ops).1 (.frame now vs g hov :: rest)).2 := by
  rw [careful_append] at hc
  have k := (keeps_run ops _ _ _ (inv_init c n m dwt areas) hc.1).1
  have hcf := hc.2
  have hcfg : (run (init c n m dwt areas) ops).1.cfg = c := by rw [(shape_run ops (init c n m dwt areas)).cfg]; rfl
  generalize (run (init c n m dwt areas) ops).1 = s at k hcf hcfg
  obtain ⟨l1, l2⟩ := landed_frame s _ _ vs g hov now k ⟨hcf.1.1, hcf.1.2⟩ i v hv hb (by rw [hcfg]; exact hr)
  have k2 := keeps_step s _ _ _ k hcf.1
  have hc2 : (step s (.frame now vs g hov)).1.cfg = c := (shape_step s _).cfg.trans hcfg
  simp only [run, List.mem_append, not_or]
  refine ⟨l1.2 a x, quiet_run (some (v.pos, now)) i rest _ _ _ k2.1 hcf.2 ?_ l1.1 a x⟩
  intro op hop
  have := hstay op hop
  rw [hc2]
  cases op with
  | frame now vs g hov => exact fun v hv => ⟨(this v hv).1, (fun hd p T e => by cases e; exact (this v hv).2 hd)⟩
  | edgeTimeout now j => exact (fun hj p T e => by cases e; exact this hj)
  | clear _ _ _ => exact this
  | arbitrate _ _ _ => exact this
  | _ => trivial

/-- Four steps of 0.7 mm are not enough, with a fifth they are; and so they are after 300 ms. -/
example : Careful (demo .edge) nobody [] (slide 1000 940 200 0 7) ∧ (run (demo .edge) (slide 1000 940 200 0 7)).2 = [] ∧
    (∀ op ∈ (slide 1000 940 200 0 7).tail, staysNear demoConfig 0 ⟨940, 200⟩ 1000 op) ∧
    (run (demo .edge) (slide 1000 940 200 0 7 ++ [demoFrame 6000 [at_ .update 940 235]])).2 = [.edge 0 .vertical 7] ∧
    (run (demo .edge) ((slide 1000 940 200 0 7).take 4 ++ [.edgeTimeout 301000 0, demoFrame 302000 [at_ .update 940 228]])).2 = [.edge 0 .vertical 7] := by
  refine ⟨careful_sound _ _ _ _ (by decide) (by decide +kernel), by decide +kernel, ?_, by decide +kernel, by decide +kernel⟩
  intro op hop
  simp only [slide, List.tail_cons, List.mem_cons, List.not_mem_nil, or_false] at hop
  rcases hop with rfl | rfl | rfl | rfl <;> (intro v hv; simp [at_] at hv; subst hv; decide)

/-! ### What goes wrong in histories that are not careful -/

/-- The device is suspended as a whole while a finger scrolls: it is marked as suspended first, and the stop is never sent. -/
theorem no_stop_when_suspended :
    scrolling 0 (run (demo .edge) (slide 1000 940 200 0 20 ++ [.suspended true, .clear 6000 [] {}])).2 = some .vertical ∧
    (downsRun (demo .edge) nobody (slide 1000 940 200 0 20 ++ [.suspended true, .clear 6000 [] {}]))[0]? = some false := by decide +kernel

/-- The finger is pressed hard enough for a palm in the very frame in which it is lifted: no stop is sent, and the next finger
there changes the axis without one. -/
theorem no_stop_when_palm :
    scrolling 0 (run (demo .edge) (slide 1000 940 200 0 20 ++ [demoFrame 6000 [{ at_ .end_ 940 280 with pressure := 200 }]])).2 = some .vertical ∧
    followEdge 0 none (run (demo .edge) (slide 1000 940 200 0 20 ++ [demoFrame 6000 [{ at_ .end_ 940 280 with pressure := 200 }]] ++ slide 7000 500 540 20 0)).2 = false := by
  decide +kernel

/-- The click ends in the frame in which the scrolling finger is lifted: the next finger on the edge moves the pointer, after a
message about a bug. -/
theorem no_scroll_after_click :
    (run (demo .edge) (slide 1000 940 200 0 20 ++ [demoFrame 6000 [at_ .end_ 940 280] { click := true }] ++ slide 7000 940 200 0 20)).2 =
      [.edge 0 .vertical 20, .edge 0 .vertical 20, .edge 0 .vertical 20, .edgeStop 0 .vertical, .bug, .motion [0], .motion [0], .motion [0]] := by decide +kernel

/-- The scroll method is changed while a finger is on the edge, and changed back: a finger that came down in the middle scrolls
and moves the pointer at once. -/
theorem scroll_and_motion_after_method_change :
    ∀ o ∈ [Out.bug, .edge 0 .vertical 10, .motion [0]],
      o ∈ (step (run (demo .edge) ([demoFrame 1000 [at_ .begin 940 200], .setMethod 2000 .twoFinger, demoFrame 3000 [at_ .end_ 940 200], demoFrame 4000 [at_ .begin 500 200],
        .setMethod 5000 .edge] ++ (slide 6000 940 200 0 10).tail)).1 (demoFrame 11000 [at_ .update 940 250])).2 := by decide +kernel

end Libinput.Motion
