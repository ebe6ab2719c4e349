import Verif.Motion.EdgeRun
/-
Every operation of a careful history keeps the invariant of edge scrolling.
-/
namespace Libinput.Motion
open Touch (St)

/-- The invariant holds afterwards, and what was sent is in order. -/
def Keeps (ds : List Bool) (past : List Out) (ds' : List Bool) (r : Pad × List Out) : Prop :=
  Inv r.1 ds' (past ++ r.2) ∧ ∀ i, i < ds.length → followEdge i (scrolling i past) r.2 = true

theorem scrollingFrom_noEdge (i : Nat) (os : List Out) (c : Option Axis) (h : ∀ o ∈ os, o.aboutEdge = none) : followEdge i c os = true ∧ scrollingFrom i c os = c :=
  skip i os c fun o ho hx => by rw [h o ho] at hx; cases hx

/-- Nothing about the touches changes. -/
theorem keeps_same {s t : Pad} {ds : List Bool} {past os : List Out} (h : Inv s ds past) (e1 : t.touches = s.touches) (e2 : t.method = s.method)
    (e3 : t.arb = true → s.arb = true) (ho : ∀ o ∈ os, o.aboutEdge = none) : Keeps ds past ds (t, os) := by
  refine ⟨⟨?_, ?_, ?_, ?_, ?_, ?_⟩, fun i _ => (scrollingFrom_noEdge i os _ ho).1⟩
  · rw [e1]; exact h.index
  · rw [e1]; exact h.down
  · rw [e1]; exact h.calm
  · rw [e1, e2]; exact h.edge
  · rw [e1]; intro i t ht; rw [scrolling_append, (scrollingFrom_noEdge i os _ ho).2]; exact h.dir i t ht
  · rw [e1]; intro ha; exact h.arb (e3 ha)

theorem Keeps.then {ds ds1 ds2 : List Bool} {past : List Out} {r q : Pad × List Out} (h : Keeps ds past ds1 r) (k : Keeps ds1 (past ++ r.2) ds2 q) (hl : ds1.length = ds.length) :
    Keeps ds past ds2 (q.1, r.2 ++ q.2) := by
  refine ⟨by rw [← List.append_assoc]; exact k.1, fun i hi => ?_⟩
  rw [followEdge_append, h.2 i hi, ← scrolling_append]
  exact k.2 i (by omega)

theorem keeps_stop (s : Pad) (ds : List Bool) (past : List Out) (h : Inv s ds past) : Keeps ds past ds (s.each Finger.edgeStop) ∧ ∀ t ∈ (s.each Finger.edgeStop).1.touches, t.dir = none := by
  have hn : s.touches.length = ds.length := by have := congrArg List.length h.index; simpa using this
  have hsh := (sends_each s _ edgeStop_core).shape
  have back : ∀ (i : Nat) (w : Finger), (s.each Finger.edgeStop).1.touches[i]? = some w → ∃ t, s.touches[i]? = some t ∧ w = t.edgeStop.1 := by
    intro i w hw
    have hl := (List.getElem?_eq_some_iff.1 hw).1
    rw [hsh.length] at hl
    have ht : s.touches[i]? = some s.touches[i] := List.getElem?_eq_getElem hl
    refine ⟨_, ht, ?_⟩
    rw [each_get s _ i _ ht] at hw
    exact (Option.some.inj hw).symm
  have ed : ∀ (i : Nat) (t : Finger), s.touches[i]? = some t → Edged i (scrolling i past) (s.each Finger.edgeStop).2 none := by
    intro i t ht
    have hi := indices_get h.index ht
    have := (ei_edgeStop (h.edge i t ht)).2.2
    rw [hi, h.dir i t ht] at this
    exact edged_pad s _ _ h.index edgeStop_about i t ht _ _ this
  refine ⟨⟨⟨?_, ?_, ?_, ?_, ?_, ?_⟩, ?_⟩, ?_⟩
  · rw [hsh.index]; exact h.index
  · intro i w hw
    obtain ⟨t, ht, rfl⟩ := back i w hw
    have : t.edgeStop.1.down = t.down := by unfold Finger.down; rw [show t.edgeStop.1.st = t.st from congrArg Core.st (edgeStop_core t)]
    rw [this]; exact h.down i t ht
  · intro i w hw
    obtain ⟨t, ht, rfl⟩ := back i w hw
    rw [show t.edgeStop.1.st = t.st from congrArg Core.st (edgeStop_core t)]
    exact h.calm i t ht
  · intro i w hw
    obtain ⟨t, ht, rfl⟩ := back i w hw
    exact (ei_edgeStop (h.edge i t ht)).1
  · intro i w hw
    obtain ⟨t, ht, rfl⟩ := back i w hw
    rw [(ei_edgeStop (h.edge i t ht)).2.1, scrolling_append, (ed i t ht).2]
  · intro _ w hw
    obtain ⟨i, hi⟩ := List.getElem?_of_mem hw
    obtain ⟨t, ht, rfl⟩ := back i w hi
    exact (ei_edgeStop (h.edge i t ht)).2.1
  · intro i hi
    exact (ed i s.touches[i] (List.getElem?_eq_getElem (by omega))).1
  · intro w hw
    obtain ⟨i, hi⟩ := List.getElem?_of_mem hw
    obtain ⟨t, ht, rfl⟩ := back i w hi
    exact (ei_edgeStop (h.edge i t ht)).2.1

theorem keeps_clicked (s : Pad) (g : Frame) (ds : List Bool) (past : List Out) (h : Inv s ds past) : Keeps ds past ds (s.clicked g) := by
  unfold Pad.clicked
  split
  · exact (keeps_stop s ds past h).1
  · exact keeps_same h rfl rfl id fun o ho => by simp at ho

theorem keeps_stopActions (s : Pad) (now : Nat) (ds : List Bool) (past : List Out) (h : Inv s ds past) : Keeps ds past ds (s.stopActions now) := by
  have h1 := (keeps_stop s ds past h).1
  unfold Pad.stopActions
  have k := gestEnd_cfg (s.each Finger.edgeStop).1 now true
  have ks := sends_gestEnd (s.each Finger.edgeStop).1 now true
  have := keeps_same (t := { ((s.each Finger.edgeStop).1.gestEnd now true).1 with tapOff := true }) h1.1 k.2.2.1 ks.method (by rw [← ks.arb]; exact id) (gestEnd_noEdge (s.each Finger.edgeStop).1 now true)
  exact h1.then this rfl

theorem lifted_get : ∀ (ts : List Finger) (vs : List View) (i : Nat) (t : Finger), ts[i]? = some t →
    (lifted ts vs)[i]? = some { vs.getD i { st := .none } with st := if t.down then .end_ else .none, dirty := t.st != .none }
  | [], _, _, _, h => by simp at h
  | t :: ts, vs, 0, u, h => by
    simp at h; subst h
    cases vs <;> rfl
  | t :: ts, vs, i + 1, u, h => by
    simp only [List.getElem?_cons_succ] at h
    have := lifted_get ts vs.tail i u h
    simp only [lifted, List.getElem?_cons_succ, this]
    cases vs <;> rfl

theorem fitsAll_of : ∀ (ds : List Bool) (vs : List (St × Bool)), ds.length = vs.length → (∀ (i : Nat) (d : Bool) (v : St × Bool), ds[i]? = some d → vs[i]? = some v → Touch.Spec.fits d v = true) →
    Touch.Spec.fitsAll ds vs = true
  | [], [], _, _ => rfl
  | [], v :: vs, h, _ => by simp at h
  | d :: ds, [], h, _ => by simp at h
  | d :: ds, v :: vs, h, hf => by
    simp only [Touch.Spec.fitsAll, Bool.and_eq_true]
    refine ⟨hf 0 d v rfl rfl, fitsAll_of ds vs (by simpa using h) fun i d' v' h1 h2 => hf (i + 1) d' v' (by simpa using h1) (by simpa using h2)⟩

theorem clear_downs (s : Pad) (ds : List Bool) (vs : List View) (hl : s.touches.length = ds.length) :
    (lifted s.touches vs).map (fun v => v.st == .begin || v.st == .update) = ds.map fun _ => false := by
  have h1 := lifted_noneDown s.touches vs
  apply List.ext_getElem?
  intro i
  simp only [List.getElem?_map]
  by_cases hi : i < ds.length
  · have a : (lifted s.touches vs)[i]? = some (lifted s.touches vs)[i] := List.getElem?_eq_getElem (by omega)
    have b : ds[i]? = some ds[i] := List.getElem?_eq_getElem hi
    rw [a, b]
    have := h1.1 _ (List.mem_of_getElem? a)
    simp [this.1, this.2]
  · rw [List.getElem?_eq_none (by omega), List.getElem?_eq_none (by omega)]
    rfl

theorem keeps_clear (s : Pad) (now : Nat) (vs : List View) (g : Frame) (ds : List Bool) (past : List Out) (h : Inv s ds past)
    (hc : ∀ (i : Nat), scrolling i past ≠ none → s.suspended = false ∧ ¬ PalmLike s.cfg (vs.getD i { st := .none })) :
    Keeps ds past (ds.map fun _ => false) (s.clear vs g now) := by
  have h1 := keeps_clicked s g ds past h
  have k1 := same_clicked s g
  have hsub : ∀ (i : Nat) (t : Finger), (s.clicked g).1.touches[i]? = some t → scrolling i (past ++ (s.clicked g).2) ≠ none → scrolling i past ≠ none := by
    intro i t ht hx hy
    apply hx
    unfold Pad.clicked at ht hx ⊢
    split
    · next hg =>
      rw [if_pos hg] at ht
      have := (keeps_stop s ds past h)
      rw [← this.1.1.dir i t ht]
      exact this.2 t (List.mem_of_getElem? ht)
    · simp only [List.append_nil]; exact hy
  unfold Pad.clear
  simp only
  generalize hw : s.clicked g = w at h1 k1 hsub
  have h2 : Inv w.1.thumbReset ds (past ++ w.2) := by
    have := (keeps_same (t := w.1.thumbReset) (os := []) h1.1 rfl rfl id fun o ho => by simp at ho).1
    simpa using this
  have hn : w.1.touches.length = ds.length := by have := congrArg List.length h1.1.index; simpa using this
  have hok : FrameOk w.1.thumbReset ds (past ++ w.2) (lifted w.1.touches vs) := by
    refine ⟨fitsAll_of _ _ ?_ ?_, ?_⟩
    · simp [(lifted_noneDown w.1.touches vs).2, hn]
    · intro i d v hd hv
      have hlt : i < ds.length := (List.getElem?_eq_some_iff.1 hd).1
      have ht : w.1.touches[i]? = some w.1.touches[i] := List.getElem?_eq_getElem (by omega)
      generalize w.1.touches[i] = t at ht
      have h3 := h1.1.down i t ht
      rw [hd] at h3
      cases h3
      rw [List.getElem?_map, lifted_get _ vs i t ht] at hv
      cases hv
      simp only [Touch.Spec.fits]
      have hcalm := h1.1.calm i t ht
      unfold Finger.down at hd ⊢
      rcases hcalm with e | e | e <;> simp [e]
    · intro i v hv hst hs
      have hlt := (List.getElem?_eq_some_iff.1 hv).1
      rw [(lifted_noneDown w.1.touches vs).2] at hlt
      have ht : w.1.touches[i]? = some w.1.touches[i] := List.getElem?_eq_getElem hlt
      generalize w.1.touches[i] = t at ht
      obtain ⟨c1, c2⟩ := hc i (hsub i t ht hs)
      rw [lifted_get _ vs i t ht] at hv
      cases hv
      refine ⟨k1.suspended.trans c1, ?_, fun _ x hx => ((lifted_noneDown w.1.touches vs).1 x hx).1⟩
      show ¬ PalmLike w.1.cfg _
      rw [k1.cfg]
      exact c2
  have h3 := inv_frame w.1.thumbReset ds (past ++ w.2) (lifted w.1.touches vs) { g with click := false } (fun _ => false) now h2 hok
  rw [clear_downs w.1 ds vs hn] at h3
  exact h1.then h3 rfl

theorem Inv.up {s : Pad} {ds : List Bool} {past : List Out} (h : Inv s ds past) (hd : ∀ d ∈ ds, d = false) : ∀ t ∈ s.touches, t.down = false ∧ t.dir = none ∧ t.off := by
  intro t ht
  obtain ⟨i, hi⟩ := List.getElem?_of_mem ht
  have h1 := h.down i t hi
  have h2 := hd _ (List.mem_of_getElem? h1)
  exact ⟨h2, (h.edge i t hi).dir_off ((h.edge i t hi).up h2), (h.edge i t hi).up h2⟩

theorem ei_timeout (s : Pad) (t : Finger) (now : Nat) (h : EI s.method t) :
    EI s.method (s.edgeEvent { t with edgeTimer := none } .timeout now).1 ∧ (s.edgeEvent { t with edgeTimer := none } .timeout now).1.dir = t.dir ∧
      (s.edgeEvent { t with edgeTimer := none } .timeout now).1.st = t.st := by
  by_cases e : t.edgeSt = .new
  · have hr : (s.edgeEvent { t with edgeTimer := none } .timeout now).1 = { t with edgeTimer := none, edgeSt := .edge } := by
      unfold Pad.edgeEvent; simp only [e]; rfl
    rw [hr]
    refine ⟨⟨?_, ?_, ?_, ?_⟩, rfl, rfl⟩
    · intro a ha
      have := (h.dir a ha).1
      rw [e] at this; cases this
    · intro k; rcases k with k | k <;> cases k
    · intro k
      have := h.up k
      rcases this with x | x <;> rw [e] at x <;> cases x
    · intro k
      have := h.method k
      rcases this with x | x <;> rw [e] at x <;> cases x
  · have hr : (s.edgeEvent { t with edgeTimer := none } .timeout now).1 = { t with edgeTimer := none } := by
      unfold Pad.edgeEvent
      cases e2 : t.edgeSt with
      | new => exact absurd e2 e
      | none => rfl
      | edge => rfl
      | area => rfl
    rw [hr]
    exact ⟨⟨h.dir, h.bits, h.up, h.method⟩, rfl, rfl⟩

theorem keeps_put (s : Pad) (i : Nat) (t u : Finger) (os : List Out) (ds : List Bool) (past : List Out) (h : Inv s ds past) (ht : s.touches[i]? = some t) (hu : EI s.method u)
    (hd : u.dir = t.dir) (hst : u.st = t.st) (hi : u.index = t.index) (ho : ∀ o ∈ os, o.aboutEdge = none) : Keeps ds past ds (s.put i u, os) := by
  have hlt := (List.getElem?_eq_some_iff.1 ht).1
  have get : ∀ (j : Nat) (w : Finger), (s.put i u).touches[j]? = some w → (j = i ∧ w = u) ∨ s.touches[j]? = some w := by
    intro j w hw
    simp only [Pad.put, List.getElem?_set] at hw
    by_cases e : i = j
    · subst e
      simp [hlt] at hw
      exact .inl ⟨rfl, hw.symm⟩
    · simp [e] at hw
      exact .inr hw
  refine ⟨⟨?_, ?_, ?_, ?_, ?_, ?_⟩, fun i _ => (scrollingFrom_noEdge i os _ ho).1⟩
  · rw [(shape_put s i t u ht hi).index]; exact h.index
  · intro j w hw
    rcases get j w hw with ⟨rfl, rfl⟩ | hw
    · have : w.down = t.down := by unfold Finger.down; rw [hst]
      rw [this]; exact h.down j t ht
    · exact h.down j w hw
  · intro j w hw
    rcases get j w hw with ⟨rfl, rfl⟩ | hw
    · rw [hst]; exact h.calm j t ht
    · exact h.calm j w hw
  · intro j w hw
    rcases get j w hw with ⟨rfl, rfl⟩ | hw
    · exact hu
    · exact h.edge j w hw
  · intro j w hw
    rw [scrolling_append, (scrollingFrom_noEdge j os _ ho).2]
    rcases get j w hw with ⟨rfl, rfl⟩ | hw
    · rw [hd]; exact h.dir j t ht
    · exact h.dir j w hw
  · intro ha w hw
    obtain ⟨j, hj⟩ := List.getElem?_of_mem hw
    rcases get j w hj with ⟨rfl, rfl⟩ | hw
    · rw [hd]; exact h.arb ha t (List.mem_of_getElem? ht)
    · exact h.arb ha w (List.mem_of_getElem? hw)

theorem keeps_setMethod (s : Pad) (m : Method) (now : Nat) (ds : List Bool) (past : List Out) (h : Inv s ds past) (hd : ∀ d ∈ ds, d = false) : Keeps ds past ds (s.setMethod m now) := by
  unfold Pad.setMethod
  split
  · exact keeps_same h rfl rfl id fun o ho => by simp at ho
  · have h1 := (keeps_stop s ds past h).1
    simp only
    have k := sends_stopTwoFinger (s.each Finger.edgeStop).1 now
    have kt : ((s.each Finger.edgeStop).1.stopTwoFinger now).1.touches = (s.each Finger.edgeStop).1.touches := by
      unfold Pad.stopTwoFinger; split <;> rfl
    have ho : ∀ o ∈ ((s.each Finger.edgeStop).1.stopTwoFinger now).2, o.aboutEdge = none := by
      unfold Pad.stopTwoFinger
      split
      · intro o ho; simp at ho
      · intro o ho
        simp only [List.mem_map] at ho
        obtain ⟨e, _, rfl⟩ := ho
        rfl
    generalize (s.each Finger.edgeStop).1.stopTwoFinger now = q at k kt ho
    have h2 := keeps_same (t := q.1) h1.1 kt k.method (by rw [k.arb]; exact id) ho
    have h3 := h1.then h2 rfl
    refine ⟨⟨h3.1.index, h3.1.down, h3.1.calm, ?_, h3.1.dir, h3.1.arb⟩, h3.2⟩
    intro i t ht
    have e := h3.1.edge i t ht
    exact ⟨e.dir, e.bits, e.up, fun _ => (h3.1.up hd t (List.mem_of_getElem? ht)).2.2⟩

theorem keeps_step (s : Pad) (ds : List Bool) (past : List Out) (op : Op) (h : Inv s ds past) (hc : CarefulOp s ds past op) : Keeps ds past (downsAfter s ds op) (step s op) := by
  have nil : ∀ o ∈ ([] : List Out), o.aboutEdge = none := fun o ho => by simp at ho
  cases op with
  | frame now vs g hov => exact inv_frame s ds past vs g hov now h ⟨hc.1, hc.2⟩
  | clear now vs g => exact keeps_clear s now vs g ds past h hc
  | suspended b => exact keeps_same h rfl rfl id nil
  | key now k code press =>
    simp only [step, downsAfter]
    split
    · unfold Pad.keyEvent
      repeat' split
      all_goals first
        | exact keeps_same h rfl rfl id nil
        | skip
      have k := keeps_stopActions s now ds past h
      have k2 := keeps_same (t := { (s.stopActions now).1 with dwt := { (s.stopActions now).1.dwt with active := true, last := now, keys := code :: (s.stopActions now).1.dwt.keys, timer := some (now + 200000) } }) k.1 rfl rfl id nil
      have := k.then k2 rfl
      rw [List.append_nil] at this
      exact this
    · exact keeps_same h rfl rfl id nil
  | pair k => exact keeps_same h rfl rfl id nil
  | unpair k =>
    simp only [step, Pad.unpair, downsAfter]
    split <;> exact keeps_same h rfl rfl id nil
  | keyTimeout now =>
    simp only [step, downsAfter]
    split
    · unfold Pad.keyTimeout; split <;> exact keeps_same h rfl rfl id nil
    · exact keeps_same h rfl rfl id nil
  | trackpoint now =>
    simp only [step, downsAfter]
    split
    · unfold Pad.trkEvent
      simp only
      split
      · exact keeps_same h rfl rfl id nil
      · split
        · exact keeps_same h rfl rfl id nil
        · have k0 := (keeps_same (t := { s with trk := { s.trk with last := now, count := s.trk.count + 1 } }) h rfl rfl id nil).1
          rw [List.append_nil] at k0
          have k := keeps_stopActions { s with trk := { s.trk with last := now, count := s.trk.count + 1 } } now ds past k0
          generalize ({ s with trk := { s.trk with last := now, count := s.trk.count + 1 } } : Pad).stopActions now = w at k
          have k2 := keeps_same (t := { w.1 with trk := { w.1.trk with active := true, timer := some (now + 300000) } }) k.1 rfl rfl id nil
          have := k.then k2 rfl
          rw [List.append_nil] at this
          exact this
    · exact keeps_same h rfl rfl id nil
  | trkTimeout now =>
    simp only [step, downsAfter]
    split
    · unfold Pad.trkTimeout; split <;> exact keeps_same h rfl rfl id nil
    · exact keeps_same h rfl rfl id nil
  | gestTimeout now =>
    simp only [step, downsAfter]
    split
    · unfold Pad.gestTimeout
      simp only
      split
      · exact keeps_same h rfl rfl id nil
      · have k := gestEnd_cfg { s with gest := { s.gest with timer := none } } now true
        have ks := sends_gestEnd { s with gest := { s.gest with timer := none } } now true
        exact keeps_same h k.2.2.1 ks.method (fun x => by rw [← ks.arb]; exact x) (gestEnd_noEdge _ now true)
    · exact keeps_same h rfl rfl id nil
  | edgeTimeout now i =>
    simp only [step, downsAfter]
    split
    · unfold Pad.edgeTimeout
      split
      · exact keeps_same h rfl rfl id nil
      · next t ht =>
        obtain ⟨e1, e2, e3⟩ := ei_timeout s t now (h.edge i t ht)
        refine keeps_put s i t _ _ ds past h ht e1 e2 e3 (congrArg Core.index (edgeEvent_core s _ _ now)) ?_
        intro o ho
        rw [edgeEvent_out _ _ _ _ o ho]; rfl
    · exact keeps_same h rfl rfl id nil
  | arbitrate now vs g =>
    simp only [step, downsAfter]
    split
    · exact keeps_same h rfl rfl id nil
    · have h0 := (keeps_same (t := { s with arbTimer := none }) h rfl rfl id nil).1
      rw [List.append_nil] at h0
      have k := keeps_clear { s with arbTimer := none } now vs g ds past h0 hc
      generalize ({ s with arbTimer := none } : Pad).clear vs g now = w at k
      refine ⟨⟨k.1.index, k.1.down, k.1.calm, k.1.edge, k.1.dir, ?_⟩, k.2⟩
      intro _ t ht
      exact (k.1.up (fun d hd => by simp only [List.mem_map] at hd; obtain ⟨_, _, rfl⟩ := hd; rfl) t ht).2.1
  | arbitrateEnd now => simp only [step, downsAfter]; split <;> exact keeps_same h rfl rfl id nil
  | arbTimeout now =>
    simp only [step, downsAfter]
    split
    · exact keeps_same h rfl rfl (fun x => by cases x) nil
    · exact keeps_same h rfl rfl id nil
  | setMethod now m => exact keeps_setMethod s m now ds past h hc
  | setDwt b => exact keeps_same h rfl rfl id nil
  | setAreas b => exact keeps_same h rfl rfl id nil

/-- The touches that are down after a history. -/
def downsRun (s : Pad) (ds : List Bool) : List Op → List Bool
  | [] => ds
  | op :: ops => downsRun (step s op).1 (downsAfter s ds op) ops

theorem downsAfter_length (s : Pad) (ds : List Bool) (past : List Out) (op : Op) (h : Inv s ds past) (hc : CarefulOp s ds past op) : (downsAfter s ds op).length = ds.length := by
  have k := keeps_step s ds past op h hc
  have a := congrArg List.length k.1.index
  have b := congrArg List.length h.index
  rw [List.length_map, List.length_range] at a b
  rw [← a, ← b]
  exact (shape_step s op).length

theorem keeps_run : ∀ (ops : List Op) (s : Pad) (ds : List Bool) (past : List Out), Inv s ds past → Careful s ds past ops → Keeps ds past (downsRun s ds ops) (run s ops)
  | [], s, ds, past, h, _ => ⟨by simp [run, downsRun, h], fun i _ => rfl⟩
  | op :: ops, s, ds, past, h, hc => by
    have k := keeps_step s ds past op h hc.1
    exact k.then (keeps_run ops _ _ _ k.1 hc.2) (downsAfter_length s ds past op h hc.1)

theorem inv_init (c : Config) (n : Nat) (m : Method) (dwt areas : Bool) : Inv (init c n m dwt areas) (List.replicate n false) [] := by
  have get : ∀ (i : Nat) (t : Finger), (init c n m dwt areas).touches[i]? = some t → i < n ∧ t = { index := i } := by
    intro i t ht
    simp only [init, List.getElem?_map] at ht
    by_cases hi : i < n
    · rw [List.getElem?_range hi] at ht
      simp at ht
      exact ⟨hi, ht.symm⟩
    · rw [List.getElem?_eq_none (by simp; omega)] at ht
      cases ht
  refine ⟨?_, ?_, ?_, ?_, ?_, ?_⟩
  · simp [init, Function.comp_def]
  · intro i t ht
    obtain ⟨h1, rfl⟩ := get i t ht
    simp [h1, Finger.down]
  · intro i t ht
    obtain ⟨h1, rfl⟩ := get i t ht
    exact .inl rfl
  · intro i t ht
    obtain ⟨h1, rfl⟩ := get i t ht
    exact ⟨(fun a ha => by cases ha), fun _ => ⟨rfl, rfl⟩, fun _ => .inl rfl, fun _ => .inl rfl⟩
  · intro i t ht
    obtain ⟨h1, rfl⟩ := get i t ht
    rfl
  · intro h; cases h

end Libinput.Motion
