import Verif.Motion.PalmRun
import Verif.Motion.TypingProps
/-
C43: touches that are taken for palms.
-/
namespace Libinput.Motion
open Touch (St)

/-- A palm for good: until the touch is lifted. -/
def Stuck (p : PCore) : Prop := p.palm = .pressure ∨ p.palm = .size ∨ p.palm = .arbitration

theorem Stuck.palm {p : PCore} (h : Stuck p) : p.palm ≠ .none := by
  rcases h with h | h | h <;> (rw [h]; simp)

theorem stuck_update (s : Pad) (t : Finger) (v : View) (now : Nat) (hst : t.st = .update) (h : Stuck t.pcore) : Stuck (s.palmDetect t v now).pcore := by
  have k : Kept s.dwt s.trk t.pcore := by
    rcases h with h | h | h
    · exact .inl h
    · exact .inr (.inl h)
    · exact .inr (.inr (.inl h))
  rcases palmDetect_kept s t v now hst k with e | e <;> rw [e]
  · exact h
  · exact .inr (.inr rfl)

/-- A touch that a frame makes a palm for good is ignored until it is lifted. -/
theorem stuck_ignored (s : Pad) (hn : Numbered s) (T : Nat) (vs : List View) (g : Frame) (hov : Nat → Bool) (i : Nat) (t : Finger) (v : View)
    (ht : s.touches[i]? = some t) (hv : vs[i]? = some v) (hs : v.st = .begin ∨ v.st = .update) (hd : v.dirty = true)
    (h : ∀ s2 t2, Seen s vs t v T s2 t2 → Stuck (s2.palmDetect t2 v T).pcore) (rest : List Op) (hr : ∀ op ∈ rest, StaysDown i op) :
    ∀ o ∈ (run s (.frame T vs g hov :: rest)).2, ¬ o.by i := by
  obtain ⟨w, w1, w2, _, w4⟩ := frame_seen s vs g hov T i t v hn ht hv hs
  obtain ⟨s2, t2, k1, k2⟩ := w2 hd
  have hw : Stuck w.pcore := by rw [k2]; exact h s2 t2 k1
  have main := (run_inv Stuck (fun _ => True) rest (step s (.frame T vs g hov)).1 i w (numbered_shape (shape_step s _) hn) w1 hw trivial hr (fun _ _ _ _ => trivial) (by
    intro now vs' g' hov' hop v' hv' _ s0 t0 s2 t2 _ _ _ a1 a2 a3
    obtain ⟨v2, e1, e2⟩ := hr _ hop
    rw [hv'] at e1
    cases e1
    exact stuck_update s2 t2 v' now (a3.st.trans e2) (by rw [a2]; exact a1))).2 (fun _ hp => hp.palm)
  intro o ho
  simp only [run, List.mem_append] at ho
  rcases ho with ho | ho
  · exact w4 hw.palm o ho
  · exact main o ho

theorem take_palm_none (t : Finger) (v : View) (now : Nat) (ht : t.palm = .none ∨ t.st = .none) : (t.take v now).palm = .none := by
  unfold Finger.take
  simp only
  have k : (if t.st = .none then { t with palm := .none, pinned := false, fast := 0, hist := [] } else t).palm = .none := by
    split
    · rfl
    · next h => rcases ht with ht | ht
                · exact ht
                · exact absurd ht h
  cases v.st <;> first | exact k | rfl

/-- A touch that is pressed harder than the threshold while it is not taken for a palm is ignored from that frame on, until it is
lifted, however lightly it is pressed later. -/
theorem heavy_touch_ignored (c : Config) (n : Nat) (m : Method) (dwt areas : Bool) (ops : List Op) (s : Pad) (es : s = (run (init c n m dwt areas) ops).1)
    (p : Int) (hc : c.palmPressure = some p) (T : Nat) (vs : List View) (g : Frame) (hov : Nat → Bool) (i : Nat) (t : Finger) (v : View)
    (ht : s.touches[i]? = some t) (hnew : t.palm = .none ∨ t.st = .none) (hv : vs[i]? = some v) (hs : v.st = .begin ∨ v.st = .update) (hd : v.dirty = true)
    (hp : p < v.pressure) (rest : List Op) (hr : ∀ op ∈ rest, StaysDown i op) :
    ∀ o ∈ (run s (.frame T vs g hov :: rest)).2, ¬ o.by i := by
  have hn : Numbered s := by rw [es]; exact numbered_run ops c n m dwt areas
  have hcs : s.cfg = c := by rw [es, (shape_run _ _).cfg]; rfl
  refine stuck_ignored s hn T vs g hov i t v ht hv hs hd (fun s2 t2 k => .inl ?_) rest hr
  have hp2 : t2.palm = .none := (congrArg PCore.palm k.pcore).trans (take_palm_none t v T hnew)
  have e : s2.palmPressure t2 = ({ t2 with palm := .pressure }, true) := by
    unfold Pad.palmPressure
    rw [k.same.cfg, hcs, hc]
    simp only [hp2, k.pressure, hp]
    rfl
  unfold Pad.palmDetect
  simp only [e, if_true]
  rfl

example : ∀ o ∈ (run (demo .twoFinger) (demoFrame 1000 [{ at_ .begin 300 400 with pressure := 140 }] ::
    [demoFrame 2000 [at_ .update 300 300] { dy := 10 }, demoFrame 3000 [at_ .update 300 200] { dy := 10 }, demoFrame 4000 [at_ .update 300 100] { dy := 10 }])).2, ¬ o.by 0 :=
  heavy_touch_ignored demoConfig 5 .twoFinger true false [] _ rfl 130 rfl 1000 _ _ _ 0 _ _ rfl (.inl rfl) rfl (.inl rfl) rfl (by decide) _ (by
    intro op h
    simp only [List.mem_cons, List.not_mem_nil, or_false] at h
    rcases h with rfl | rfl | rfl <;> exact ⟨_, rfl, rfl⟩)

example : ∃ o ∈ (run (demo .twoFinger) [demoFrame 1000 [{ at_ .begin 300 400 with pressure := 130 }],
    demoFrame 2000 [at_ .update 300 300] { dy := 10 }, demoFrame 3000 [at_ .update 300 200] { dy := 10 }, demoFrame 4000 [at_ .update 300 100] { dy := 10 }]).2, o.by 0 := by decide +kernel

/-- A touch moves nothing in a frame in which it is pressed harder than the threshold, whatever it was taken for before. -/
theorem heavy_touch_still (c : Config) (n : Nat) (m : Method) (dwt areas : Bool) (ops : List Op) (s : Pad) (es : s = (run (init c n m dwt areas) ops).1)
    (p : Int) (hc : c.palmPressure = some p) (T : Nat) (vs : List View) (g : Frame) (hov : Nat → Bool) (i : Nat) (t : Finger) (v : View)
    (ht : s.touches[i]? = some t) (hv : vs[i]? = some v) (hs : v.st = .begin ∨ v.st = .update) (hd : v.dirty = true) (hp : p < v.pressure) :
    ∀ o ∈ (step s (.frame T vs g hov)).2, ¬ o.by i := by
  have hn : Numbered s := by rw [es]; exact numbered_run ops c n m dwt areas
  have hcs : s.cfg = c := by rw [es, (shape_run _ _).cfg]; rfl
  obtain ⟨w, w1, w2, _, w4⟩ := frame_seen s vs g hov T i t v hn ht hv hs
  obtain ⟨s2, t2, k1, k2⟩ := w2 hd
  refine w4 ?_
  have := palmDetect_heavy s2 t2 v T p (by rw [k1.same.cfg, hcs, hc]) (by rw [k1.pressure]; exact hp)
  exact fun e => this ((congrArg PCore.palm k2).symm.trans e)

/-- A touch bigger than the threshold, in length or in width, is ignored from that frame on until it is lifted.  It is not
taken for a palm already, does not begin while typing or the trackpoint disables the touchpad, and is not
reported as a palm by the device itself: such touches are palms as well, but may become fingers again. -/
theorem big_touch_ignored (c : Config) (n : Nat) (m : Method) (dwt areas : Bool) (ops : List Op) (s : Pad) (es : s = (run (init c n m dwt areas) ops).1)
    (z : Int) (hc : c.palmSize = some z) (T : Nat) (vs : List View) (g : Frame) (hov : Nat → Bool) (i : Nat) (t : Finger) (v : View)
    (ht : s.touches[i]? = some t) (hnew : t.palm = .none ∨ t.st = .none) (hv : vs[i]? = some v)
    (hs : v.st = .update ∨ v.st = .begin ∧ s.dwt.active = false ∧ s.trk.active = false) (hd : v.dirty = true)
    (htool : c.palmTool = false ∨ v.toolPalm = false) (hz : z < v.touchMajor ∨ z < v.touchMinor) (rest : List Op) (hr : ∀ op ∈ rest, StaysDown i op) :
    ∀ o ∈ (run s (.frame T vs g hov :: rest)).2, ¬ o.by i := by
  have hn : Numbered s := by rw [es]; exact numbered_run ops c n m dwt areas
  have hcs : s.cfg = c := by rw [es, (shape_run _ _).cfg]; rfl
  refine stuck_ignored s hn T vs g hov i t v ht hv (hs.elim .inr (fun h => .inl h.1)) hd (fun s2 t2 k => ?_) rest hr
  have hp2 : t2.palm = .none := (congrArg PCore.palm k.pcore).trans (take_palm_none t v T hnew)
  have hbusy : ¬ (t2.st = .begin ∧ (s2.dwt.active = true ∨ s2.trk.active = true)) := by
    rw [k.st, k.same.dwt, k.same.trk]
    rcases hs with h | ⟨_, h1, h2⟩
    · rw [h]; simp
    · rw [h1, h2]; simp
  rcases palmPressure_cases s2 t2 with e1 | e1
  · by_cases ha : s2.arb = true
    · have e2 : s2.palmArb t2 = ({ t2 with palm := .arbitration }, true) := by unfold Pad.palmArb; rw [ha]; rfl
      unfold Pad.palmDetect
      simp only [e1, e2, Bool.false_eq_true, if_false, if_true]
      exact .inr (.inr rfl)
    · have e2 : s2.palmArb t2 = (t2, false) := by unfold Pad.palmArb; rw [if_neg ha]
      have e3 : s2.palmDwt t2 = (t2, false) := by
        unfold Pad.palmDwt
        rw [if_neg (fun h => hbusy ⟨h.2.2, .inl h.2.1⟩), if_neg (by rw [hp2]; simp)]
      have e4 : s2.palmTrk t2 = (t2, false) := by
        unfold Pad.palmTrk
        split
        · rfl
        · rw [if_neg (fun h => hbusy ⟨h.2.1, .inr h.2.2⟩), if_neg (by rw [hp2]; simp)]
      have e5 : s2.palmTool t2 = (t2, false) := by
        unfold Pad.palmTool
        rw [k.same.cfg, hcs]
        rcases htool with h | h
        · rw [if_pos h]
        · split
          · rfl
          · simp [hp2, k.tool, h]
      have e6 : s2.palmSize t2 = ({ t2 with palm := .size }, true) := by
        unfold Pad.palmSize
        rw [k.same.cfg, hcs, hc]
        simp only [hp2, k.major, k.minor, hz]
        rfl
      unfold Pad.palmDetect
      simp only [e1, e2, e3, e4, e5, e6, Bool.false_eq_true, if_false, if_true]
      exact .inr (.inl rfl)
  · refine .inl ?_
    have e1' : (s2.palmPressure t2).2 = true := by
      unfold Pad.palmPressure at e1 ⊢
      split at e1
      · rw [hp2] at e1; cases e1
      · split at e1 <;> rename_i hx
        · rw [hp2] at e1; cases e1
        · rw [if_neg hx]
          simpa using e1
    unfold Pad.palmDetect
    simp only [e1', if_true]
    exact e1

/-- Every touch that is down and moves, or begins, while a pen is near is ignored until it is lifted, even after the pen has
gone. -/
theorem touch_near_pen_ignored (c : Config) (n : Nat) (m : Method) (dwt areas : Bool) (ops : List Op) (s : Pad) (es : s = (run (init c n m dwt areas) ops).1)
    (ha : s.arb = true) (T : Nat) (vs : List View) (g : Frame) (hov : Nat → Bool) (i : Nat) (t : Finger) (v : View)
    (ht : s.touches[i]? = some t) (hv : vs[i]? = some v) (hs : v.st = .begin ∨ v.st = .update) (hd : v.dirty = true) (rest : List Op) (hr : ∀ op ∈ rest, StaysDown i op) :
    ∀ o ∈ (run s (.frame T vs g hov :: rest)).2, ¬ o.by i := by
  have hn : Numbered s := by rw [es]; exact numbered_run ops c n m dwt areas
  refine stuck_ignored s hn T vs g hov i t v ht hv hs hd (fun s2 t2 k => ?_) rest hr
  unfold Pad.palmDetect
  simp only
  split
  · next e => exact .inl (palmPressure_flag s2 t2 e)
  · have e2 : s2.palmArb (s2.palmPressure t2).1 = ({ (s2.palmPressure t2).1 with palm := .arbitration }, true) := by unfold Pad.palmArb; rw [k.same.arb, ha]; rfl
    simp only [e2, if_true]
    exact .inr (.inr rfl)

/-- A pen comes near, a palm lands, and the pen leaves. -/
example : (run (init demoConfig 5 .twoFinger true false) [.arbitrate 500 [] {}]).1.arb = true ∧
    ∀ o ∈ (run (run (init demoConfig 5 .twoFinger true false) [.arbitrate 500 [] {}]).1 (demoFrame 1000 [at_ .begin 300 400] ::
      [.arbitrateEnd 2000, .arbTimeout 92000, demoFrame 93000 [at_ .update 300 300] { dy := 10 }, demoFrame 94000 [at_ .update 300 200] { dy := 10 }])).2, ¬ o.by 0 :=
  ⟨by decide +kernel, touch_near_pen_ignored demoConfig 5 .twoFinger true false [.arbitrate 500 [] {}] _ rfl (by decide +kernel) 1000 _ _ _ 0 _ _ rfl rfl (.inl rfl) rfl _ (by
    intro op h
    simp only [List.mem_cons, List.not_mem_nil, or_false] at h
    rcases h with rfl | rfl | rfl | rfl <;> first | trivial | exact ⟨_, rfl, rfl⟩)⟩

/-! ### The edges -/

theorem zone_iff (c : Config) (p : Point) : c.inPalmEdge p = true ↔ PalmZone c p := by
  unfold Config.inPalmEdge Config.inSide Config.inTop PalmZone
  simp [or_assoc]

theorem fingers_downs (s : Pad) (vs : List View) (h : stOf s = vs.map View.st) : s.fingers = downs vs := by
  have : ∀ (ts : List Finger) (vs : List View), ts.map Finger.st = vs.map View.st → ts.countP Finger.down = vs.countP fun v => v.st == .begin || v.st == .update := by
    intro ts
    induction ts with
    | nil => intro vs h; cases vs with
      | nil => rfl
      | cons v vs => simp at h
    | cons t ts ih => intro vs h; cases vs with
      | nil => simp at h
      | cons v vs =>
        simp only [List.map_cons, List.cons.injEq] at h
        rw [List.countP_cons, List.countP_cons, ih vs h.2]
        unfold Finger.down
        rw [h.1]
  exact this s.touches vs h

theorem alone_not_multi (s : Pad) (t : Finger) (vs : List View) (h : stOf s = vs.map View.st) (ha : downs vs ≤ 1) : s.palmMulti t = false := by
  unfold Pad.palmMulti
  rw [fingers_downs s vs h]
  simp
  intro h2
  omega

theorem dirs_side : ∀ d : Fin 256, ((d.val &&& 238 != 0) && (d.val &&& (255 - 238) == 0)) = true ↔
    (∃ b : Fin 8, d.val.testBit b.val = true) ∧ ∀ b : Fin 8, d.val.testBit b.val = true → b.val ≠ 0 ∧ b.val ≠ 4 := by decide +kernel

theorem dirs_top : ∀ d : Fin 256, ((d.val &&& 56 != 0) && (d.val &&& (255 - 56) == 0)) = true ↔
    (∃ b : Fin 8, d.val.testBit b.val = true) ∧ ∀ b : Fin 8, d.val.testBit b.val = true → b.val = 3 ∨ b.val = 4 ∨ b.val = 5 := by decide +kernel

theorem testBit_mod (d b : Nat) (h : b < 8) : (d % 256).testBit b = d.testBit b := by
  rw [show (256 : Nat) = 2 ^ 8 by decide, Nat.testBit_mod_two_pow]
  simp [h]

/-- A touch that was taken for a palm at the edge moved out of it. -/
theorem movedOut_iff (s : Pad) (t : Finger) (dirs now : Nat) : s.palmMovedOut t dirs now = true ↔
    now < t.palmTime + 200000 ∧ ¬ PalmZone s.cfg t.pos ∧ Leaves s.cfg t.palmFirst dirs := by
  unfold Pad.palmMovedOut
  simp only
  by_cases h : now < t.palmTime + 200000
  · by_cases hz : PalmZone s.cfg t.pos
    · rw [if_neg (by simp [(zone_iff _ _).2 hz])]
      simp [hz]
    · have hz' : s.cfg.inPalmEdge t.pos = false := by
        cases e : s.cfg.inPalmEdge t.pos with
        | false => rfl
        | true => exact absurd ((zone_iff _ _).1 e) hz
      rw [if_pos (by simp [h, hz'])]
      simp only [h, hz, true_and, not_false_eq_true]
      unfold Leaves
      have hlt : dirs % 256 < 256 := Nat.mod_lt _ (by decide)
      by_cases hs : t.palmFirst.x < s.cfg.palmLeft ∨ s.cfg.palmRight < t.palmFirst.x
      · have e : s.cfg.inSide t.palmFirst = true := by unfold Config.inSide; simpa using hs
        rw [if_pos e]
        have k := dirs_side ⟨dirs % 256, hlt⟩
        simp only at k
        rw [k]
        constructor
        · rintro ⟨⟨b, hb⟩, ha⟩
          refine ⟨⟨b.1, b.2, by rw [← testBit_mod _ _ b.2]; exact hb⟩, fun d hd hbit => ?_⟩
          rw [if_pos hs]
          exact ha ⟨d, hd⟩ (by rw [testBit_mod _ _ hd]; exact hbit)
        · rintro ⟨⟨b, hb, hb2⟩, ha⟩
          refine ⟨⟨⟨b, hb⟩, by rw [testBit_mod _ _ hb]; exact hb2⟩, fun d hbit => ?_⟩
          have := ha d.1 d.2 (by rw [← testBit_mod _ _ d.2]; exact hbit)
          rw [if_pos hs] at this
          exact this
      · have e : ¬ s.cfg.inSide t.palmFirst = true := by unfold Config.inSide; simpa using hs
        rw [if_neg e]
        by_cases ht : t.palmFirst.y < s.cfg.palmUpper
        · have e2 : s.cfg.inTop t.palmFirst = true := by unfold Config.inTop; simpa using ht
          rw [if_pos e2]
          have k := dirs_top ⟨dirs % 256, hlt⟩
          simp only at k
          rw [k]
          constructor
          · rintro ⟨⟨b, hb⟩, ha⟩
            refine ⟨⟨b.1, b.2, by rw [← testBit_mod _ _ b.2]; exact hb⟩, fun d hd hbit => ?_⟩
            rw [if_neg hs]
            exact ⟨ht, ha ⟨d, hd⟩ (by rw [testBit_mod _ _ hd]; exact hbit)⟩
          · rintro ⟨⟨b, hb, hb2⟩, ha⟩
            refine ⟨⟨⟨b, hb⟩, by rw [testBit_mod _ _ hb]; exact hb2⟩, fun d hbit => ?_⟩
            have := ha d.1 d.2 (by rw [← testBit_mod _ _ d.2]; exact hbit)
            rw [if_neg hs] at this
            exact this.2
        · have e2 : ¬ s.cfg.inTop t.palmFirst = true := by unfold Config.inTop; simpa using ht
          rw [if_neg e2]
          simp only [Nat.and_zero, bne_self_eq_false, Bool.false_and, Bool.false_eq_true, false_iff, not_and]
          rintro ⟨b, hb, hb2⟩ ha
          have := ha b hb hb2
          rw [if_neg hs] at this
          exact ht this.1
  · rw [if_neg (by simp [h])]
    simp [h]

/-- A palm at the edge that is alone and did not move out stays one. -/
theorem edge_update (s : Pad) (t : Finger) (v : View) (now : Nat) (hp : t.palm = .edge) (hst : t.st = .update) (hm : s.palmMulti t = false) (ho : s.palmMovedOut t v.palmDirs now = false) :
    s.palmDetect t v now = t ∨ s.palmDetect t v now = { t with palm := .arbitration } := by
  have e1 := palmPressure_other s t (by rw [hp]; simp) (by rw [hp]; simp)
  by_cases ha : s.arb = true
  · have e2 : s.palmArb t = ({ t with palm := .arbitration }, true) := by unfold Pad.palmArb; rw [ha]; rfl
    right
    unfold Pad.palmDetect
    simp only [e1, e2, Bool.false_eq_true, if_false, if_true]
  · left
    have e3 : s.palmDwt t = (t, false) := by unfold Pad.palmDwt; simp [hst, hp]
    have e4 : s.palmTrk t = (t, false) := by unfold Pad.palmTrk; simp [hst, hp]
    have e5 : s.palmTool t = (t, false) := by unfold Pad.palmTool; simp [hp]
    have e6 : s.palmSize t = (t, false) := by
      unfold Pad.palmSize
      split
      · rfl
      · simp [hp]
    have e7 : s.palmEdge t v now = (t, false) := by unfold Pad.palmEdge; simp [hp, hm, ho]
    rw [palmDetect_plain s t v now (by simpa using ha) e1 e3 e4 e5 e6, e7]
    simp only [Bool.false_eq_true, if_false, e1]

/-- A touch that lands in a palm zone on its own is ignored: until it is lifted, another touch is down too, or, within 200 ms, it
leaves the zone moving away from the edge.  It does not land on a software button or on the edge used for scrolling, and not while typing or the
trackpoint disables the touchpad (`touch_while_typing_ignored`), and is not reported as a palm by the device itself (`tool_palm_ignored`). -/
theorem edge_palm_ignored (c : Config) (n : Nat) (m : Method) (dwt areas : Bool) (ops : List Op) (s : Pad) (es : s = (run (init c n m dwt areas) ops).1)
    (hb1 : s.dwt.active = false) (hb2 : s.trk.active = false) (T : Nat) (vs : List View) (g : Frame) (hov : Nat → Bool) (i : Nat) (t : Finger) (v : View)
    (ht : s.touches[i]? = some t) (hnew : t.palm = .none ∨ t.st = .none) (hv : vs[i]? = some v) (hs : v.st = .begin) (hd : v.dirty = true)
    (htool : c.palmTool = false ∨ v.toolPalm = false) (hz : PalmZone c v.raw) (hsoft : c.clickpad = false ∨ v.inSoft = false) (hr : s.method = .edge → v.raw.x ≤ c.rightEdge)
    (hl : vs.length = n) (halone : downs vs ≤ 1) (rest : List Op) (hr1 : ∀ op ∈ rest, StaysDown i op)
    (hr2 : ∀ now vs' g' hov' v', .frame now vs' g' hov' ∈ rest → vs'[i]? = some v' →
      vs'.length = n ∧ downs vs' ≤ 1 ∧ ¬ (now < T + 200000 ∧ ¬ PalmZone c v'.raw ∧ Leaves c v.raw v'.palmDirs)) :
    ∀ o ∈ (run s (.frame T vs g hov :: rest)).2, ¬ o.by i := by
  have hn : Numbered s := by rw [es]; exact numbered_run ops c n m dwt areas
  have sh := shape_run ops (init c n m dwt areas)
  have hcs : s.cfg = c := by rw [es, sh.cfg]; rfl
  have hlen : s.touches.length = n := by rw [es, sh.length]; simp [init]
  obtain ⟨w, w1, w2, _, w4⟩ := frame_seen s vs g hov T i t v hn ht hv (.inl hs)
  obtain ⟨s2, t2, k, k2⟩ := w2 hd
  let I : PCore → Prop := fun p => Stuck p ∨ (p.palm = .edge ∧ p.palmTime = T ∧ p.palmFirst = v.raw)
  have hI : ∀ p, I p → p.palm ≠ .none := by
    rintro p (h | h)
    · exact h.palm
    · rw [h.1]; simp
  have hw : I w.pcore := by
    rw [k2]
    have hp2 : t2.palm = .none := (congrArg PCore.palm k.pcore).trans (take_palm_none t v T hnew)
    rcases palmPressure_cases s2 t2 with e1 | e1
    · by_cases ha : s2.arb = true
      · have e2 : s2.palmArb t2 = ({ t2 with palm := .arbitration }, true) := by unfold Pad.palmArb; rw [ha]; rfl
        unfold Pad.palmDetect
        simp only [e1, e2, Bool.false_eq_true, if_false, if_true]
        exact .inl (.inr (.inr rfl))
      · have e2 : s2.palmArb t2 = (t2, false) := by unfold Pad.palmArb; rw [if_neg ha]
        have e3 : s2.palmDwt t2 = (t2, false) := by
          unfold Pad.palmDwt
          rw [k.same.dwt, if_neg (by rw [hb1]; simp), if_neg (by rw [hp2]; simp)]
        have e4 : s2.palmTrk t2 = (t2, false) := by
          unfold Pad.palmTrk
          split
          · rfl
          · rw [k.same.trk, if_neg (by rw [hb2]; simp), if_neg (by rw [hp2]; simp)]
        have e5 : s2.palmTool t2 = (t2, false) := by
          unfold Pad.palmTool
          rw [k.same.cfg, hcs]
          rcases htool with h | h
          · rw [if_pos h]
          · split
            · rfl
            · simp [hp2, k.tool, h]
        have e7 : s2.palmEdge t2 v T = ({ t2 with palm := .edge, palmTime := T, palmFirst := t2.pos }, true) := by
          unfold Pad.palmEdge
          rw [if_neg (by rw [hp2]; simp), if_neg (by rw [alone_not_multi s2 t2 vs (k.sts (hl.trans hlen.symm)) halone]; simp), if_neg, if_neg, if_neg]
          · unfold Pad.onRight
            rw [k.same.method, k.same.cfg, hcs, k.pos]
            simp only [Bool.and_eq_true, beq_iff_eq, decide_eq_true_eq, not_and, Int.not_lt]
            exact hr
          · rw [k.same.cfg, hcs]
            rcases hsoft with h | h <;> rw [h] <;> simp
          · rw [k.st, hs, k.same.cfg, hcs, k.pos, (zone_iff _ _).2 hz]; simp
        unfold Pad.palmDetect
        simp only [e1, e2, e3, e4, e5, Bool.false_eq_true, if_false]
        by_cases e6 : (s2.palmSize t2).2 = true
        · simp only [e6, if_true]
          exact .inl (.inr (.inl (palmSize_flag s2 t2 e6)))
        · have e6' : s2.palmSize t2 = (t2, false) := by
            unfold Pad.palmSize at e6 ⊢
            split at e6 <;> rename_i hx
            · rfl
            · split at e6 <;> rename_i hx
              · rw [if_pos hx]
              · rw [if_neg hx]
                split at e6 <;> rename_i hx
                · exact absurd rfl e6
                · rw [if_neg hx]
          simp only [e6', e7, Bool.false_eq_true, if_false, if_true]
          exact .inr ⟨rfl, rfl, k.pos⟩
    · refine .inl (.inl ?_)
      have e1' : (s2.palmPressure t2).2 = true := by
        unfold Pad.palmPressure at e1 ⊢
        split at e1
        · rw [hp2] at e1; cases e1
        · split at e1 <;> rename_i hx
          · rw [hp2] at e1; cases e1
          · rw [if_neg hx]
            simpa using e1
      unfold Pad.palmDetect
      simp only [e1', if_true]
      exact e1
  have main := (run_inv I (fun _ => True) rest (step s (.frame T vs g hov)).1 i w (numbered_shape (shape_step s _) hn) w1 hw trivial hr1 (fun _ _ _ _ => trivial) (by
    intro now vs' g' hov' hop v' hv' _ s0 t0 s2 t2 _ b1 b2 a1 a2 a3
    obtain ⟨v2, e1, e2⟩ := hr1 _ hop
    rw [hv'] at e1
    cases e1
    obtain ⟨c1, c2, c3⟩ := hr2 now vs' g' hov' v' hop hv'
    have hst : t2.st = .update := a3.st.trans e2
    have hlen0 : vs'.length = s0.touches.length := by rw [b2, (shape_step s _).length, hlen, c1]
    have hcfg : s2.cfg = c := by rw [a3.same.cfg, b1, (shape_step s _).cfg, hcs]
    rw [← a2] at a1
    rcases a1 with a1 | ⟨f1, f2, f3⟩
    · exact .inl (stuck_update s2 t2 v' now hst a1)
    · have hmo : s2.palmMovedOut t2 v'.palmDirs now = false := by
        cases e : s2.palmMovedOut t2 v'.palmDirs now with
        | false => rfl
        | true =>
          have := (movedOut_iff s2 t2 v'.palmDirs now).1 e
          have g2 : t2.palmTime = T := f2
          have g3 : t2.palmFirst = v.raw := f3
          rw [hcfg, a3.pos, g2, g3] at this
          exact absurd this c3
      rcases edge_update s2 t2 v' now f1 hst (alone_not_multi s2 t2 vs' (a3.sts hlen0) c2) hmo with e | e <;> rw [e]
      · exact .inr ⟨f1, f2, f3⟩
      · exact .inl (.inr (.inr rfl)))).2 hI
  intro o ho
  simp only [run, List.mem_append] at ho
  rcases ho with ho | ho
  · exact w4 (hI _ hw) o ho
  · exact main o ho

/-- A palm rests on the left edge and slides along it; a finger that comes in from there within 200 ms moves the pointer. -/
example : (∀ o ∈ (run (demo .twoFinger) (demoFrame 1000 [at_ .begin 20 400] ::
      [demoFrame 2000 [{ at_ .update 20 300 with palmDirs := 1 }], demoFrame 3000 [{ at_ .update 30 200 with palmDirs := 1 }], demoFrame 300000 [{ at_ .update 200 200 with palmDirs := 4 }],
        demoFrame 301000 [{ at_ .update 300 200 with palmDirs := 4 }]])).2, ¬ o.by 0) ∧
    ∃ o ∈ (run (demo .twoFinger) [demoFrame 1000 [at_ .begin 20 400], demoFrame 2000 [{ at_ .update 120 400 with palmDirs := 4 }], demoFrame 3000 [{ at_ .update 220 400 with palmDirs := 4 }],
      demoFrame 4000 [{ at_ .update 320 400 with palmDirs := 4 }]]).2, o.by 0 := by
  refine ⟨?_, by decide +kernel⟩
  refine edge_palm_ignored demoConfig 5 .twoFinger true false [] _ rfl rfl rfl 1000 _ _ _ 0 _ _ rfl (.inl rfl) rfl rfl rfl (.inl rfl) (by decide) (.inr rfl) (by intro h; cases h) rfl (by decide) _ ?_ ?_
  · intro op h
    simp only [List.mem_cons, List.not_mem_nil, or_false] at h
    rcases h with rfl | rfl | rfl | rfl <;> exact ⟨_, rfl, rfl⟩
  · intro now vs g hov v h hv
    simp only [List.mem_cons, List.not_mem_nil, or_false, demoFrame, Op.frame.injEq] at h
    rcases h with ⟨rfl, rfl, rfl, rfl⟩ | ⟨rfl, rfl, rfl, rfl⟩ | ⟨rfl, rfl, rfl, rfl⟩ | ⟨rfl, rfl, rfl, rfl⟩
    all_goals
      refine ⟨rfl, by decide, ?_⟩
      simp at hv
      subst hv
      rintro ⟨h1, h2, h3⟩
      first
        | exact absurd h1 (by decide)
        | exact absurd (by decide) h2

/-- No palm: nothing of what makes a touch a palm is there, once it is down. -/
theorem plain_update (s : Pad) (t : Finger) (v : View) (now : Nat) (ha : s.arb = false) (hp : t.palm = .none) (hst : t.st = .update)
    (h1 : t.pressure = v.pressure) (h2 : t.touchMajor = v.touchMajor) (h3 : t.touchMinor = v.touchMinor) (h4 : t.toolPalm = v.toolPalm) (h : ¬ PalmLike s.cfg v) :
    s.palmDetect t v now = t := by
  have e1 : s.palmPressure t = (t, false) := palmPressure_light s t hp (fun p hc hx => h (.inl ⟨p, hc, h1 ▸ hx⟩))
  have e3 : s.palmDwt t = (t, false) := by unfold Pad.palmDwt; simp [hst, hp]
  have e4 : s.palmTrk t = (t, false) := by unfold Pad.palmTrk; simp [hst, hp]
  have e5 : s.palmTool t = (t, false) := by
    unfold Pad.palmTool
    split
    · rfl
    · next hx =>
      have : ¬ v.toolPalm = true := fun hy => h (.inr (.inr ⟨by simpa using hx, hy⟩))
      simp [hp, h4, this]
  have e6 : s.palmSize t = (t, false) := by
    unfold Pad.palmSize
    split
    · rfl
    · next z hz =>
      have : ¬ (z < t.touchMajor ∨ z < t.touchMinor) := by rw [h2, h3]; exact fun hx => h (.inr (.inl ⟨z, hz, hx⟩))
      rw [if_neg (by simp [hp]), if_neg this]
  have e7 : s.palmEdge t v now = (t, false) := by unfold Pad.palmEdge; simp [hp, hst]
  rw [palmDetect_plain s t v now ha e1 e3 e4 e5 e6, e7]
  simp only [Bool.false_eq_true, if_false, e1]

theorem arb_step (s : Pad) (op : Op) (h : s.arb = false) (hno : ∀ now vs g, op ≠ .arbitrate now vs g) : (step s op).1.arb = false := by
  cases op with
  | arbitrate now vs g => exact absurd rfl (hno now vs g)
  | frame now vs g hov =>
    show (s.frame vs g hov now).1.arb = false
    unfold Pad.frame
    simp only
    exact (((judge_same s vs g now).arb.trans h) |> fun k => (same_settle _ hov).arb.trans ((sends_postEvents _ g _ now).arb.trans ((sends_gestState _ now).arb.trans k)))
  | clear now vs g =>
    show (s.clear vs g now).1.arb = false
    unfold Pad.clear Pad.frame
    simp only
    exact (same_settle _ _).arb.trans ((sends_postEvents _ _ _ now).arb.trans ((sends_gestState _ now).arb.trans ((judge_same _ _ _ now).arb.trans
      ((only_thumbReset _).sends.arb.trans ((sends_clicked s g).arb.trans h)))))
  | suspended b => exact h
  | key now k code press =>
    simp only [step]
    split
    · unfold Pad.keyEvent
      repeat' split
      all_goals first | exact h | exact (sends_stopActions s now).arb.trans h
    · exact h
  | pair k => exact h
  | unpair k =>
    simp only [step, Pad.unpair]
    split <;> exact h
  | keyTimeout now =>
    simp only [step]
    split
    · unfold Pad.keyTimeout; split <;> exact h
    · exact h
  | trackpoint now =>
    simp only [step]
    split
    · unfold Pad.trkEvent
      simp only
      split
      · exact h
      · split
        · exact h
        · exact (sends_stopActions { s with trk := { s.trk with last := now, count := s.trk.count + 1 } } now).arb.trans h
    · exact h
  | trkTimeout now =>
    simp only [step]
    split
    · unfold Pad.trkTimeout; split <;> exact h
    · exact h
  | gestTimeout now =>
    simp only [step]
    split
    · unfold Pad.gestTimeout
      simp only
      split
      · exact h
      · exact (((sends_gest s { s.gest with timer := none }).trans (sends_gestEnd { s with gest := { s.gest with timer := none } } now true))).arb.trans h
    · exact h
  | edgeTimeout now j =>
    simp only [step]
    split
    · unfold Pad.edgeTimeout
      split <;> exact h
    · exact h
  | arbitrateEnd now => simp only [step]; split <;> exact h
  | arbTimeout now => simp only [step]; split <;> first | exact h | rfl
  | setMethod now m =>
    simp only [step]
    unfold Pad.setMethod
    split
    · exact h
    · exact ((sends_each s _ edgeStop_core).trans (sends_stopTwoFinger (s.each Finger.edgeStop).1 now)).arb.trans h
  | setDwt b => exact h
  | setAreas b => exact h

/-- A finger is never taken for a palm: a touch that begins outside the palm zones while neither typing nor the trackpoint
disables the touchpad and no pen is near, and that is never reported as heavy, big or flat, as long as it stays down and no
pen comes near.  Typing later on, other touches, and moving into the palm zones make no difference. -/
theorem finger_is_no_palm (c : Config) (n : Nat) (m : Method) (dwt areas : Bool) (ops : List Op) (s : Pad) (es : s = (run (init c n m dwt areas) ops).1)
    (hb1 : s.dwt.active = false) (hb2 : s.trk.active = false) (ha : s.arb = false) (T : Nat) (vs : List View) (g : Frame) (hov : Nat → Bool) (i : Nat) (t : Finger) (v : View)
    (ht : s.touches[i]? = some t) (hnew : t.palm = .none ∨ t.st = .none) (hv : vs[i]? = some v) (hs : v.st = .begin)
    (hz : ¬ PalmZone c v.raw) (hl : ¬ PalmLike c v) (rest : List Op) (hr1 : ∀ op ∈ rest, StaysDown i op)
    (hr2 : ∀ now vs' g' hov' v', .frame now vs' g' hov' ∈ rest → vs'[i]? = some v' → ¬ PalmLike c v') :
    ∃ u, (run s (.frame T vs g hov :: rest)).1.touches[i]? = some u ∧ u.palm = .none := by
  have hn : Numbered s := by rw [es]; exact numbered_run ops c n m dwt areas
  have hcs : s.cfg = c := by rw [es, (shape_run ops _).cfg]; rfl
  obtain ⟨w, w1, w2, w3, _⟩ := frame_seen s vs g hov T i t v hn ht hv (.inl hs)
  have hw : w.pcore.palm = .none := by
    cases hd : v.dirty with
    | false => rw [w3 hd]; exact take_palm_none t v T hnew
    | true =>
      obtain ⟨s2, t2, k, k2⟩ := w2 hd
      rw [k2]
      have hp2 : t2.palm = .none := (congrArg PCore.palm k.pcore).trans (take_palm_none t v T hnew)
      have hc2 : s2.cfg = c := k.same.cfg.trans hcs
      have e1 : s2.palmPressure t2 = (t2, false) := palmPressure_light s2 t2 hp2 (fun p hc hx => hl (.inl ⟨p, hc2 ▸ hc, k.pressure ▸ hx⟩))
      have e3 : s2.palmDwt t2 = (t2, false) := by unfold Pad.palmDwt; rw [k.same.dwt]; simp [hb1, hp2]
      have e4 : s2.palmTrk t2 = (t2, false) := by unfold Pad.palmTrk; rw [k.same.trk]; simp [hb2, hp2]
      have e5 : s2.palmTool t2 = (t2, false) := by
        unfold Pad.palmTool
        rw [hc2]
        split
        · rfl
        · next hx =>
          have : ¬ v.toolPalm = true := fun hy => hl (.inr (.inr ⟨by simpa using hx, hy⟩))
          simp [hp2, k.tool, this]
      have e6 : s2.palmSize t2 = (t2, false) := by
        unfold Pad.palmSize
        rw [hc2]
        split
        · rfl
        · next z hz =>
          have : ¬ (z < t2.touchMajor ∨ z < t2.touchMinor) := by rw [k.major, k.minor]; exact fun hx => hl (.inr (.inl ⟨z, hz, hx⟩))
          rw [if_neg (by simp [hp2]), if_neg this]
      have e7 : s2.palmEdge t2 v T = (t2, false) := by
        have hzz : s2.cfg.inPalmEdge t2.pos = false := by
          cases e : s2.cfg.inPalmEdge t2.pos with
          | false => rfl
          | true => rw [hc2, k.pos] at e; exact absurd ((zone_iff _ _).1 e) hz
        unfold Pad.palmEdge
        simp [hp2, hzz]
      rw [palmDetect_plain s2 t2 v T (k.same.arb.trans ha) e1 e3 e4 e5 e6, e7]
      simp only [Bool.false_eq_true, if_false, e1]
      exact hp2
  have main := (run_inv (fun p => p.palm = .none) (fun s => s.arb = false) rest (step s (.frame T vs g hov)).1 i w (numbered_shape (shape_step s _) hn) w1 hw
    (arb_step s _ ha (by intro _ _ _ h; cases h)) hr1 (fun op hop s0 h0 => arb_step s0 op h0 (by intro _ _ _ h; subst h; exact hr1 _ hop)) (by
      intro now vs' g' hov' hop v' hv' _ s0 t0 s2 t2 b0 b1 b2 a1 a2 a3
      obtain ⟨v2, e1, e2⟩ := hr1 _ hop
      rw [hv'] at e1
      cases e1
      have hcfg : s2.cfg = c := by rw [a3.same.cfg, b1, (shape_step s _).cfg, hcs]
      have hp2 : t2.palm = .none := (congrArg PCore.palm a2).trans a1
      have hp := hr2 now vs' g' hov' v' hop hv'
      show (s2.palmDetect t2 v' now).pcore.palm = .none
      rw [plain_update s2 t2 v' now (a3.same.arb.trans b0) hp2 (a3.st.trans e2) a3.pressure a3.major a3.minor a3.tool (by rw [hcfg]; exact hp)]
      exact hp2)).1
  obtain ⟨u, u1, u2⟩ := main
  exact ⟨u, u1.get, u2⟩

example : ∃ u, (run (demo .twoFinger) (demoFrame 1000 [at_ .begin 300 400] ::
    [.pair 0, .key 1500 0 30 true, demoFrame 2000 [at_ .update 20 300], demoFrame 3000 [at_ .update 20 200, at_ .begin 400 400]])).1.touches[0]? = some u ∧ u.palm = .none :=
  finger_is_no_palm demoConfig 5 .twoFinger true false [] _ rfl rfl rfl rfl 1000 _ _ _ 0 _ _ rfl (.inl rfl) rfl rfl (by decide) (by rintro (⟨p, h1, h2⟩ | ⟨z, h1, h2⟩ | ⟨h1, h2⟩) <;> simp_all [demoConfig, at_]; omega)
    _ (by
      intro op h
      simp only [List.mem_cons, List.not_mem_nil, or_false] at h
      rcases h with rfl | rfl | rfl | rfl <;> first | trivial | exact ⟨_, rfl, rfl⟩)
    (by
      intro now vs g hov v h hv
      simp only [List.mem_cons, List.not_mem_nil, or_false, demoFrame, Op.frame.injEq] at h
      rcases h with h | h | ⟨rfl, rfl, rfl, rfl⟩ | ⟨rfl, rfl, rfl, rfl⟩
      · cases h
      · cases h
      all_goals
        simp at hv
        subst hv
        rintro (⟨p, h1, h2⟩ | ⟨z, h1, h2⟩ | ⟨h1, h2⟩) <;> simp_all [demoConfig, at_]
        omega)

/-! ### Palms that become fingers -/

/-- A touch at the edge that was taken for a palm becomes a finger when, within 200 ms, it leaves the zone moving away from the
edge; unless it is heavy, or a pen is near. -/
theorem edge_palm_released (c : Config) (n : Nat) (m : Method) (dwt areas : Bool) (ops : List Op) (s : Pad) (es : s = (run (init c n m dwt areas) ops).1)
    (ha : s.arb = false) (now : Nat) (vs : List View) (g : Frame) (hov : Nat → Bool) (i : Nat) (t : Finger) (v : View)
    (ht : s.touches[i]? = some t) (hp : t.palm = .edge) (hin : t.st ≠ .none) (hv : vs[i]? = some v) (hs : v.st = .update) (hd : v.dirty = true) (hl : ¬ PalmLike c v)
    (hz : now < t.palmTime + 200000 ∧ ¬ PalmZone c v.raw ∧ Leaves c t.palmFirst v.palmDirs) :
    ∃ u, (step s (.frame now vs g hov)).1.touches[i]? = some u ∧ u.palm = .none := by
  have hn : Numbered s := by rw [es]; exact numbered_run ops c n m dwt areas
  have hcs : s.cfg = c := by rw [es, (shape_run ops _).cfg]; rfl
  obtain ⟨w, w1, w2, w3, _⟩ := frame_seen s vs g hov now i t v hn ht hv (.inr hs)
  obtain ⟨s2, t2, k, k2⟩ := w2 hd
  refine ⟨w, w1.get, ?_⟩
  have tk := k.pcore.trans (take_update t v now hs hin).1
  have hp2 : t2.palm = .edge := (congrArg PCore.palm tk).trans hp
  have hc2 : s2.cfg = c := k.same.cfg.trans hcs
  have hst : t2.st = .update := k.st.trans hs
  have e1 := palmPressure_other s2 t2 (by rw [hp2]; simp) (by rw [hp2]; simp)
  have e3 : s2.palmDwt t2 = (t2, false) := by unfold Pad.palmDwt; simp [hst, hp2]
  have e4 : s2.palmTrk t2 = (t2, false) := by unfold Pad.palmTrk; simp [hst, hp2]
  have e5 : s2.palmTool t2 = (t2, false) := by unfold Pad.palmTool; simp [hp2]
  have e6 : s2.palmSize t2 = (t2, false) := by
    unfold Pad.palmSize
    split
    · rfl
    · simp [hp2]
  have e7 : s2.palmEdge t2 v now = ({ t2 with palm := .none }, false) := by
    have hm : s2.palmMovedOut t2 v.palmDirs now = true := by
      have g2 : t2.palmTime = t.palmTime := congrArg PCore.palmTime tk
      have g3 : t2.palmFirst = t.palmFirst := congrArg PCore.palmFirst tk
      rw [movedOut_iff, hc2, k.pos, g2, g3]
      exact hz
    unfold Pad.palmEdge
    simp [hp2, hm]
  have e8 : s2.palmPressure { t2 with palm := .none } = ({ t2 with palm := .none }, false) :=
    palmPressure_light s2 _ rfl (fun p hc hx => hl (.inl ⟨p, hc2 ▸ hc, k.pressure ▸ hx⟩))
  have e : w.pcore = ({ t2 with palm := .none } : Finger).pcore := by
    rw [k2, palmDetect_plain s2 t2 v now (k.same.arb.trans ha) e1 e3 e4 e5 e6, e7]
    simp only [Bool.false_eq_true, if_false, e8]
  exact congrArg PCore.palm e

/-- A finger that comes in from the left edge within 200 ms. -/
example : ∃ u, (step (run (demo .twoFinger) [demoFrame 1000 [at_ .begin 20 400]]).1 (demoFrame 2000 [{ at_ .update 120 400 with palmDirs := 4 }])).1.touches[0]? = some u ∧ u.palm = .none :=
  edge_palm_released demoConfig 5 .twoFinger true false [demoFrame 1000 [at_ .begin 20 400]] _ rfl (by decide +kernel) 2000 _ _ _ 0
    ((run (demo .twoFinger) [demoFrame 1000 [at_ .begin 20 400]]).1.touches[0]'(by decide +kernel)) _ (by exact List.getElem?_eq_getElem _) (by decide +kernel) (by decide +kernel) rfl rfl rfl
    (by rintro (⟨p, h1, h2⟩ | ⟨z, h1, h2⟩ | ⟨h1, h2⟩) <;> simp_all [demoConfig, at_]; omega)
    ⟨by decide +kernel, by decide, ⟨⟨2, by decide, by decide⟩, by
      intro d hd hb
      have : d = 2 := by
        have k : ∀ d : Fin 8, Nat.testBit 4 d.val = true → d.val = 2 := by decide
        exact k ⟨d, hd⟩ hb
      subst this
      rw [if_pos (by decide +kernel)]
      decide⟩⟩

/-- The same if there is another finger that counts. -/
theorem edge_palm_released_by_another (s : Pad) (t : Finger) (v : View) (now : Nat) (hp : t.palm = .edge) (hst : t.st = .update) (ha : s.arb = false)
    (h : ¬ ∃ p, s.cfg.palmPressure = some p ∧ p < t.pressure) (h2 : 2 ≤ s.fingers)
    (o : Finger) (ho : o ∈ s.touches) (hi : o.index ≠ t.index) (hact : s.touchActive o = true) : (s.palmDetect t v now).palm = .none := by
  have e1 := palmPressure_other s t (by rw [hp]; simp) (by rw [hp]; simp)
  have e3 : s.palmDwt t = (t, false) := by unfold Pad.palmDwt; simp [hst, hp]
  have e4 : s.palmTrk t = (t, false) := by unfold Pad.palmTrk; simp [hst, hp]
  have e5 : s.palmTool t = (t, false) := by unfold Pad.palmTool; simp [hp]
  have e6 : s.palmSize t = (t, false) := by
    unfold Pad.palmSize
    split
    · rfl
    · simp [hp]
  have e7 : s.palmEdge t v now = ({ t with palm := .none }, false) := by
    have hm : s.palmMulti t = true := by
      unfold Pad.palmMulti
      have hpn : o.palm = .none := by
        unfold Pad.touchActive at hact
        simp only [Bool.and_eq_true, beq_iff_eq] at hact
        exact hact.1.1.1.1.2
      simp only [Bool.and_eq_true, decide_eq_true_eq, List.any_eq_true]
      exact ⟨h2, o, ho, by simp [hi, hact, hpn]⟩
    unfold Pad.palmEdge
    simp [hp, hm]
  have e8 : s.palmPressure { t with palm := .none } = ({ t with palm := .none }, false) := palmPressure_light s _ rfl (fun p hc hx => h ⟨p, hc, hx⟩)
  rw [palmDetect_plain s t v now ha e1 e3 e4 e5 e6, e7]
  simp only [Bool.false_eq_true, if_false, e8]

/-- A touch the device itself reports as a palm is ignored as long as it does. -/
theorem tool_palm_ignored (c : Config) (n : Nat) (m : Method) (dwt areas : Bool) (ops : List Op) (s : Pad) (es : s = (run (init c n m dwt areas) ops).1)
    (hc : c.palmTool = true) (hb1 : s.dwt.active = false) (hb2 : s.trk.active = false) (T : Nat) (vs : List View) (g : Frame) (hov : Nat → Bool) (i : Nat) (t : Finger) (v : View)
    (ht : s.touches[i]? = some t) (hnew : t.palm = .none ∨ t.st = .none) (hv : vs[i]? = some v) (hs : v.st = .begin ∨ v.st = .update) (hd : v.dirty = true)
    (htool : v.toolPalm = true) (rest : List Op) (hr1 : ∀ op ∈ rest, StaysDown i op)
    (hr2 : ∀ now vs' g' hov' v', .frame now vs' g' hov' ∈ rest → vs'[i]? = some v' → v'.toolPalm = true) :
    ∀ o ∈ (run s (.frame T vs g hov :: rest)).2, ¬ o.by i := by
  have hn : Numbered s := by rw [es]; exact numbered_run ops c n m dwt areas
  have hcs : s.cfg = c := by rw [es, (shape_run ops _).cfg]; rfl
  obtain ⟨w, w1, w2, _, w4⟩ := frame_seen s vs g hov T i t v hn ht hv hs
  obtain ⟨s2, t2, k, k2⟩ := w2 hd
  let I : PCore → Prop := fun p => Stuck p ∨ p.palm = .tool
  have hI : ∀ p, I p → p.palm ≠ .none := by
    rintro p (h | h)
    · exact h.palm
    · rw [h]; simp
  have hw : I w.pcore := by
    rw [k2]
    have hp2 : t2.palm = .none := (congrArg PCore.palm k.pcore).trans (take_palm_none t v T hnew)
    by_cases e1f : (s2.palmPressure t2).2 = true
    · unfold Pad.palmDetect
      simp only [e1f, if_true]
      exact .inl (.inl (palmPressure_flag s2 t2 e1f))
    · have e1 : s2.palmPressure t2 = (t2, false) := by
        rcases palmPressure_cases s2 t2 with e | e
        · exact e
        · exfalso
          apply e1f
          unfold Pad.palmPressure at e ⊢
          split at e
          · rw [hp2] at e; cases e
          · split at e <;> rename_i hx
            · rw [hp2] at e; cases e
            · rw [if_neg hx]
              simpa using e
      by_cases ha : s2.arb = true
      · have e2 : s2.palmArb t2 = ({ t2 with palm := .arbitration }, true) := by unfold Pad.palmArb; rw [ha]; rfl
        unfold Pad.palmDetect
        simp only [e1, e2, Bool.false_eq_true, if_false, if_true]
        exact .inl (.inr (.inr rfl))
      · have e2 : s2.palmArb t2 = (t2, false) := by unfold Pad.palmArb; rw [if_neg ha]
        have e3 : s2.palmDwt t2 = (t2, false) := by unfold Pad.palmDwt; rw [k.same.dwt]; simp [hb1, hp2]
        have e4 : s2.palmTrk t2 = (t2, false) := by unfold Pad.palmTrk; rw [k.same.trk]; simp [hb2, hp2]
        have e5 : s2.palmTool t2 = ({ t2 with palm := .tool }, true) := by
          unfold Pad.palmTool
          rw [k.same.cfg, hcs]
          simp [hc, hp2, k.tool, htool]
        unfold Pad.palmDetect
        simp only [e1, e2, e3, e4, e5, Bool.false_eq_true, if_false, if_true]
        exact .inr rfl
  have main := (run_inv I (fun _ => True) rest (step s (.frame T vs g hov)).1 i w (numbered_shape (shape_step s _) hn) w1 hw trivial hr1 (fun _ _ _ _ => trivial) (by
    intro now vs' g' hov' hop v' hv' _ s0 t0 s2 t2 _ b1 b2 a1 a2 a3
    obtain ⟨v2, e1, e2⟩ := hr1 _ hop
    rw [hv'] at e1
    cases e1
    have hst : t2.st = .update := a3.st.trans e2
    have hcfg : s2.cfg = c := by rw [a3.same.cfg, b1, (shape_step s _).cfg, hcs]
    rw [← a2] at a1
    rcases a1 with a1 | hp2
    · exact .inl (stuck_update s2 t2 v' now hst a1)
    · have hp2 : t2.palm = .tool := hp2
      have f1 := palmPressure_other s2 t2 (by rw [hp2]; simp) (by rw [hp2]; simp)
      by_cases ha : s2.arb = true
      · have f2 : s2.palmArb t2 = ({ t2 with palm := .arbitration }, true) := by unfold Pad.palmArb; rw [ha]; rfl
        unfold Pad.palmDetect
        simp only [f1, f2, Bool.false_eq_true, if_false, if_true]
        exact .inl (.inr (.inr rfl))
      · have f2 : s2.palmArb t2 = (t2, false) := by unfold Pad.palmArb; rw [if_neg ha]
        have f3 : s2.palmDwt t2 = (t2, false) := by unfold Pad.palmDwt; simp [hst, hp2]
        have f4 : s2.palmTrk t2 = (t2, false) := by unfold Pad.palmTrk; simp [hst, hp2]
        have f5 : s2.palmTool t2 = (t2, true) := by
          unfold Pad.palmTool
          rw [hcfg]
          simp [hc, hp2, a3.tool, hr2 now vs' g' hov' v' hop hv']
        unfold Pad.palmDetect
        simp only [f1, f2, f3, f4, f5, Bool.false_eq_true, if_false, if_true]
        exact .inr hp2)).2 hI
  intro o ho
  simp only [run, List.mem_append] at ho
  rcases ho with ho | ho
  · exact w4 (hI _ hw) o ho
  · exact main o ho

/-- A touchpad that reports palms itself, and has a threshold for the size. -/
def demoToolPad : Config := { demoConfig with palmTool := true, palmSize := some 50 }

example : (∀ o ∈ (run (init demoToolPad 5 .twoFinger true false) (demoFrame 1000 [{ at_ .begin 300 400 with toolPalm := true }] ::
      [demoFrame 2000 [{ at_ .update 300 300 with toolPalm := true }], demoFrame 3000 [{ at_ .update 300 200 with toolPalm := true }]])).2, ¬ o.by 0) ∧
    (∀ o ∈ (run (init demoToolPad 5 .twoFinger true false) (demoFrame 1000 [{ at_ .begin 300 400 with touchMinor := 51 }] ::
      [demoFrame 2000 [at_ .update 300 300], demoFrame 3000 [at_ .update 300 200]])).2, ¬ o.by 0) ∧
    ∃ o ∈ (run (init demoToolPad 5 .twoFinger true false) [demoFrame 1000 [at_ .begin 300 400], demoFrame 2000 [at_ .update 300 300], demoFrame 3000 [at_ .update 300 200]]).2, o.by 0 := by
  refine ⟨?_, ?_, by decide +kernel⟩
  · refine tool_palm_ignored demoToolPad 5 .twoFinger true false [] _ rfl rfl rfl rfl 1000 _ _ _ 0 _ _ rfl (.inl rfl) rfl (.inl rfl) rfl rfl _ ?_ ?_
    · intro op h
      simp only [List.mem_cons, List.not_mem_nil, or_false] at h
      rcases h with rfl | rfl <;> exact ⟨_, rfl, rfl⟩
    · intro now vs g hov v h hv
      simp only [List.mem_cons, List.not_mem_nil, or_false, demoFrame, Op.frame.injEq] at h
      rcases h with ⟨rfl, rfl, rfl, rfl⟩ | ⟨rfl, rfl, rfl, rfl⟩
      all_goals
        simp at hv
        subst hv
        rfl
  · refine big_touch_ignored demoToolPad 5 .twoFinger true false [] _ rfl 50 rfl 1000 _ _ _ 0 _ _ rfl (.inl rfl) rfl (.inr ⟨rfl, rfl, rfl⟩) rfl (.inr rfl) (.inr (by decide)) _ ?_
    intro op h
    simp only [List.mem_cons, List.not_mem_nil, or_false] at h
    rcases h with rfl | rfl <;> exact ⟨_, rfl, rfl⟩

end Libinput.Motion
