/-
What a frame does with each touch, and what holds after every history.
-/
import Verif.Follow.Touches
namespace Libinput.Follow
open Spec

theorem fixLast_fields (t : Touch) (j n time : Nat) (k : Nat) :
    (fixLast t j n time k).st = t.st ∧ (fixLast t j n time k).dirty = t.dirty ∧ (fixLast t j n time k).point = t.point ∧
    (fixLast t j n time k).index = t.index ∧ (fixLast t j n time k).count = t.count ∧ (fixLast t j n time k).again = t.again ∧
    (fixLast t j n time k).lastMm = t.lastMm ∧ (fixLast t j n time k).xmoves = t.xmoves ∧
    (fixLast t j n time k).pinned = t.pinned ∧ (fixLast t j n time k).pinCenter = t.pinCenter ∧
    (fixLast t j n time k).fast = t.fast ∧ ∀ i, ((fixLast t j n time k).samples i).point = (t.samples i).point := by
  induction k with
  | zero => exact ⟨rfl, rfl, rfl, rfl, rfl, rfl, rfl, rfl, rfl, rfl, rfl, fun _ => rfl⟩
  | succ k ih =>
    obtain ⟨h1, h2, h3, h4, h5, h6, h7, h8, h9, h10, h11, h12⟩ := ih
    refine ⟨h1, h2, h3, h4, h5, h6, h7, h8, h9, h10, h11, fun i => ?_⟩
    simp only [fixLast]
    split
    · exact h12 i
    · exact h12 i

/-- Whether a touch is dirty. -/
def View.dirty (v : View) : Bool := v.x.isSome || v.y.isSome || v.other || v.fresh || v.st == .begin || v.st == .end_

theorem before_spec (c : Config) (p : Pad) (f : Frame) (fix : Option (Nat × Nat)) (t : Touch) (v : View) :
    let r := before c p f fix t v
    r.st = v.st ∧ r.dirty = v.dirty ∧ r.index = t.index ∧ r.count = (if v.fresh || v.landed then 0 else t.count) ∧
    (r.past 0).point = (t.past 0).point ∧ (fix = none → r.samples = t.samples) ∧
    r.pinned = (t.pinned && !v.fresh && !(v.st == .end_)) ∧ r.pinCenter = t.pinCenter ∧ r.again = t.again ∧ r.lastMm = t.lastMm ∧
    r.xmoves = (if v.fresh then 0 else t.xmoves) ∧ r.fast ≤ t.fast ∧ (v.st ≠ .end_ → r.point = seen c p t.point v) ∧
    (v.st = .end_ → v.fresh = false → v.landed = false → 1 ≤ t.count → r.point = (t.past 0).point) := by
  intro r
  have hr : r = before c p f fix t v := rfl
  -- the touch after the events
  obtain ⟨a, ha⟩ : ∃ a, arrive c p t v = a := ⟨_, rfl⟩
  have h1 : a.st = t.st ∧ a.dirty = v.dirty ∧ a.index = t.index ∧ a.samples = t.samples ∧ a.count = (if v.fresh then 0 else t.count) ∧
      a.pinned = (t.pinned && !v.fresh) ∧ a.pinCenter = t.pinCenter ∧ a.again = t.again ∧ a.lastMm = t.lastMm ∧
      a.xmoves = (if v.fresh then 0 else t.xmoves) ∧ a.fast ≤ t.fast ∧ a.point = seen c p t.point v := by
    rw [← ha]
    cases hf : v.fresh <;> simp [arrive, hf, reset, View.dirty]
  obtain ⟨a1, a2, a3, a4, a5, a6, a7, a8, a9, a10, a11, a12⟩ := h1
  -- the touch with its times fixed
  obtain ⟨b, hb⟩ : ∃ b : Touch, fixTouch f fix a v = b := ⟨_, rfl⟩
  have h2 : b.dirty = a.dirty ∧ b.index = a.index ∧ (fix = none → b.samples = a.samples) ∧
      (∀ i, (b.samples i).point = (a.samples i).point) ∧ b.count = a.count ∧ b.pinned = a.pinned ∧ b.pinCenter = a.pinCenter ∧
      b.again = a.again ∧ b.lastMm = a.lastMm ∧ b.xmoves = a.xmoves ∧ b.fast = a.fast ∧ b.point = a.point := by
    rw [← hb]
    cases fix with
    | none => exact ⟨rfl, rfl, fun _ => rfl, fun _ => rfl, rfl, rfl, rfl, rfl, rfl, rfl, rfl, rfl⟩
    | some jn =>
      simp only [fixTouch]
      split
      · have := fixLast_fields a jn.1 jn.2 f.time a.count
        obtain ⟨h1, h2, h3, h4, h5, h6, h7, h8, h9, h10, h11, h12⟩ := this
        exact ⟨h2, h4, fun h => absurd h (by simp), h12, h5, h9, h10, h6, h7, h8, h11, h3⟩
      · exact ⟨rfl, rfl, fun _ => rfl, fun _ => rfl, rfl, rfl, rfl, rfl, rfl, rfl, rfl, rfl⟩
  obtain ⟨b1, b2, b3, b4, b5, b6, b7, b8, b9, b10, b11, b12⟩ := h2
  have hpast : (b.past 0).point = (t.past 0).point := by
    simp only [Touch.past, Touch.pos, b2, a3]
    rw [b4, a4]
  obtain ⟨d, hd⟩ : ∃ d : Touch, (if v.landed then reset { b with st := v.st } else { b with st := v.st }) = d := ⟨_, rfl⟩
  have hd2 : d.st = v.st ∧ d.dirty = b.dirty ∧ d.index = b.index ∧ d.samples = b.samples ∧
      d.count = (if v.landed then 0 else b.count) ∧ d.pinned = b.pinned ∧ d.pinCenter = b.pinCenter ∧ d.again = b.again ∧
      d.lastMm = b.lastMm ∧ d.xmoves = b.xmoves ∧ d.fast = b.fast ∧ d.point = b.point := by
    rw [← hd]
    cases hl : v.landed <;> simp [reset]
  obtain ⟨d1, d2, d3, d4, d5, d6, d7, d8, d9, d10, d11, d12⟩ := hd2
  have hcount : d.count = (if v.fresh || v.landed then 0 else t.count) := by
    rw [d5, b5, a5]
    cases v.fresh <;> cases v.landed <;> simp
  have hdp : (d.past 0).point = (t.past 0).point := by
    rw [← hpast, past_congr d4 d3]
  have hr2 : r = (let e : Touch := if v.st = .begin then { d with fast := 0 } else d
      let e : Touch := if v.st = .end_ then { e with fast := 0, pinned := false } else e
      if v.st = .end_ ∧ e.count > 0 then { e with point := (e.past 0).point } else e) := by
    rw [hr, ← hd, ← hb, ← ha]; rfl
  rw [hr2]
  have hpe : d.pinned = (t.pinned && !v.fresh) := by rw [d6, b6, a6]
  have hfast : d.fast ≤ t.fast := by rw [d11, b11]; exact a11
  by_cases h1 : v.st = .begin
  · simp only [h1, if_true, reduceCtorEq, if_false, false_and]
    refine ⟨?_, d2.trans (b1.trans a2), d3.trans (b2.trans a3), hcount, hdp, fun h => d4.trans ((b3 h).trans a4), ?_,
      d7.trans (b7.trans a7), d8.trans (b8.trans a8), d9.trans (b9.trans a9), d10.trans (b10.trans a10), Nat.zero_le _,
      fun _ => d12.trans (b12.trans a12), fun h => absurd h (by simp)⟩
    · rw [← h1]; exact d1
    · rw [hpe]; simp
  · by_cases h2 : v.st = .end_
    · simp only [h2, reduceCtorEq, if_true, if_false, true_and]
      by_cases h3 : d.count > 0
      · simp only [h3, if_true]
        refine ⟨?_, d2.trans (b1.trans a2), d3.trans (b2.trans a3), hcount, hdp, fun h => d4.trans ((b3 h).trans a4), ?_,
          d7.trans (b7.trans a7), d8.trans (b8.trans a8), d9.trans (b9.trans a9), d10.trans (b10.trans a10), Nat.zero_le _,
          fun h => absurd rfl h, fun _ _ _ _ => hdp⟩
        · rw [← h2]; exact d1
        · simp
      · simp only [h3, if_false]
        refine ⟨?_, d2.trans (b1.trans a2), d3.trans (b2.trans a3), hcount, hdp, fun h => d4.trans ((b3 h).trans a4), ?_,
          d7.trans (b7.trans a7), d8.trans (b8.trans a8), d9.trans (b9.trans a9), d10.trans (b10.trans a10), Nat.zero_le _,
          fun h => absurd rfl h, fun _ hf hl hc => ?_⟩
        · rw [← h2]; exact d1
        · simp
        · rw [hcount, hf, hl] at h3
          exact absurd hc h3
    · simp only [h1, h2, if_false, false_and]
      refine ⟨d1, d2.trans (b1.trans a2), d3.trans (b2.trans a3), hcount, hdp, fun h => d4.trans ((b3 h).trans a4), ?_,
        d7.trans (b7.trans a7), d8.trans (b8.trans a8), d9.trans (b9.trans a9), d10.trans (b10.trans a10), hfast,
        fun _ => d12.trans (b12.trans a12), fun h => h.elim⟩
      · rw [hpe]; simp [h2]

/-! ### The pad -/

/-- What the loop leaves of the pad. -/
structure Later (p q : Pad) : Prop where
  fingers : q.fingers = p.fingers
  idle : q.idle = p.idle
  rotate : q.rotate = p.rotate
  want : q.wantRotate = p.wantRotate
  msc : q.msc = p.msc
  interval : q.interval = p.interval
  jitter : p.jitter = true → q.jitter = true

theorem Later.rfl' (p : Pad) : Later p p := ⟨rfl, rfl, rfl, rfl, rfl, rfl, id⟩
theorem Later.trans {p q r : Pad} (h : Later p q) (k : Later q r) : Later p r :=
  ⟨k.fingers.trans h.fingers, k.idle.trans h.idle, k.rotate.trans h.rotate, k.want.trans h.want, k.msc.trans h.msc,
   k.interval.trans h.interval, fun x => k.jitter (h.jitter x)⟩

theorem wobbling_later (p : Pad) (t : Touch) (n : Nat) (m : Bool) (time : Nat) : Later p (wobbling p t n m time).1 := by
  simp only [wobbling]
  repeat' split
  all_goals first | exact Later.rfl' p | exact ⟨rfl, rfl, rfl, rfl, rfl, rfl, id⟩ | skip
  refine ⟨rfl, rfl, rfl, rfl, rfl, rfl, fun h => ?_⟩
  simp [h]

theorem process_later (c : Config) (f : Frame) (want motion : Bool) (p : Pad) (t : Touch) :
    Later p (process c f want motion p t).1 := by
  by_cases h : t.st = .none
  · rw [process_none c f want motion p t h]; exact Later.rfl' p
  · rw [process_eq c f want motion p t h]
    split
    · exact Later.rfl' p
    · exact wobbling_later p _ _ _ _

theorem processAll_later (c : Config) (f : Frame) (want motion : Bool) (ts : List Touch) :
    ∀ p, Later p (processAll c f want motion p ts).1 := by
  induction ts with
  | nil => exact Later.rfl'
  | cons t ts ih => exact fun p => (process_later c f want motion p t).trans (ih _)

theorem processAll_length (c : Config) (f : Frame) (want motion : Bool) (ts : List Touch) :
    ∀ p, (processAll c f want motion p ts).2.length = ts.length := by
  induction ts with
  | nil => exact fun _ => rfl
  | cons t ts ih => exact fun p => congrArg (· + 1) (ih _)

/-- Each touch is processed, with some pad in between. -/
theorem processAll_get (c : Config) (f : Frame) (want motion : Bool) (ts : List Touch) :
    ∀ (p : Pad) (i : Nat) (t : Touch), ts[i]? = some t → ∃ q, Later p q ∧ (processAll c f want motion p ts).2[i]? = some (process c f want motion q t).2 ∧
      Later (process c f want motion q t).1 (processAll c f want motion p ts).1 := by
  induction ts with
  | nil => intro p i t h; simp at h
  | cons u ts ih =>
    intro p i t h
    cases i with
    | zero =>
      have : u = t := by simpa using h
      subst this
      exact ⟨p, Later.rfl' p, rfl, processAll_later c f want motion ts _⟩
    | succ i =>
      obtain ⟨q, h1, h2, h3⟩ := ih (process c f want motion p u).1 i t (by simpa using h)
      exact ⟨q, (process_later c f want motion p u).trans h1, by simpa [processAll] using h2, h3⟩

/-- The pad when the touches are processed. -/
def padOf (c : Config) (s : State) (f : Frame) : Pad :=
  let m := mscFrame s.pad f
  let p := { m.1 with lastMotion := if f.begins then f.time else m.1.lastMotion }
  { p with idle := (needReset c p f).2.2 }

/-- Whether the history is forgotten. -/
def wants (c : Config) (s : State) (f : Frame) : Bool :=
  (needReset c { (mscFrame s.pad f).1 with
    lastMotion := if f.begins then f.time else (mscFrame s.pad f).1.lastMotion } f).1

def motionOf (c : Config) (s : State) (f : Frame) : Bool :=
  (needReset c { (mscFrame s.pad f).1 with
    lastMotion := if f.begins then f.time else (mscFrame s.pad f).1.lastMotion } f).2.1

theorem mscFrame_pad (p : Pad) (f : Frame) :
    (mscFrame p f).1.jitter = p.jitter ∧ (mscFrame p f).1.fingers = p.fingers ∧ (mscFrame p f).1.idle = p.idle ∧
    (mscFrame p f).1.rotate = p.rotate ∧ (mscFrame p f).1.wantRotate = p.wantRotate ∧
    (mscFrame p f).1.lastMotion = p.lastMotion := by
  simp only [mscFrame]
  split
  · simp only [mscStep]
    split
    · simp
    · split
      · split <;> simp
      · split <;> simp
      · simp
  · simp

/-- What the touch of a frame is before the loop. -/
def bef (c : Config) (s : State) (f : Frame) (t : Touch) (v : View) : Touch :=
  before c (mscFrame s.pad f).1 f ((mscFrame s.pad f).2.map (fun j => (j, (mscFrame s.pad f).1.interval))) t v

/-- The touch after the loop, perhaps pinned. -/
def pinIf (c : Config) (f : Frame) (t : Touch) : Touch := if f.press && c.clickpad then pin t else t

theorem frame_get (c : Config) (s : State) (f : Frame) (i : Nat) (t : Touch) (v : View) (ht : s.touches[i]? = some t)
    (hv : f.views[i]? = some v) :
    ∃ q, Later (padOf c s f) q ∧ Later (process c f (wants c s f) (motionOf c s f) q (bef c s f t v)).1
        (processAll c f (wants c s f) (motionOf c s f) (padOf c s f)
          ((s.touches.zip f.views).map (fun tv => bef c s f tv.1 tv.2))).1 ∧
      (frame c s f).1.touches[i]? = some (after (pinIf c f (process c f (wants c s f) (motionOf c s f) q (bef c s f t v)).2)) ∧
      (frame c s f).2.1[i]? = some (moves (pinIf c f (process c f (wants c s f) (motionOf c s f) q (bef c s f t v)).2)) := by
  have hz : ((s.touches.zip f.views).map (fun tv => bef c s f tv.1 tv.2))[i]? = some (bef c s f t v) := by
    rw [List.getElem?_map, List.getElem?_zip_eq_some (z := (t, v)) |>.2 ⟨ht, hv⟩]; rfl
  obtain ⟨q, h1, h2, h3⟩ := processAll_get c f (wants c s f) (motionOf c s f) _ (padOf c s f) i _ hz
  refine ⟨q, h1, h3, ?_, ?_⟩
  · show (List.map after (if f.press && c.clickpad then (processAll c f (wants c s f) (motionOf c s f) (padOf c s f)
      ((s.touches.zip f.views).map (fun tv => bef c s f tv.1 tv.2))).2.map pin else (processAll c f (wants c s f) (motionOf c s f)
      (padOf c s f) ((s.touches.zip f.views).map (fun tv => bef c s f tv.1 tv.2))).2))[i]? = _
    simp only [pinIf]
    split <;> simp [h2]
  · show (List.map moves (if f.press && c.clickpad then (processAll c f (wants c s f) (motionOf c s f) (padOf c s f)
      ((s.touches.zip f.views).map (fun tv => bef c s f tv.1 tv.2))).2.map pin else (processAll c f (wants c s f) (motionOf c s f)
      (padOf c s f) ((s.touches.zip f.views).map (fun tv => bef c s f tv.1 tv.2))).2))[i]? = _
    simp only [pinIf]
    split <;> simp [h2]

theorem frame_pad (c : Config) (s : State) (f : Frame) :
    ∃ q, Later (padOf c s f) q ∧ (frame c s f).1.pad = applyRotation { q with fingers := f.fingers } ∧
      q = (processAll c f (wants c s f) (motionOf c s f) (padOf c s f)
          ((s.touches.zip f.views).map (fun tv => bef c s f tv.1 tv.2))).1 :=
  ⟨_, processAll_later c f _ _ _ _, rfl, rfl⟩

theorem frame_length (c : Config) (s : State) (f : Frame) :
    (frame c s f).1.touches.length = min s.touches.length f.views.length ∧
    (frame c s f).2.1.length = min s.touches.length f.views.length := by
  have h : (if f.press && c.clickpad then (processAll c f (wants c s f) (motionOf c s f) (padOf c s f)
      ((s.touches.zip f.views).map (fun tv => bef c s f tv.1 tv.2))).2.map pin else (processAll c f (wants c s f) (motionOf c s f)
      (padOf c s f) ((s.touches.zip f.views).map (fun tv => bef c s f tv.1 tv.2))).2).length =
      min s.touches.length f.views.length := by
    split <;> simp [processAll_length]
  exact ⟨(List.length_map _).trans h, (List.length_map _).trans h⟩

end Libinput.Follow
