/-
What the functions do with one touch.
-/
import Verif.Follow.Spec
namespace Libinput.Follow
open Spec

theorem Touch.pos_zero {t : Touch} (h : t.index < 4) : t.pos 0 = t.index := by
  simp only [Touch.pos, LEN]; omega

theorem push_past_zero (t : Touch) (time : Nat) : (push t time).past 0 = { time := time, point := t.point } := by
  have h : (push t time).index < 4 := by simp only [push, LEN]; omega
  rw [Touch.past, Touch.pos_zero h]; simp [push]

theorem push_past_one {t : Touch} (time : Nat) (h : t.index < 4) : (push t time).past 1 = t.past 0 := by
  have hp : (push t time).pos 1 = t.index := by simp only [Touch.pos, push, LEN]; omega
  have h1 : t.index ≠ (t.index + 1) % LEN := by simp only [LEN]; omega
  rw [Touch.past, hp, Touch.past, Touch.pos_zero h]
  show (if t.index = (t.index + 1) % LEN then _ else t.samples t.index) = t.samples t.index
  rw [if_neg h1]

theorem push_count (t : Touch) (time : Nat) : 1 ≤ (push t time).count ∧ ((push t time).count = 1 ∨ 1 ≤ t.count) := by
  simp only [push]
  have hL : LEN = 4 := rfl
  by_cases h : t.count < LEN
  · rw [if_pos h]; omega
  · rw [if_neg h]; omega

theorem push_count_le {t : Touch} (time : Nat) (h : t.count ≤ 4) : (push t time).count ≤ 4 := by
  simp only [push]
  have hL : LEN = 4 := rfl
  by_cases h : t.count < LEN
  · rw [if_pos h]; omega
  · rw [if_neg h]; omega

theorem push_count_one {t : Touch} (time : Nat) (h : t.count = 0) : (push t time).count = 1 := by
  simp [push, h, LEN]

theorem push_index (t : Touch) (time : Nat) : (push t time).index < 4 := by simp only [push, LEN]; omega

/-- What a pushed touch has moved. -/
theorem push_delta {t : Touch} (time : Nat) (h : t.index < 4) (hc : 1 ≤ t.count) (hc4 : t.count ≤ 4) :
    delta (push t time) = diff t.point (t.past 0).point := by
  have h2 : ¬ (push t time).count ≤ 1 := by
    simp only [push]
    have hL : LEN = 4 := rfl
    by_cases h : t.count < LEN
    · rw [if_pos h]; omega
    · rw [if_neg h]; omega
  rw [delta, if_neg h2, push_past_zero, push_past_one time h, diff]

theorem push_delta_zero {t : Touch} (time : Nat) (h : t.count = 0) : delta (push t time) = {} := by
  rw [delta, if_pos (by rw [push_count_one time h]; exact Nat.le_refl _)]

/-! ### The fields -/

theorem delta_congr {a b : Touch} (h1 : a.samples = b.samples) (h2 : a.index = b.index) (h3 : a.count = b.count) : delta a = delta b := by
  simp only [delta, Touch.past, Touch.pos, h1, h2, h3]

theorem past_congr {a b : Touch} (h1 : a.samples = b.samples) (h2 : a.index = b.index) (n : Nat) : a.past n = b.past n := by
  simp only [Touch.past, Touch.pos, h1, h2]

/-- What most of the functions leave alone. -/
structure Same (a b : Touch) : Prop where
  st : a.st = b.st
  dirty : a.dirty = b.dirty
  samples : a.samples = b.samples
  index : a.index = b.index

theorem Same.rfl' (a : Touch) : Same a a := ⟨rfl, rfl, rfl, rfl⟩
theorem Same.trans {a b d : Touch} (h : Same a b) (k : Same b d) : Same a d :=
  ⟨h.st.trans k.st, h.dirty.trans k.dirty, h.samples.trans k.samples, h.index.trans k.index⟩
theorem Same.past {a b : Touch} (h : Same a b) (n : Nat) : a.past n = b.past n := past_congr h.samples h.index n

theorem reset_same (t : Touch) : Same (reset t) t := ⟨rfl, rfl, rfl, rfl⟩

theorem jumps_same (c : Config) (t : Touch) (time : Nat) : Same (jumps c t time).1 t := by
  simp only [jumps]
  repeat' split
  all_goals exact ⟨rfl, rfl, rfl, rfl⟩

theorem jumps_fields (c : Config) (t : Touch) (time : Nat) :
    (jumps c t time).1.count = t.count ∧ (jumps c t time).1.again = t.again ∧ (jumps c t time).1.pinned = t.pinned ∧
    (jumps c t time).1.pinCenter = t.pinCenter ∧ (jumps c t time).1.xmoves = t.xmoves ∧ (jumps c t time).1.fast = t.fast ∧
    (jumps c t time).1.speed = t.speed ∧
    ((jumps c t time).2 = false → (jumps c t time).1.point = t.point) ∧ (c.alps = false → (jumps c t time).1.point = t.point) := by
  simp only [jumps]
  repeat' split
  all_goals simp_all

/-- What the code calls a jump is one. -/
theorem jumps_no {c : Config} {t : Touch} {time : Nat} (h : (jumps c t time).2 = false) (hoff : c.jumpsOff = false)
    (hw : c.wacom = false) (ht : c.test = false) (hcount : 1 ≤ t.count) (h0 : time - (t.past 0).time ≠ 0)
    (h1 : time - (t.past 0).time ≤ 30000) :
    c.mm t.point (t.past 0).point * (12000 : Nat) / ((time - (t.past 0).time : Nat) : Rat) ≤ 20 ∧
    c.mm t.point (t.past 0).point * (12000 : Nat) / ((time - (t.past 0).time : Nat) : Rat) - t.lastMm ≤ 7 ∧
    (jumps c t time).1.lastMm = c.mm t.point (t.past 0).point * (12000 : Nat) / ((time - (t.past 0).time : Nat) : Rat) := by
  revert h
  simp only [jumps, hoff, hw, ht, Bool.false_eq_true, if_false]
  rw [if_neg (by omega), if_neg (by omega)]
  split
  · intro h; exact absurd h (by simp)
  · intro h
    have h := of_decide_eq_false h
    refine ⟨Rat.not_lt.1 (fun hh => h (Or.inl hh)), Rat.not_lt.1 (fun hh => h (Or.inr hh)), rfl⟩

/-- A slow finger does not jump. -/
theorem jumps_slow {c : Config} {t : Touch} {time : Nat} (hl : 0 ≤ t.lastMm) (ha : c.alps = false) (ht : c.test = false)
    (h : c.mm t.point (t.past 0).point * (12000 : Nat) / ((time - (t.past 0).time : Nat) : Rat) ≤ 7) : (jumps c t time).2 = false := by
  simp only [jumps, ht, ha, Bool.false_eq_true, if_false, false_and]
  repeat' split
  all_goals first | rfl | skip
  apply decide_eq_false
  rintro (hh | hh) <;> grind

theorem wobbling_same (p : Pad) (t : Touch) (n : Nat) (m : Bool) (time : Nat) : Same (wobbling p t n m time).2 t := by
  simp only [wobbling]
  repeat' split
  all_goals exact ⟨rfl, rfl, rfl, rfl⟩

theorem wobbling_fields (p : Pad) (t : Touch) (n : Nat) (m : Bool) (time : Nat) :
    (wobbling p t n m time).2.count = t.count ∧ (wobbling p t n m time).2.again = t.again ∧
    (wobbling p t n m time).2.pinned = t.pinned ∧ (wobbling p t n m time).2.pinCenter = t.pinCenter ∧
    (wobbling p t n m time).2.fast = t.fast ∧ (wobbling p t n m time).2.speed = t.speed ∧
    (wobbling p t n m time).2.lastMm = t.lastMm ∧ (wobbling p t n m time).2.point = t.point ∧
    (wobbling p t n m time).2.center = t.center := by
  simp only [wobbling]
  repeat' split
  all_goals exact ⟨rfl, rfl, rfl, rfl, rfl, rfl, rfl, rfl, rfl⟩

theorem steady_same (c : Config) (p : Pad) (t : Touch) : Same (steady c p t) t := by
  simp only [steady]
  split <;> exact ⟨rfl, rfl, rfl, rfl⟩

theorem steady_fields (c : Config) (p : Pad) (t : Touch) :
    (steady c p t).count = t.count ∧ (steady c p t).again = t.again ∧ (steady c p t).pinned = t.pinned ∧
    (steady c p t).pinCenter = t.pinCenter ∧ (steady c p t).fast = t.fast ∧ (steady c p t).speed = t.speed ∧
    (steady c p t).lastMm = t.lastMm ∧ (steady c p t).xmoves = t.xmoves ∧ (p.jitter = false → (steady c p t).point = t.point) := by
  simp only [steady]
  split <;> simp_all

theorem countFast_same (t : Touch) : Same (countFast t) t := ⟨rfl, rfl, rfl, rfl⟩

theorem calcSpeed_same (c : Config) (t : Touch) (time : Nat) : Same (calcSpeed c t time) t := by
  simp only [calcSpeed]
  repeat' split
  all_goals exact ⟨rfl, rfl, rfl, rfl⟩

theorem calcSpeed_fields (c : Config) (t : Touch) (time : Nat) :
    (calcSpeed c t time).count = t.count ∧ (calcSpeed c t time).again = t.again ∧ (calcSpeed c t time).pinned = t.pinned ∧
    (calcSpeed c t time).pinCenter = t.pinCenter ∧ (calcSpeed c t time).fast = t.fast ∧ (calcSpeed c t time).lastMm = t.lastMm ∧
    (calcSpeed c t time).xmoves = t.xmoves ∧ (calcSpeed c t time).point = t.point := by
  simp only [calcSpeed]
  repeat' split
  all_goals exact ⟨rfl, rfl, rfl, rfl, rfl, rfl, rfl, rfl⟩

theorem unpin_same (c : Config) (t : Touch) : Same (unpin c t) t := by
  simp only [unpin]
  repeat' split
  all_goals exact ⟨rfl, rfl, rfl, rfl⟩

theorem unpin_fields (c : Config) (t : Touch) :
    (unpin c t).count = t.count ∧ (unpin c t).again = t.again ∧ (unpin c t).pinCenter = t.pinCenter ∧ (unpin c t).fast = t.fast ∧
    (unpin c t).lastMm = t.lastMm ∧ (unpin c t).xmoves = t.xmoves ∧ (unpin c t).point = t.point ∧
    (unpin c t).pinned = (t.pinned && !decide (c.mm t.point t.pinCenter ≥ 3 / 2)) := by
  simp only [unpin]
  repeat' split
  all_goals simp_all

/-! ### What processing does -/

/-- The touch after the resets. -/
def forget (want : Bool) (t : Touch) : Touch :=
  if want then { reset t with again := true } else if t.again then { reset t with again := false } else t

theorem forget_same (want : Bool) (t : Touch) : Same (forget want t) t := by
  simp only [forget]
  repeat' split
  all_goals exact ⟨rfl, rfl, rfl, rfl⟩

theorem forget_fields (want : Bool) (t : Touch) :
    (forget want t).point = t.point ∧ (forget want t).pinned = t.pinned ∧ (forget want t).pinCenter = t.pinCenter ∧
    (forget want t).xmoves = t.xmoves ∧ (forget want t).fast = t.fast ∧ (forget want t).lastMm = t.lastMm ∧
    (forget want t).again = want ∧ (forget want t).count ≤ t.count ∧
    (want = true ∨ t.again = true ∨ t.count = 0 → (forget want t).count = 0) ∧
    (want = false → t.again = false → forget want t = t) := by
  cases want <;> simp only [forget]
  · by_cases h : t.again = true
    · simp [h, reset]
    · simp [h]
  · simp [reset]

/-- The touch when it is pushed, if it is dirty. -/
def ready (c : Config) (p : Pad) (f : Frame) (motion : Bool) (t : Touch) : Pad × Touch :=
  let j := jumps c t f.time
  let w := wobbling p (if j.2 then reset j.1 else j.1) f.fingers motion f.time
  (w.1, steady c w.1 w.2)

theorem process_eq (c : Config) (f : Frame) (want motion : Bool) (p : Pad) (t : Touch) (h : t.st ≠ .none) :
    process c f want motion p t =
      if t.dirty = false then (p, push { forget want t with fast := (forget want t).fast - 1 } f.time)
      else ((ready c p f motion (forget want t)).1,
        unpin c (calcSpeed c (countFast (push (ready c p f motion (forget want t)).2 f.time)) f.time)) := by
  have hd : (forget want t).dirty = t.dirty := (forget_same want t).dirty
  rw [process, if_neg h]
  show (if (forget want t).dirty = false then _ else _) = _
  rw [hd]
  rfl

theorem process_none (c : Config) (f : Frame) (want motion : Bool) (p : Pad) (t : Touch) (h : t.st = .none) :
    process c f want motion p t = (p, t) := by rw [process, if_pos h]

theorem ready_same (c : Config) (p : Pad) (f : Frame) (motion : Bool) (t : Touch) : Same (ready c p f motion t).2 t := by
  refine (steady_same c _ _).trans ((wobbling_same p _ _ _ _).trans ?_)
  split
  · exact (reset_same _).trans (jumps_same c t f.time)
  · exact jumps_same c t f.time

theorem ready_fields (c : Config) (p : Pad) (f : Frame) (motion : Bool) (t : Touch) :
    (ready c p f motion t).2.again = t.again ∧ (ready c p f motion t).2.pinned = t.pinned ∧
    (ready c p f motion t).2.pinCenter = t.pinCenter ∧ (ready c p f motion t).2.fast = t.fast ∧
    (ready c p f motion t).2.lastMm = (jumps c t f.time).1.lastMm ∧
    (ready c p f motion t).2.count = (if (jumps c t f.time).2 then 0 else t.count) ∧
    ((ready c p f motion t).1.jitter = false → (ready c p f motion t).2.point = (jumps c t f.time).1.point) := by
  have hj := jumps_fields c t f.time
  obtain ⟨j, hjj⟩ : ∃ j, jumps c t f.time = j := ⟨_, rfl⟩
  have hw := wobbling_fields p (if j.2 then reset j.1 else j.1) f.fingers motion f.time
  have hs := steady_fields c (wobbling p (if j.2 then reset j.1 else j.1) f.fingers motion f.time).1
    (wobbling p (if j.2 then reset j.1 else j.1) f.fingers motion f.time).2
  simp only [ready]
  rw [hjj] at hj ⊢
  obtain ⟨s1, s2, s3, s4, s5, s6, s7, s8, s9⟩ := hs
  obtain ⟨w1, w2, w3, w4, w5, w6, w7, w8, w9⟩ := hw
  obtain ⟨j1, j2, j3, j4, j5, j6, j7, j8⟩ := hj
  refine ⟨?_, ?_, ?_, ?_, ?_, ?_, ?_⟩
  · rw [s2, w2]; split <;> exact j2
  · rw [s3, w3]; split <;> exact j3
  · rw [s4, w4]; split <;> exact j4
  · rw [s5, w5]; split <;> exact j6
  · rw [s7, w7]; split <;> rfl
  · rw [s1, w1]; split
    · rfl
    · exact j1
  · intro h
    rw [s9 h, w8]; split <;> rfl

/-- What a touch is after it was processed. -/
theorem process_spec (c : Config) (f : Frame) (want motion : Bool) (p : Pad) (t : Touch) (h : t.st ≠ .none) (hi : t.index < 4)
    (hc : t.count ≤ 4) :
    let r := (process c f want motion p t).2
    r.st = t.st ∧ r.dirty = t.dirty ∧ r.index < 4 ∧ 1 ≤ r.count ∧ r.count ≤ 4 ∧ r.past 0 = { time := f.time, point := r.point } ∧
    r.again = want ∧ r.pinCenter = t.pinCenter ∧
    r.pinned = (t.pinned && !(t.dirty && decide (c.mm r.point t.pinCenter ≥ 3 / 2))) ∧
    ((want = true ∨ t.again = true ∨ t.count = 0 ∨ (t.dirty = true ∧ (jumps c t f.time).2 = true)) → delta r = {}) ∧
    (want = false → t.again = false → 1 ≤ t.count → (t.dirty = true → (jumps c t f.time).2 = false) →
      delta r = diff r.point (t.past 0).point) ∧
    ((process c f want motion p t).1.jitter = false → (t.dirty = true → (jumps c (forget want t) f.time).1.point = t.point) →
      r.point = t.point) := by
  intro r
  have hr : r = (process c f want motion p t).2 := rfl
  have hf := forget_fields want t
  have hfs := forget_same want t
  obtain ⟨g, hg⟩ : ∃ g, forget want t = g := ⟨_, rfl⟩
  rw [process_eq c f want motion p t h] at hr ⊢
  rw [hg] at hf hfs hr ⊢
  obtain ⟨f1, f2, f3, f4, f5, f6, f7, f8, f9, f10⟩ := hf
  by_cases hd : t.dirty = false
  · rw [if_pos hd] at hr ⊢
    have hst : r.st = t.st := by rw [hr]; exact hfs.st
    have hdi : r.dirty = t.dirty := by rw [hr]; exact hfs.dirty
    have hpt : r.point = t.point := by rw [hr]; exact f1
    refine ⟨hst, hdi, by rw [hr]; exact push_index _ _, by rw [hr]; exact (push_count _ _).1, ?_, ?_, by rw [hr]; exact f7,
      by rw [hr]; exact f3, by rw [hr]; simpa [hd, push] using f2, ?_, ?_, fun _ _ => hpt⟩
    · rw [hr]; exact push_count_le _ (Nat.le_trans f8 hc)
    · rw [hr]; exact push_past_zero _ _
    · rintro (h1 | h1 | h1 | ⟨h1, _⟩)
      · rw [hr]; exact push_delta_zero _ (f9 (Or.inl h1))
      · rw [hr]; exact push_delta_zero _ (f9 (Or.inr (Or.inl h1)))
      · rw [hr]; exact push_delta_zero _ (f9 (Or.inr (Or.inr h1)))
      · rw [hd] at h1; exact absurd h1 (by simp)
    · intro h1 h2 h3 _
      have he := f10 h1 h2
      rw [hpt, hr, he]
      exact push_delta (t := { t with fast := t.fast - 1 }) f.time hi h3 hc
  · rw [if_neg hd] at hr ⊢
    have hd : t.dirty = true := by simpa using hd
    have hys := ready_same c p f motion g
    have hyf := ready_fields c p f motion g
    obtain ⟨y, hy⟩ : ∃ y, ready c p f motion g = y := ⟨_, rfl⟩
    rw [hy] at hys hyf hr ⊢
    obtain ⟨y1, y2, y3, y4, y5, y6, y7⟩ := hyf
    have hcs := calcSpeed_fields c (countFast (push y.2 f.time)) f.time
    have hcss := calcSpeed_same c (countFast (push y.2 f.time)) f.time
    obtain ⟨k, hk⟩ : ∃ k, calcSpeed c (countFast (push y.2 f.time)) f.time = k := ⟨_, rfl⟩
    rw [hk] at hcs hcss hr
    have hus := unpin_same c k
    have huf := unpin_fields c k
    have hr : r = unpin c k := hr
    rw [← hr] at hus huf
    have hsm : Same r (push y.2 f.time) := hus.trans (hcss.trans (countFast_same _))
    have hcnt : r.count = (push y.2 f.time).count := huf.1.trans hcs.1
    have hpt : r.point = y.2.point := huf.2.2.2.2.2.2.1.trans hcs.2.2.2.2.2.2.2
    have hde : delta r = delta (push y.2 f.time) := delta_congr hsm.samples hsm.index hcnt
    have hyi : y.2.index < 4 := by rw [hys.index, hfs.index]; exact hi
    have hyc : y.2.count ≤ 4 := by rw [y6]; split <;> omega
    refine ⟨hsm.st.trans (hys.st.trans hfs.st), hsm.dirty.trans (hys.dirty.trans hfs.dirty), ?_, ?_, ?_, ?_, ?_, ?_, ?_, ?_, ?_, ?_⟩
    · rw [hsm.index]; exact push_index _ _
    · rw [hcnt]; exact (push_count _ _).1
    · rw [hcnt]; exact push_count_le _ hyc
    · rw [hsm.past, push_past_zero, hpt]
    · rw [huf.2.1, hcs.2.1]; exact y1.trans f7
    · rw [huf.2.2.1, hcs.2.2.2.1]; exact y3.trans f3
    · have hkp : k.pinned = t.pinned := by rw [hcs.2.2.1]; exact y2.trans f2
      have hkc : k.pinCenter = t.pinCenter := by rw [hcs.2.2.2.1]; exact y3.trans f3
      have hkpt : k.point = r.point := by rw [hpt, hcs.2.2.2.2.2.2.2]; rfl
      rw [huf.2.2.2.2.2.2.2, hkp, hkc, hkpt, hd, Bool.true_and]
    · rintro hc'
      rw [hde]
      apply push_delta_zero
      rw [y6]
      rcases hc' with h1 | h1 | h1 | ⟨_, h1⟩
      · rw [f9 (Or.inl h1)]; simp
      · rw [f9 (Or.inr (Or.inl h1))]; simp
      · rw [f9 (Or.inr (Or.inr h1))]; simp
      · by_cases hz : g.count = 0
        · rw [hz]; simp
        · have hw : want = false := by
            cases want
            · rfl
            · exact absurd (f9 (Or.inl rfl)) hz
          have ha : t.again = false := by
            cases hag : t.again
            · rfl
            · exact absurd (f9 (Or.inr (Or.inl hag))) hz
          rw [f10 hw ha, h1]; rfl
    · intro h1 h2 h3 h4
      have he := f10 h1 h2
      rw [hde, hpt, push_delta f.time hyi ?_ hyc, hys.past, hfs.past]
      rw [y6, he, h4 hd]; simpa using h3
    · intro h1 h2
      rw [hpt, y7 h1]
      exact h2 hd

end Libinput.Follow
