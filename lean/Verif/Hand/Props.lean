import Verif.Hand.Place
/-!
C64: fingers next to a tilted pen.
-/
namespace Libinput.Hand
open Libinput.TouchSlots Libinput.TouchSlots.Spec Spec

/-- A tablet and its touch screen for the examples: both start at 10, the tablet has 100 units per millimetre, the screen 10. -/
def T0 : Axes := ⟨10, 10, 100, 100⟩
/-- The screen of the examples. -/
def S0 : Axes := ⟨10, 10, 10, 10⟩

/-! ## The area -/

/-- C64.  The area in which fingers are ignored always contains the part of the screen where the hand is. -/
theorem hand_ignored (T S : Axes) (p : Pt) (t : Rat) (q : Pt) (rx : 0 < S.resX) (ry : 0 < S.resY) (qx : S.minX ≤ q.1) (qy : S.minY ≤ q.2)
    (h : Hand T S p t q) : Ignored T S p t q := by
  unfold Hand at h
  unfold Ignored
  obtain ⟨h1, h2⟩ := h
  have lx : ∀ a b : Int, a ≤ b → a * S.resX ≤ b * S.resX := fun a b hab => Int.mul_le_mul_of_nonneg_right hab (by omega)
  have ly : ∀ a b : Int, a ≤ b → a * S.resY ≤ b * S.resY := fun a b hab => Int.mul_le_mul_of_nonneg_right hab (by omega)
  generalize tip T p = z at h1 h2 ⊢
  obtain ⟨x, y⟩ := z
  dsimp only at h1 h2 ⊢
  constructor
  · split
    · rename_i ht
      rw [if_pos ht] at h1
      by_cases c : 20 ≤ x
      · exact .inl ⟨c, h1⟩
      · refine .inr ⟨by omega, by simp; omega, ?_⟩
        have := lx (x + 180) (220 - x) (by omega)
        have := h1.2
        omega
    · rename_i ht
      rw [if_neg ht] at h1
      by_cases c : 180 ≤ x
      · exact .inl ⟨c, h1⟩
      · refine .inr ⟨by omega, by simp; omega, ?_⟩
        have := lx (x + 20) (380 - x) (by omega)
        have := h1.2
        omega
  · by_cases c : 50 ≤ y
    · exact .inl ⟨c, h2⟩
    · refine .inr ⟨by omega, by simp; omega, ?_⟩
      have := ly (y + 150) (250 - y) (by omega)
      have := h2.2
      omega

/-- A pen at 300 mm from the left and 300 mm from the top, tilted to the right: 170 mm right of it is the hand. -/
example : Hand T0 S0 (30010, 30010) 5 (4710, 3010) ∧ Ignored T0 S0 (30010, 30010) 5 (4710, 3010) := by
  simp [Hand, Ignored, tip, Across, Along, T0, S0]; decide

/-- C64.  Unless the hand is cut off by the left or the top of the screen, fingers elsewhere are not ignored. -/
theorem hand_only (T S : Axes) (p : Pt) (t : Rat) (q : Pt) (hx : if t > 0 then 20 ≤ (tip T p).1 else 180 ≤ (tip T p).1) (hy : 50 ≤ (tip T p).2)
    (h : Ignored T S p t q) : Hand T S p t q := by
  unfold Ignored at h
  unfold Hand
  obtain ⟨h1, h2⟩ := h
  generalize tip T p = z at h1 h2 hx hy ⊢
  obtain ⟨x, y⟩ := z
  dsimp only at h1 h2 hx hy ⊢
  constructor
  · split
    · rename_i ht
      rw [if_pos ht] at h1 hx
      rcases h1 with h | h
      · exact h.2
      · omega
    · rename_i ht
      rw [if_neg ht] at h1 hx
      rcases h1 with h | h
      · exact h.2
      · omega
  · rcases h2 with h | h
    · exact h.2
    · omega

/-- The same pen, tilted to the left: 170 mm right of it is not the hand. -/
example : ¬ Hand T0 S0 (30010, 30010) (-5) (4710, 3010) ∧ ¬ Ignored T0 S0 (30010, 30010) (-5) (4710, 3010) := by
  simp [Hand, Ignored, tip, Across, Along, T0, S0]; decide

/-- C64.  At the left of the screen the area is too wide, as is at the top: what is cut off is added at the other side twice.  A finger 300 mm
right of a pen at the left, tilted to the left, is ignored. -/
theorem edge_too_wide : ∃ (T S : Axes) (p : Pt) (t : Rat) (q : Pt), t < 0 ∧ tip T p = (0, 100) ∧ Across S q 300 301 ∧ Along S q 100 101 ∧
    Ignored T S p t q ∧ ¬ Hand T S p t q := by
  refine ⟨T0, S0, (10, 10010), -1, (3010, 1010), by decide +kernel, by decide +kernel, ?_⟩
  simp [Hand, Ignored, tip, Across, Along, T0, S0]; decide

/-! ## Fingers -/

theorem pen_not_upright {ops : List Op} (h : NeverUpright ops) : ∀ {w : Pen}, w ≠ .upright → pen w ops ≠ .upright := by
  induction ops with
  | nil => intro w hw; exact hw
  | cons op ops ih =>
    intro w hw
    have r := fun {w} => ih (w := w) (fun o ho => h o (List.mem_cons_of_mem _ ho))
    cases op with
    | pen p t =>
      simp only [pen]
      apply r
      have ht : t ≠ 0 := fun e => h _ List.mem_cons_self p (by rw [e])
      simp [ht]
    | leave => exact r (by simp)
    | touch o => exact r hw
    | elsewhere m => exact r hw

/-- What the screen checks is whether the finger is covered. -/
theorem agree_covered {T S : Axes} {w : Pen} {s : St} (h : Agree T S w s) (hw : w ≠ .upright) (q : Pt) :
    (s.dev.arb = .ignoreRect ∧ s.dev.rect.has q = true) ↔ Covered T S w q := by
  cases w with
  | upright => exact absurd rfl hw
  | away => simp [Covered, h.away rfl]
  | tilted p t =>
    obtain ⟨a, b⟩ := h.tilted p t rfl
    rw [a, b, area_exact]
    simp [Covered]

/-- C64.  No finger that comes down in an area that is ignored is ever heard of: whatever happened before, if a touch is reported to come down
at `q`, then `q` is not covered by what is known of the pen. -/
theorem covered_not_heard (T S : Axes) (n cur : Nat) (hp : Bool) (hy : Option (Pt → Pt → Pt)) (ops : List Op) (op : TouchSlots.Op) (k : Key) (j : Nat) (q : Pt)
    (h : .down k j q ∈ (step T S (run T S (start n cur hp hy) ops).1 (.touch op)).2) : ¬ Covered T S (pen .away ops) q := by
  have ag := run_agree ops (start_agree T S n cur hp hy)
  generalize (run T S (start n cur hp hy) ops).1 = s at h ag
  have he : .down k j q ∈ (devStep s.dev s.map 0 op).2.2 := by
    cases op <;> first | exact h | (simp [step] at h)
  obtain ⟨a, b⟩ := devStep_downs ag.scr s.map 0 op he
  by_cases hw : pen .away ops = .upright
  · have := ag.scr.all (ag.up hw)
    rw [a] at this; exact absurd this.1 (by simp)
  · rw [← agree_covered ag hw]
    exact b

/-- The history of the examples: a finger in the second slot, then a pen tilted to the right at 300 mm and 300 mm. -/
def sample : List Op := finger 1 7 (3010, 3010) ++ [.pen (30010, 30010) 5]

/-- A pen is there, and a finger 100 mm left of it is heard of. -/
example : .down (0, some 0) 0 (2010, 3010) ∈
    (step T0 S0 (run T0 S0 (start 3 0 false none) (sample ++ (finger 0 8 (2010, 3010)).take 4)).1 (.touch .syn)).2 := by decide +kernel

theorem sample_upright : NeverUpright sample := by
  intro op ho p
  simp [sample, finger] at ho
  rcases ho with rfl | rfl | rfl | rfl | rfl | rfl <;> simp

theorem sample_range : InRange 3 sample := by
  intro op ho v e
  simp [sample, finger] at ho
  rcases ho with rfl | rfl | rfl | rfl | rfl | rfl <;> simp at e
  omega

/-- C64.  Fingers outside the area are heard of at once, and fingers inside are not: when a finger comes down in a slot without a touch, between
two frames, while a slot of the seat is free and no pen has been held upright, then a touch comes down there, if it is not covered. -/
theorem finger_heard (T S : Axes) {n cur : Nat} (hc : cur < n) (hp : Bool) (hy : Option (Pt → Pt → Pt)) (a b : List Op)
    (hu : NeverUpright (a ++ .touch .syn :: b)) (hr : InRange n (a ++ .touch .syn :: b)) (hb : ∀ op ∈ b, ∀ o, op ≠ .touch o)
    {i : Nat} (hi : i < n) (free : after nothing (run T S (start n cur hp hy) (a ++ .touch .syn :: b)).2 (0, some i) = none)
    {t : Nat} (h32 : t < 32) (room : (run T S (start n cur hp hy) (a ++ .touch .syn :: b)).1.map.getLsbD t = false) (id : Nat) (q : Pt)
    (hq : ¬ Covered T S (pen .away (a ++ .touch .syn :: b)) q) :
    ∃ j, (run T S (run T S (start n cur hp hy) (a ++ .touch .syn :: b)).1 (finger i id q)).2 = [.down (0, some i) j q, .frame 0] := by
  have ag := run_agree (a ++ .touch .syn :: b) (start_agree T S n cur hp hy)
  have fo := run_fol (T := T) (S := S) (a ++ .touch .syn :: b) (start_fol hc hp hy) hu hr
  have se := run_seats (a ++ .touch .syn :: b) (start_agree T S n cur hp hy) (start_seats n cur hp hy)
  have cl : (a ++ .touch .syn :: b).foldl clean true = true := by
    rw [List.foldl_append, List.foldl_cons]; exact foldl_clean hb
  rw [cl] at fo
  generalize (run T S (start n cur hp hy) (a ++ .touch .syn :: b)).2 = es at se free
  generalize (run T S (start n cur hp hy) (a ++ .touch .syn :: b)).1 = s at room ag fo se
  have hlen : i < s.dev.slots.length := by rw [fo.len]; exact hi
  have hx : s.dev.slots[i]? = some s.dev.slots[i] := List.getElem?_eq_getElem hlen
  have hs : (s.dev.slots[i]).seat = none := by
    have := se i _ hx
    rw [Nat.zero_add] at this
    rw [← this]; exact free
  obtain ⟨j, hj⟩ : ∃ j, firstFree s.map = some j := by
    cases hf : firstFree s.map with
    | some j => exact ⟨j, rfl⟩
    | none => have := firstFree_none hf t h32; rw [room] at this; cases this
  have res := finger_result (T := T) (S := S) fo ag.scr hi id q hx hs hj
  exact ⟨j, res.1 (fun c => hq ((agree_covered ag (pen_not_upright hu (by simp)) q).mp c))⟩

/-- The finger of the example meets this. -/
example : ∃ j, (run T0 S0 (run T0 S0 (start 3 0 false none) sample).1 (finger 0 8 (2010, 3010))).2 = [.down (0, some 0) j (2010, 3010), .frame 0] :=
  finger_heard T0 S0 (by decide) false none ((finger 1 7 (3010, 3010)).take 4) [.pen (30010, 30010) 5] sample_upright sample_range
    (by simp) (by decide) (by decide +kernel) (t := 1) (by decide) (by decide +kernel) 8 (2010, 3010)
    (by
      have e : pen .away ((finger 1 7 (3010, 3010)).take 4 ++ .touch .syn :: [.pen (30010, 30010) 5]) = .tilted (30010, 30010) 5 := by
        decide +kernel
      rw [e]
      simp [Covered, Ignored, tip, Across, Along, T0, S0]
      decide)

example : (run T0 S0 (run T0 S0 (start 3 0 false none) sample).1 (finger 0 8 (2010, 3010))).2 = [.down (0, some 0) 0 (2010, 3010), .frame 0] := by
  decide +kernel

/-- C64.  Fingers in the area are ignored when they come down there, and are never heard of, whatever they do, and whatever the pen does, even
if it leaves: until another finger comes down in the slot there is no event for it. -/
theorem finger_ignored (T S : Axes) {n cur : Nat} (hc : cur < n) (hp : Bool) (hy : Option (Pt → Pt → Pt)) (a b : List Op)
    (hu : NeverUpright (a ++ .touch .syn :: b)) (hr : InRange n (a ++ .touch .syn :: b)) (hb : ∀ op ∈ b, ∀ o, op ≠ .touch o)
    {i : Nat} (hi : i < n) (free : after nothing (run T S (start n cur hp hy) (a ++ .touch .syn :: b)).2 (0, some i) = none)
    {t : Nat} (h32 : t < 32) (room : (run T S (start n cur hp hy) (a ++ .touch .syn :: b)).1.map.getLsbD t = false) (id : Nat) (q : Pt)
    (hq : Covered T S (pen .away (a ++ .touch .syn :: b)) q) (more : List Op) (hu2 : NeverUpright more) (hr2 : InRange n more) (hn : NoNew i i more) :
    (run T S (run T S (start n cur hp hy) (a ++ .touch .syn :: b)).1 (finger i id q)).2 = [] ∧
    ¬ About (run T S (run T S (start n cur hp hy) (a ++ .touch .syn :: b)).1 (finger i id q ++ more)).2 (0, some i) := by
  have ag := run_agree (a ++ .touch .syn :: b) (start_agree T S n cur hp hy)
  have fo := run_fol (T := T) (S := S) (a ++ .touch .syn :: b) (start_fol hc hp hy) hu hr
  have se := run_seats (a ++ .touch .syn :: b) (start_agree T S n cur hp hy) (start_seats n cur hp hy)
  have cl : (a ++ .touch .syn :: b).foldl clean true = true := by
    rw [List.foldl_append, List.foldl_cons]; exact foldl_clean hb
  rw [cl] at fo
  generalize (run T S (start n cur hp hy) (a ++ .touch .syn :: b)).2 = es at se free
  generalize (run T S (start n cur hp hy) (a ++ .touch .syn :: b)).1 = s at room ag fo se ⊢
  have hlen : i < s.dev.slots.length := by rw [fo.len]; exact hi
  have hx : s.dev.slots[i]? = some s.dev.slots[i] := List.getElem?_eq_getElem hlen
  have hs : (s.dev.slots[i]).seat = none := by
    have := se i _ hx
    rw [Nat.zero_add] at this
    rw [← this]; exact free
  obtain ⟨j, hj⟩ : ∃ j, firstFree s.map = some j := by
    cases hf : firstFree s.map with
    | some j => exact ⟨j, rfl⟩
    | none => have := firstFree_none hf t h32; rw [room] at this; cases this
  obtain ⟨r1, y, r2, r3, r4⟩ := (finger_result (T := T) (S := S) fo ag.scr hi id q hx hs hj).2
    ((agree_covered ag (pen_not_upright hu (by simp)) q).mpr hq)
  refine ⟨r1, ?_⟩
  rw [run_append, r1, List.nil_append]
  have fo2 := run_fol (T := T) (S := S) (finger i id q) fo
    (by intro op ho p; simp [finger] at ho; rcases ho with rfl | rfl | rfl | rfl | rfl <;> simp)
    (by
      intro op ho v e
      simp [finger] at ho
      rcases ho with rfl | rfl | rfl | rfl | rfl <;> simp at e
      omega)
  have cu : current (current cur (a ++ .touch .syn :: b)) (finger i id q) = i := by simp [finger, current]
  rw [cu] at fo2
  exact run_dead more (run_agree (finger i id q) ag) fo2 hu2 hr2 hn ⟨y, r2, .inl r3, r4⟩

/-- A finger next to the pen meets this. -/
example : (run T0 S0 (run T0 S0 (start 3 0 false none) sample).1 (finger 0 8 (3110, 3010))).2 = [] :=
  (finger_ignored T0 S0 (by decide) false none ((finger 1 7 (3010, 3010)).take 4) [.pen (30010, 30010) 5] sample_upright sample_range
    (by simp) (by decide) (by decide +kernel) (t := 1) (by decide) (by decide +kernel) 8 (3110, 3010)
    (by
      have e : pen .away ((finger 1 7 (3010, 3010)).take 4 ++ .touch .syn :: [.pen (30010, 30010) 5]) = .tilted (30010, 30010) 5 := by
        decide +kernel
      rw [e]
      simp [Covered, Ignored, tip, Across, Along, T0, S0])
    [.leave, .touch (.mtX 100), .touch .syn] (by intro op ho p; simp at ho; rcases ho with rfl | rfl | rfl <;> simp)
    (by intro op ho v e; simp at ho; rcases ho with rfl | rfl | rfl <;> simp at e) (by simp [NoNew])).1

/-- A finger next to the pen, which then leaves; the finger moves and goes up. -/
example : (run T0 S0 (run T0 S0 (start 3 0 false none) sample).1 (finger 0 8 (3110, 3010) ++
    [.leave, .touch (.mtX 100), .touch .syn, .touch (.tracking (-1) false), .touch .syn])).2 = [] := by decide +kernel

/-! ## The pen -/

/-- C64.  When a tilted pen arrives, the touches in its area are cancelled and no others: a touch that is down is cancelled if and only if the
place where the kernel last said that the finger is is in the area.  The screen has no hysteresis. -/
theorem pen_arrives (T S : Axes) {n cur : Nat} (hc : cur < n) (hp : Bool) (ops : List Op) (hu : NeverUpright ops) (hr : InRange n ops)
    (away : pen .away ops = .away) {i j : Nat} (hi : i < n) (down : after nothing (run T S (start n cur hp none) ops).2 (0, some i) = some j)
    (p : Pt) (t : Rat) (ht : t ≠ 0) :
    (Ignored T S p t (place i cur (0, 0) ops) → .cancel (0, some i) j ∈ (step T S (run T S (start n cur hp none) ops).1 (.pen p t)).2) ∧
    (¬ Ignored T S p t (place i cur (0, 0) ops) → ¬ About (step T S (run T S (start n cur hp none) ops).1 (.pen p t)).2 (0, some i)) := by
  have ag := run_agree ops (start_agree T S n cur hp none)
  have fo := run_fol (T := T) (S := S) ops (start_fol hc hp none) hu hr
  have se := run_seats ops (start_agree T S n cur hp none) (start_seats n cur hp none)
  obtain ⟨hh, y, hy, hpt⟩ := run_at (T := T) (S := S) ops (start_fol hc hp none) hu hr (start_at (n := n) (cur := cur) hi hp)
  rw [away] at ag
  generalize (run T S (start n cur hp none) ops).2 = es at se down
  generalize (run T S (start n cur hp none) ops).1 = s at ag fo se hh hy ⊢
  have hs : y.seat = some j := by
    have := se i _ hy
    rw [Nat.zero_add] at this
    rw [← this]; exact down
  have ha : s.dev.arb = .notActive := ag.away rfl
  have hd : s.dev.seat = none := by
    obtain ⟨w, f, h1, _⟩ := fo; exact (f.mt h1).2.2.2
  have ev : (step T S s (.pen p t)).2 = (cancelTouches s.dev s.map 0 (some (toUnits S (arbitrationRect T p t)))).2.2 := by
    have e0 : s.arb = .notActive := ag.same.trans ha
    have e2 : updateRect T S s p t = (s, []) := by unfold updateRect; rw [if_pos (by simp [e0])]
    have e3 : toggle T S s p t = setEnabled S s .ignoreRect (arbitrationRect T p t) := by
      unfold toggle; rw [if_neg ht, if_pos (by simp [e0])]
    simp only [step, e2, e3, List.nil_append, setEnabled, touch, devStep]
    rw [if_neg (by simp [ha])]
  rw [ev, ← hpt, ← area_exact]
  generalize toUnits S (arbitrationRect T p t) = r
  unfold cancelTouches
  simp only [hd]
  have e1 : ∀ m : Map, (finish m none (Ev.cancel (0, none))) = (m, none, []) := fun _ => rfl
  simp only [e1, ite_self, List.nil_append]
  obtain ⟨c1, c2⟩ := cancelSlots_exact 0 r s.dev.slots s.map 0 i y hy
  rw [Nat.zero_add] at c1 c2
  constructor
  · intro hin
    exact List.mem_append_left _ (c1 j hs hin)
  · intro hin ⟨e, he, ek⟩
    rcases List.mem_append.mp he with he | he
    · exact c2 (by simpa using hin) ⟨e, he, ek⟩
    · rw [mem_frame he] at ek; simp [key] at ek

/-- The touch of the example is cancelled by the pen; a touch further to the left is not. -/
example : (step T0 S0 (run T0 S0 (start 3 0 false none) (finger 1 7 (3010, 3010))).1 (.pen (30010, 30010) 5)).2 = [.cancel (0, some 1) 0, .frame 0] ∧
    (step T0 S0 (run T0 S0 (start 3 0 false none) (finger 1 7 (2010, 3010))).1 (.pen (30010, 30010) 5)).2 = [] := by decide +kernel

/-- C64.  A tilted pen that moves does nothing to touches that are down, and one that leaves neither. -/
theorem moving_pen_silent (T S : Axes) (n cur : Nat) (hp : Bool) (hy : Option (Pt → Pt → Pt)) (ops : List Op) :
    (∀ p0 t0 p t, pen .away ops = .tilted p0 t0 → t ≠ 0 → (step T S (run T S (start n cur hp hy) ops).1 (.pen p t)).2 = []) ∧
    (step T S (run T S (start n cur hp hy) ops).1 .leave).2 = [] := by
  have ag := run_agree ops (start_agree T S n cur hp hy)
  generalize (run T S (start n cur hp hy) ops).1 = s at ag ⊢
  constructor
  · intro p0 t0 p t hw ht
    obtain ⟨a, _⟩ := ag.tilted p0 t0 hw
    simp [step, updateRect, toggle, touch, devStep, ag.same, a, ht]
  · simp only [step, setEnabled, touch, devStep]
    split <;> rfl

/-- A touch 100 mm left of the pen stays when the pen comes near. -/
example : (run T0 S0 (start 3 0 false none) (sample ++ finger 0 8 (2010, 3010) ++ [.pen (20010, 30010) 5])).2 =
    (run T0 S0 (start 3 0 false none) (sample ++ finger 0 8 (2010, 3010))).2 := by decide +kernel

/-- C64.  The lift of a tilted pen: fingers are heard of at once, although the touch screen is to wait for 90 ms. -/
theorem lift_not_delayed : (run T0 S0 (run T0 S0 (start 3 0 false none) (sample ++ [.leave])).1 (finger 0 8 (3010, 3010))).2 =
    [.down (0, some 0) 0 (3010, 3010), .frame 0] := by decide +kernel

/-- C64.  A pen that was upright once: the whole screen is ignored until the pen has left, even when it is tilted again. -/
theorem upright_sticks : ∃ (ops : List Op) (q : Pt), pen .away ops = .tilted (30010, 30010) 5 ∧ ¬ Covered T0 S0 (pen .away ops) q ∧
    (run T0 S0 (run T0 S0 (start 3 0 false none) ops).1 (finger 0 8 q)).2 = [] := by
  refine ⟨[.pen (30010, 30010) 0, .touch .syn, .pen (30010, 30010) 5], (1010, 3010), by decide +kernel, ?_, by decide +kernel⟩
  have e : pen .away [.pen (30010, 30010) 0, .touch .syn, .pen (30010, 30010) 5] = .tilted (30010, 30010) 5 := by decide +kernel
  rw [e]
  simp [Covered, Ignored, tip, Across, Along, T0, S0]

/-- C64.  Screens without slots do not look at the area: a touch that comes down in it is heard of. -/
theorem single_touch_not_ignored : ∃ (d : Dev) (q : Pt), d.isMt = false ∧ d.arb = .ignoreRect ∧ d.rect.has q = true ∧
    .down (0, none) 0 q ∈ (devStep { d with point := q, pDown := true } 0#32 0 .syn).2.2 := by
  refine ⟨{ newDev false 0 0 false none with arb := .ignoreRect, rect := ⟨0, 0, 100, 100⟩ }, (10, 10), rfl, rfl, rfl, by decide +kernel⟩

end Libinput.Hand
