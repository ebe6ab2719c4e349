import Verif.Hand.Spec
import Verif.TouchSlots.Contacts
import Verif.TouchSlots.Frames
/-!
What a touch screen keeps, which touches come down, and which slots stay silent.
-/
namespace Libinput.Hand
open Libinput.TouchSlots Libinput.TouchSlots.Spec Spec

/-! ## The shape of the steps -/

theorem handle_shape (d : Dev) (m : Map) (dev : Nat) : ∃ v ss, (handleState d m dev).2.1 =
    { d with seat := v, slots := ss, pDown := false, pUp := false, pMotion := false, pMt := false } := by
  unfold handleState; dsimp only; split <;> exact ⟨_, _, rfl⟩

theorem process_shape (d : Dev) (op : TouchSlots.Op) : ∃ ss c b, processTouch d op = { d with slots := ss, cur := c, pMt := b } := by
  unfold processTouch
  split
  · exact ⟨_, _, _, rfl⟩
  · dsimp only
    split <;> exact ⟨_, _, _, rfl⟩
  · exact ⟨_, _, _, rfl⟩
  · exact ⟨_, _, _, rfl⟩
  · exact ⟨_, _, _, rfl⟩
  · exact ⟨_, _, _, rfl⟩

/-- What the screen does by itself. -/
def Own : TouchSlots.Op → Prop
  | .arbitration _ _ => False
  | .updateRect _ => False
  | _ => True

/-- A screen with slots, that has nothing pending of a single touch, and is silent if all of it is ignored. -/
structure Mt (d : Dev) : Prop where
  mt : d.isMt = true
  down : d.pDown = false
  up : d.pUp = false
  motion : d.pMotion = false
  all : d.arb = .ignoreAll → d.inArb = true ∧ d.armed = false

theorem own_step {d : Dev} (h : Mt d) (m : Map) (dev : Nat) {op : TouchSlots.Op} (ho : Own op) :
    Mt (devStep d m dev op).2.1 ∧ (devStep d m dev op).2.1.arb = d.arb ∧ (devStep d m dev op).2.1.rect = d.rect := by
  have proc : ∀ op, Mt (processTouch d op) ∧ (processTouch d op).arb = d.arb ∧ (processTouch d op).rect = d.rect := by
    intro op
    obtain ⟨ss, c, b, e⟩ := process_shape d op
    rw [e]
    exact ⟨⟨h.mt, h.down, h.up, h.motion, h.all⟩, rfl, rfl⟩
  cases op with
  | arbitration => exact ho.elim
  | updateRect => exact ho.elim
  | suspend =>
    obtain ⟨v, ss, e, _⟩ := cancelTouches_shape d m dev none
    simp only [devStep, e]
    exact ⟨⟨h.mt, h.down, h.up, h.motion, h.all⟩, by simp, by simp⟩
  | timeout =>
    simp only [devStep]
    split
    · rename_i ha
      refine ⟨⟨h.mt, h.down, h.up, h.motion, fun c => ?_⟩, rfl, rfl⟩
      rw [(h.all c).2] at ha; cases ha
    · exact ⟨h, rfl, rfl⟩
  | syn =>
    simp only [devStep]
    split
    · exact ⟨h, rfl, rfl⟩
    · obtain ⟨v, ss, e⟩ := handle_shape d m dev
      rw [e]
      exact ⟨⟨h.mt, rfl, rfl, rfl, h.all⟩, rfl, rfl⟩
  | touch v => simp only [devStep, h.mt, if_true]; split <;> exact ⟨h, rfl, rfl⟩
  | absX v => simp only [devStep, h.mt, if_true]; split <;> exact ⟨h, rfl, rfl⟩
  | absY v => simp only [devStep, h.mt, if_true]; split <;> exact ⟨h, rfl, rfl⟩
  | slot v => simp only [devStep, h.mt, if_true]; split <;> first | exact ⟨h, rfl, rfl⟩ | exact proc (.slot v)
  | tracking v b => simp only [devStep, h.mt, if_true]; split <;> first | exact ⟨h, rfl, rfl⟩ | exact proc (.tracking v b)
  | mtX v => simp only [devStep, h.mt, if_true]; split <;> first | exact ⟨h, rfl, rfl⟩ | exact proc (.mtX v)
  | mtY v => simp only [devStep, h.mt, if_true]; split <;> first | exact ⟨h, rfl, rfl⟩ | exact proc (.mtY v)
  | tool b => simp only [devStep, h.mt, if_true]; split <;> first | exact ⟨h, rfl, rfl⟩ | exact proc (.tool b)

/-! ## Which touches come down -/

theorem finish_no_down (m : Map) (v : Option Nat) (ev : Nat → Ev) (hev : ∀ i k j q, ev i ≠ .down k j q) :
    ∀ k j q, .down k j q ∉ (finish m v ev).2.2 := by
  intro k j q
  cases v <;> simp [finish]
  exact fun c => hev _ _ _ _ c.symm

theorem down_point (m : Map) (v : Option Nat) (k : Key) (p : Pt) {k' : Key} {j : Nat} {q : Pt}
    (h : .down k' j q ∈ (TouchSlots.down m v k p).2.2) : q = p := by
  cases v <;> simp only [TouchSlots.down] at h
  · split at h
    · simp at h
    · simp only [List.mem_cons, List.not_mem_nil, or_false, Ev.down.injEq] at h
      exact h.2.2
  · simp at h

theorem motion_no_down (d : Dev) (s : Slot) (k : Key) (k' : Key) (j : Nat) (q : Pt) : .down k' j q ∉ (TouchSlots.motion d s k).2 := by
  unfold TouchSlots.motion
  split
  · simp
  · dsimp only
    split <;> simp

theorem flushSlot_downs (d : Dev) (m : Map) (k : Key) (s : Slot) (sent : Bool) {k' : Key} {j : Nat} {q : Pt}
    (h : .down k' j q ∈ (flushSlot d m k s sent).2.2.1) : ¬ (d.arb = .ignoreRect ∧ d.rect.has q = true) := by
  unfold flushSlot at h
  split at h
  · simp at h
  · dsimp only at h
    cases hp : s.palm <;> simp only [hp] at h
    · cases hs : s.state <;> simp only [hs] at h
      · simp at h
      · split at h
        · simp at h
        · rename_i ha
          have e := down_point _ _ _ _ h
          subst e
          intro ⟨c1, c2⟩
          exact ha (by simp [arbitrate, c1, c2])
      · exact (motion_no_down _ _ _ _ _ _ h).elim
      · exact (finish_no_down _ _ _ (by simp) _ _ _ h).elim
    · split at h
      · simp at h
      · exact (finish_no_down _ _ _ (by simp) _ _ _ h).elim
    · simp at h
    · simp at h

theorem flushSlots_downs (d : Dev) (dev : Nat) (ss : List Slot) : ∀ (m : Map) (i : Nat) (sent : Bool) {k : Key} {j : Nat} {q : Pt},
    .down k j q ∈ (flushSlots d dev m i ss sent).2.2.1 → ¬ (d.arb = .ignoreRect ∧ d.rect.has q = true) := by
  induction ss with
  | nil => intro m i sent k j q h; simp [flushSlots] at h
  | cons s ss ih =>
    intro m i sent k j q h
    simp only [flushSlots, List.mem_append] at h
    rcases h with h | h
    · exact flushSlot_downs _ _ _ _ _ h
    · exact ih _ _ _ h

theorem cancelSlots_no_down (dev : Nat) (rect : Option Rect) (ss : List Slot) : ∀ (m : Map) (i : Nat) (k : Key) (j : Nat) (q : Pt),
    .down k j q ∉ (cancelSlots dev rect m i ss).2.2 := by
  induction ss with
  | nil => intro m i k j q; simp [cancelSlots]
  | cons s ss ih =>
    intro m i k j q h
    simp only [cancelSlots, List.mem_append] at h
    rcases h with h | h
    · split at h
      · exact finish_no_down _ _ _ (by simp) _ _ _ h
      · simp at h
    · exact ih _ _ _ _ _ h

theorem cancelTouches_no_down (d : Dev) (m : Map) (dev : Nat) (rect : Option Rect) (k : Key) (j : Nat) (q : Pt) :
    .down k j q ∉ (cancelTouches d m dev rect).2.2 := by
  intro h
  unfold cancelTouches at h
  dsimp only at h
  simp only [List.mem_append] at h
  rcases h with (h | h) | h
  · split at h
    · exact finish_no_down _ _ _ (by simp) _ _ _ h
    · simp at h
  · exact cancelSlots_no_down _ _ _ _ _ _ _ _ h
  · split at h <;> simp at h

theorem devStep_downs {d : Dev} (h : Mt d) (m : Map) (dev : Nat) (op : TouchSlots.Op) {k : Key} {j : Nat} {q : Pt}
    (he : .down k j q ∈ (devStep d m dev op).2.2) :
    d.inArb = false ∧ ¬ (d.arb = .ignoreRect ∧ d.rect.has q = true) := by
  cases op with
  | arbitration which r =>
    simp only [devStep] at he
    split at he
    · simp at he
    · split at he
      · simp at he
      · exact (cancelTouches_no_down _ _ _ _ _ _ _ he).elim
      · exact (cancelTouches_no_down _ _ _ _ _ _ _ he).elim
  | updateRect => simp [devStep] at he
  | suspend => exact (cancelTouches_no_down _ _ _ _ _ _ _ he).elim
  | timeout => simp only [devStep] at he; split at he <;> simp at he
  | syn =>
    simp only [devStep] at he
    split at he
    · simp at he
    · rename_i ha
      refine ⟨by simpa using ha, ?_⟩
      unfold handleState at he
      rw [flushSt_quiet d m dev h.down h.up h.motion] at he
      dsimp only at he
      simp only [List.mem_append] at he
      rcases he with he | he
      · split at he
        · simp only [List.nil_append] at he
          exact flushSlots_downs _ _ _ _ _ _ he
        · simp at he
      · split at he <;> simp at he
  | touch v => simp only [devStep, h.mt, if_true] at he; split at he <;> simp at he
  | absX v => simp only [devStep, h.mt, if_true] at he; split at he <;> simp at he
  | absY v => simp only [devStep, h.mt, if_true] at he; split at he <;> simp at he
  | slot v => simp only [devStep, h.mt, if_true] at he; split at he <;> simp at he
  | tracking v b => simp only [devStep, h.mt, if_true] at he; split at he <;> simp at he
  | mtX v => simp only [devStep, h.mt, if_true] at he; split at he <;> simp at he
  | mtY v => simp only [devStep, h.mt, if_true] at he; split at he <;> simp at he
  | tool b => simp only [devStep, h.mt, if_true] at he; split at he <;> simp at he

/-! ## The tablet and its touch screen agree -/

/-- What is true while the pen is like that. -/
structure Agree (T S : Axes) (w : Pen) (s : St) : Prop where
  scr : Mt s.dev
  same : s.arb = s.dev.arb
  away : w = .away → s.dev.arb = .notActive
  up : w = .upright → s.dev.arb = .ignoreAll
  tilted : ∀ p t, w = .tilted p t → s.dev.arb = .ignoreRect ∧ s.dev.rect = toUnits S (arbitrationRect T p t)

theorem start_agree (T S : Axes) (n cur : Nat) (hp : Bool) (hy : Option (Pt → Pt → Pt)) : Agree T S .away (start n cur hp hy) := by
  refine ⟨⟨rfl, rfl, rfl, rfl, fun c => (by cases c)⟩, rfl, fun _ => rfl, fun c => (by cases c), fun _ _ c => (by cases c)⟩

/-- The arbitration is switched. -/
theorem set_mt {d : Dev} (h : Mt d) (m : Map) (dev : Nat) (which : Arb) (r : Rect) :
    Mt (devStep d m dev (.arbitration which r)).2.1 ∧ (devStep d m dev (.arbitration which r)).2.1.arb = which ∧
    (d.arb ≠ which → which = .ignoreRect → (devStep d m dev (.arbitration which r)).2.1.rect = r) := by
  simp only [devStep]
  split
  · rename_i e
    exact ⟨h, e.symm, fun c _ => absurd e.symm c⟩
  · cases which with
    | notActive => exact ⟨⟨h.mt, h.down, h.up, h.motion, fun c => (by cases c)⟩, rfl, fun _ c => (by cases c)⟩
    | ignoreRect =>
      obtain ⟨v, ss, e, _⟩ := cancelTouches_shape d m dev (some r)
      dsimp only
      rw [e]
      exact ⟨⟨h.mt, h.down, h.up, h.motion, fun c => (by cases c)⟩, rfl, fun _ _ => rfl⟩
    | ignoreAll =>
      obtain ⟨v, ss, e, _⟩ := cancelTouches_shape d m dev none
      dsimp only
      rw [e]
      exact ⟨⟨h.mt, h.down, h.up, h.motion, fun _ => ⟨rfl, rfl⟩⟩, rfl, fun _ c => (by cases c)⟩

theorem step_agree {T S : Axes} {w : Pen} {s : St} (h : Agree T S w s) (op : Op) :
    Agree T S (pen w [op]) (step T S s op).1 := by
  cases op with
  | elsewhere m => exact ⟨h.scr, h.same, h.away, h.up, h.tilted⟩
  | leave =>
    obtain ⟨a, b, _⟩ := set_mt h.scr s.map 0 .notActive (toUnits S ⟨0, 0, 0, 0⟩)
    exact ⟨a, b.symm, fun _ => b, fun c => (by cases c), fun _ _ c => (by cases c)⟩
  | pen p t =>
    simp only [pen]
    by_cases ht : t = 0
    · subst ht
      simp only [if_true]
      have key : ∀ s : St, Mt s.dev → Agree T S .upright (toggle T S s p 0).1 := by
        intro s hs
        simp only [toggle, if_true]
        obtain ⟨a, b, _⟩ := set_mt hs s.map 0 .ignoreAll (toUnits S ⟨0, 0, 0, 0⟩)
        exact ⟨a, b.symm, fun c => (by cases c), fun _ => b, fun _ _ c => (by cases c)⟩
      refine key _ ?_
      unfold updateRect
      split
      · exact h.scr
      · exact ⟨h.scr.mt, h.scr.down, h.scr.up, h.scr.motion, h.scr.all⟩
    · simp only [if_neg ht, step]
      by_cases ha : s.arb = .ignoreRect
      · have e : updateRect T S s p t = touch s (.updateRect (toUnits S (arbitrationRect T p t))) := by
          unfold updateRect; rw [if_neg (by simp [ha])]
        rw [e]
        have e2 : ∀ s : St, s.arb = .ignoreRect → toggle T S s p t = (s, []) := by
          intro s hs; unfold toggle; rw [if_neg ht, if_neg (by simp [hs])]
        rw [e2 (touch s (.updateRect (toUnits S (arbitrationRect T p t)))).1 ha]
        refine ⟨⟨h.scr.mt, h.scr.down, h.scr.up, h.scr.motion, h.scr.all⟩, h.same, fun c => (by cases c), fun c => (by cases c), ?_⟩
        intro p' t' c
        cases c
        exact ⟨h.same.symm.trans ha, rfl⟩
      · have e : updateRect T S s p t = (s, []) := by unfold updateRect; rw [if_pos ha]
        rw [e]
        unfold toggle
        rw [if_neg ht, if_pos ha]
        obtain ⟨a, b, c⟩ := set_mt h.scr s.map 0 .ignoreRect (toUnits S (arbitrationRect T p t))
        refine ⟨a, b.symm, fun c => (by cases c), fun c => (by cases c), ?_⟩
        intro p' t' e
        cases e
        exact ⟨b, c (by rw [← h.same]; exact ha) rfl⟩
  | touch op =>
    have own : Own op → Agree T S w (touch s op).1 := by
      intro ho
      obtain ⟨a, b, c⟩ := own_step h.scr s.map 0 ho
      refine ⟨a, h.same.trans b.symm, fun e => b.trans (h.away e), fun e => b.trans (h.up e), fun p t e => ?_⟩
      exact ⟨b.trans (h.tilted p t e).1, c.trans (h.tilted p t e).2⟩
    cases op <;> first | exact h | exact own trivial

theorem pen_append (w : Pen) (a b : List Op) : pen w (a ++ b) = pen (pen w a) b := by
  induction a generalizing w with
  | nil => rfl
  | cons op a ih => cases op <;> simp [pen, ih]

theorem run_append (T S : Axes) (s : St) (a b : List Op) :
    run T S s (a ++ b) = ((run T S (run T S s a).1 b).1, (run T S s a).2 ++ (run T S (run T S s a).1 b).2) := by
  induction a generalizing s with
  | nil => rfl
  | cons op a ih => simp [run, ih]

theorem run_agree {T S : Axes} (ops : List Op) : ∀ {w : Pen} {s : St}, Agree T S w s → Agree T S (pen w ops) (run T S s ops).1 := by
  induction ops with
  | nil => intro w s h; exact h
  | cons op ops ih =>
    intro w s h
    have := ih (step_agree h op)
    rw [← pen_append] at this
    exact this

/-! ## The area -/

theorem area_exact (T S : Axes) (p : Pt) (t : Rat) (q : Pt) :
    (toUnits S (arbitrationRect T p t)).has q = true ↔ Ignored T S p t q := by
  have e : tip T p = toMm T p := rfl
  simp only [Ignored, e]
  unfold arbitrationRect toUnits Rect.has Across Along
  generalize toMm T p = z
  obtain ⟨x, y⟩ := z
  dsimp only
  by_cases ht : t > 0 <;> simp only [ht, if_true, if_false] <;> by_cases h1 : (20 : Int) ≤ x <;> by_cases h3 : (180 : Int) ≤ x <;>
    by_cases h2 : (50 : Int) ≤ y <;>
    simp only [h1, h2, h3, Int.not_lt.mpr, show (x - 20 < 0) ↔ ¬ 20 ≤ x from by omega, show (x + 20 - 200 < 0) ↔ ¬ 180 ≤ x from by omega,
      show (y - 50 < 0) ↔ ¬ 50 ≤ y from by omega, show (x < 20) ↔ ¬ 20 ≤ x from by omega, show (x < 180) ↔ ¬ 180 ≤ x from by omega,
      show (y < 50) ↔ ¬ 50 ≤ y from by omega, not_true_eq_false, not_false_eq_true, if_true, if_false, Bool.and_eq_true, decide_eq_true_eq,
      true_and, false_and, or_false, false_or] <;> grind

end Libinput.Hand
