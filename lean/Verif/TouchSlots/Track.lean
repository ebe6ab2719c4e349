import Verif.TouchSlots.Lemmas
namespace Libinput.TouchSlots
open Spec

/-! ### Slot by slot -/

theorem finish_31 {m : Map} (hm : m.getLsbD 31 = false) (st : Option Nat) (ev : Nat → Ev) :
    (finish m st ev).1.getLsbD 31 = false := by
  unfold finish; split
  · exact hm
  · simp only [clearBit, BitVec.getLsbD_and, hm, Bool.false_and]

theorem down_31 {m : Map} (hm : m.getLsbD 31 = false) (st : Option Nat) (k : Key) (p : Pt)
    (hn : ∀ k' p', .down k' 31 p' ∉ (down m st k p).2.2) : (down m st k p).1.getLsbD 31 = false := by
  unfold down at hn ⊢
  cases hseat : st with
  | some _ => exact hm
  | none =>
    simp only [hseat] at hn
    cases hf : firstFree m with
    | none => exact hm
    | some q =>
      simp only [hf] at hn ⊢
      obtain ⟨hq, -, -⟩ := firstFree_some hf
      rw [setBit_get m q 31 hq (by omega), hm]
      have : q ≠ 31 := by
        intro e; subst e; exact hn k p (by simp)
      simp; omega

/-- The seat's last slot is only taken by a touch down with that slot. -/
theorem flushSlot_31 {d : Dev} {m : Map} {k : Key} {s : Slot} {sent : Bool} (hm : m.getLsbD 31 = false)
    (hn : ∀ k' p, .down k' 31 p ∉ (flushSlot d m k s sent).2.2.1) :
    (flushSlot d m k s sent).1.getLsbD 31 = false := by
  unfold flushSlot at hn ⊢
  split
  · exact hm
  · rename_i hd
    rw [if_neg hd] at hn
    dsimp only at hn ⊢
    cases hp : s.palm <;> simp only [hp] at hn ⊢
    · cases hs : s.state <;> simp only [hs] at hn ⊢
      · exact hm
      · split
        · exact hm
        · rename_i ha
          rw [if_neg ha] at hn
          exact down_31 hm _ _ _ hn
      · exact hm
      · exact finish_31 hm _ _
    · split
      · exact hm
      · exact finish_31 hm _ _
    · exact hm
    · exact hm

theorem flushSlots_31 (d : Dev) (dev : Nat) (ss : List Slot) :
    ∀ (m : Map) (i : Nat) (sent : Bool), m.getLsbD 31 = false →
      (∀ k p, .down k 31 p ∉ (flushSlots d dev m i ss sent).2.2.1) →
      (flushSlots d dev m i ss sent).1.getLsbD 31 = false := by
  induction ss with
  | nil => intro m i sent hm _; exact hm
  | cons s ss ih =>
    intro m i sent hm hn
    simp only [flushSlots, List.mem_append, not_or] at hn ⊢
    exact ih _ _ _ (flushSlot_31 hm (fun k p => (hn k p).1)) (fun k p => (hn k p).2)

theorem cancelSlots_31 (dev : Nat) (rect : Option Rect) (ss : List Slot) :
    ∀ (m : Map) (i : Nat), m.getLsbD 31 = false → (cancelSlots dev rect m i ss).1.getLsbD 31 = false := by
  induction ss with
  | nil => intro m i hm; exact hm
  | cons s ss ih =>
    intro m i hm
    simp only [cancelSlots]
    apply ih
    split
    · exact finish_31 hm _ _
    · exact hm

theorem flushSt_31 {d : Dev} {m : Map} {dev : Nat} (hm : m.getLsbD 31 = false)
    (hn : ∀ k p, .down k 31 p ∉ (flushSt d m dev).2.2) : (flushSt d m dev).1.getLsbD 31 = false := by
  unfold flushSt at hn ⊢
  by_cases hd : d.pDown = true
  · rw [if_pos hd] at hn ⊢
    have : (down m d.seat (dev, none) d.point).1.getLsbD 31 = false := by
      apply down_31 hm
      intro k p hk
      apply hn k p
      split
      · exact List.mem_append.2 (.inl hk)
      · exact hk
    split
    · exact finish_31 this _ _
    · exact this
  · rw [if_neg hd]
    have : ∀ r : Map × Option Nat × List Ev, r.1.getLsbD 31 = false →
        (if d.pUp then (let r' := finish r.1 r.2.1 (.up (dev, none)); (r'.1, r'.2.1, r.2.2 ++ r'.2.2)) else r).1.getLsbD 31
          = false := by
      intro r hr
      split
      · exact finish_31 hr _ _
      · exact hr
    apply this
    split
    · split <;> exact hm
    · exact hm

theorem devStep_31 {d : Dev} {m : Map} {dev : Nat} {op : Op} (hm : m.getLsbD 31 = false)
    (hn : ∀ k p, .down k 31 p ∉ (devStep d m dev op).2.2) : (devStep d m dev op).1.getLsbD 31 = false := by
  have cancel : ∀ rect, (cancelTouches d m dev rect).1.getLsbD 31 = false := by
    intro rect
    unfold cancelTouches
    apply cancelSlots_31
    split
    · exact finish_31 hm _ _
    · exact hm
  cases op with
  | suspend => exact cancel none
  | arbitration which r =>
    simp only [devStep]
    split
    · exact hm
    · cases which with
      | notActive => exact hm
      | ignoreRect => exact cancel _
      | ignoreAll => exact cancel _
  | timeout => simp only [devStep]; split <;> exact hm
  | updateRect r => exact hm
  | syn =>
    simp only [devStep] at hn ⊢
    split
    · exact hm
    · rename_i hl
      rw [if_neg hl] at hn
      unfold handleState at hn ⊢
      dsimp only at hn ⊢
      split
      · rename_i hp
        rw [if_pos hp] at hn
        simp only [List.mem_append, not_or] at hn
        exact flushSlots_31 _ _ _ _ _ _ (flushSt_31 hm (fun k p => (hn k p).1.1)) (fun k p => (hn k p).1.2)
      · rename_i hp
        rw [if_neg hp] at hn
        simp only [List.mem_append, not_or] at hn
        exact flushSt_31 hm (fun k p => (hn k p).1)
  | _ =>
    simp only [devStep]
    repeat' split
    all_goals exact hm

/-- Each slot is flushed on its own, with some map and some value of `sent`. -/
theorem flushSlots_get (d : Dev) (dev : Nat) (ss : List Slot) :
    ∀ (m : Map) (i : Nat) (sent : Bool), (flushSlots d dev m i ss sent).2.1.length = ss.length ∧
      ∀ (j : Nat) (s : Slot), ss[j]? = some s → ∃ m' sent',
        (flushSlots d dev m i ss sent).2.1[j]? = some (flushSlot d m' (dev, some (i + j)) s sent').2.1 ∧
        (∀ e ∈ (flushSlot d m' (dev, some (i + j)) s sent').2.2.1, e ∈ (flushSlots d dev m i ss sent).2.2.1) ∧
        (m.getLsbD 31 = false → (∀ k p, .down k 31 p ∉ (flushSlots d dev m i ss sent).2.2.1) →
          m'.getLsbD 31 = false) := by
  induction ss with
  | nil => intro m i sent; simp [flushSlots]
  | cons s0 ss ih =>
    intro m i sent
    obtain ⟨hl, hg⟩ := ih (flushSlot d m (dev, some i) s0 sent).1 (i + 1) (flushSlot d m (dev, some i) s0 sent).2.2.2
    refine ⟨by simp [flushSlots, hl], ?_⟩
    intro j s hj
    cases j with
    | zero =>
      simp only [List.getElem?_cons_zero, Option.some.injEq] at hj
      subst hj
      exact ⟨m, sent, by simp [flushSlots], by intro e he; simp [flushSlots]; exact .inl he, fun h _ => h⟩
    | succ j =>
      simp only [List.getElem?_cons_succ] at hj
      obtain ⟨m', sent', h1, h2, h3⟩ := hg j s hj
      refine ⟨m', sent', ?_, ?_, ?_⟩
      · simp only [flushSlots, List.getElem?_cons_succ, h1]
        rw [Nat.add_assoc, Nat.add_comm 1 j]
      · intro e he
        simp only [flushSlots, List.mem_append]
        rw [show i + (j + 1) = i + 1 + j by omega] at he
        exact .inr (h2 e he)
      · intro hm hn
        simp only [flushSlots, List.mem_append, not_or] at hn
        refine h3 ?_ (fun k p => (hn k p).2)
        exact flushSlot_31 hm (fun k p => (hn k p).1)

theorem cancelSlots_get (dev : Nat) (rect : Option Rect) (ss : List Slot) :
    ∀ (m : Map) (i : Nat), (cancelSlots dev rect m i ss).2.1.length = ss.length ∧
      ∀ (j : Nat) (s : Slot), ss[j]? = some s → ∃ v, (cancelSlots dev rect m i ss).2.1[j]? = some { s with seat := v } ∧
        (v = s.seat ∨ v = none) ∧ (rect = none → v = none) := by
  induction ss with
  | nil => intro m i; simp [cancelSlots]
  | cons s0 ss ih =>
    intro m i
    constructor
    · simp only [cancelSlots, List.length_cons, (ih _ _).1]
    intro j s hj
    cases j with
    | zero =>
      simp only [List.getElem?_cons_zero, Option.some.injEq] at hj
      subst hj
      simp only [cancelSlots, List.getElem?_cons_zero, Option.some.injEq]
      by_cases hc : rect.all (·.has s0.point) = true
      · rw [if_pos hc]
        refine ⟨none, ?_, .inr rfl, fun _ => rfl⟩
        cases hs : s0.seat <;> simp [finish]
      · rw [if_neg hc]
        refine ⟨s0.seat, rfl, .inl rfl, ?_⟩
        intro hr; simp [hr] at hc
    | succ j =>
      simp only [List.getElem?_cons_succ] at hj
      simp only [cancelSlots, List.getElem?_cons_succ]
      exact (ih _ _).2 j s hj

/-! ### The device follows the hardware -/

/-- What an orderly history keeps true. -/
structure Follows (w : Hw) (d : Dev) : Prop where
  isMt : d.isMt = w.isMt
  n : d.slots.length = w.n
  cur : d.cur = w.cur
  inCur : w.isMt = true → w.cur < w.n
  live : d.inArb = false
  dirty : ∀ (i : Nat) (s : Slot), d.slots[i]? = some s → s.dirty = w.changed i
  inside : ∀ i, w.changed i = true → i < w.n
  pMt : ∀ i, w.changed i = true → d.pMt = true
  mt : w.isMt = true → d.pDown = false ∧ d.pUp = false ∧ d.pMotion = false ∧ d.seat = none
  st : w.isMt = false → d.pMt = false
  touched : d.pUp = false → (d.pDown = true ∨ w.lastTouching = true) → w.touching = true
  heldSt : d.seat.isSome → w.lastTouching = true

/-- What the steps of single slots have to keep true: `R` relates the hardware's slot (contact now, contact at the last
frame) and libinput's. -/
structure SlotRel (R : Bool → Bool → Slot → Prop) (w : Hw) (d : Dev) : Prop where
  rel : ∀ (i : Nat) (s : Slot), d.slots[i]? = some s → R (w.active i) (w.last i) s

theorem flushSlot_dirty (d : Dev) (m : Map) (k : Key) (s : Slot) (sent : Bool) :
    (flushSlot d m k s sent).2.1.dirty = false := by
  have hmo : ∀ s : Slot, s.dirty = false → (motion d s k).1.dirty = false := by
    intro s hs
    unfold motion defuzz
    split
    · exact hs
    · cases d.hyst with
      | none => simpa using hs
      | some f => dsimp only; split <;> split <;> simpa using hs
  unfold flushSlot
  split
  · simp_all
  · dsimp only
    cases hp : s.palm <;> dsimp only
    · cases hs : s.state <;> dsimp only
      · split <;> rfl
      · exact hmo _ rfl
    · split <;> rfl

theorem modify_get {ss : List Slot} {i : Nat} {f : Slot → Slot} {j : Nat} {s : Slot}
    (h : (ss.modify i f)[j]? = some s) : ∃ s0, ss[j]? = some s0 ∧ s = if i = j then f s0 else s0 := by
  rw [List.getElem?_modify] at h
  split at h
  · rename_i hij; simp [hij] at h ⊢; obtain ⟨a, ha, hb⟩ := h; exact ⟨a, ha, hb.symm⟩
  · rename_i hij; simp [hij] at h ⊢; exact h

/-- `flushSt` of a device without a slot change. -/
theorem flushSt_quiet (d : Dev) (m : Map) (dev : Nat) (h1 : d.pDown = false) (h2 : d.pUp = false)
    (h3 : d.pMotion = false) : flushSt d m dev = (m, d.seat, []) := by
  simp [flushSt, h1, h2, h3]

theorem flushSt_up (d : Dev) (m : Map) (dev : Nat) (h : d.pUp = true) : (flushSt d m dev).2.1 = none := by
  simp only [flushSt, h, if_true]
  unfold finish
  split <;> rfl

theorem flushSt_seat (d : Dev) (m : Map) (dev : Nat) (h : d.pUp = false) (h' : d.pDown = false) :
    (flushSt d m dev).2.1 = d.seat := by
  simp only [flushSt, h, h', Bool.false_eq_true, if_false]
  split
  · cases d.seat <;> rfl
  · rfl

theorem handleState_slots (d : Dev) (m : Map) (dev : Nat) : (handleState d m dev).2.1.slots =
    if d.pMt then
      (flushSlots { d with seat := (flushSt d m dev).2.1 } dev (flushSt d m dev).1 0 d.slots false).2.1
    else d.slots := by
  unfold handleState
  dsimp only
  split <;> rfl

theorem follows_syn {w : Hw} {d : Dev} (f : Follows w d) (m : Map) (dev : Nat) :
    Follows (w.step .syn) (handleState d m dev).2.1 := by
  have hsl := handleState_slots d m dev
  have hd : (handleState d m dev).2.1 =
      { d with seat := (flushSt d m dev).2.1, slots := (handleState d m dev).2.1.slots,
               pDown := false, pUp := false, pMotion := false, pMt := false } := by
    unfold handleState; dsimp only; split <;> rfl
  have hlen : (handleState d m dev).2.1.slots.length = d.slots.length := by
    rw [hsl]; split
    · exact (flushSlots_get _ _ _ _ _ _).1
    · rfl
  have hdirty : ∀ (i : Nat) (s : Slot), (handleState d m dev).2.1.slots[i]? = some s → s.dirty = false := by
    intro i s hs
    rw [hsl] at hs
    split at hs
    · have hi : i < d.slots.length := by
        rcases Nat.lt_or_ge i d.slots.length with h | h
        · exact h
        · rw [List.getElem?_eq_none (by rw [(flushSlots_get _ _ _ _ _ _).1]; exact h)] at hs; cases hs
      obtain ⟨m', sent', h1, -, -⟩ := (flushSlots_get { d with seat := (flushSt d m dev).2.1 } dev d.slots
        (flushSt d m dev).1 0 false).2 i d.slots[i] (by simp [hi])
      rw [h1] at hs
      simp only [Option.some.injEq] at hs
      rw [← hs]; exact flushSlot_dirty _ _ _ _ _
    · rename_i hp
      rw [f.dirty i s hs]
      cases hc : w.changed i
      · rfl
      · exact absurd (f.pMt i hc) hp
  rw [hd]
  constructor
  · exact f.isMt
  · exact hlen.trans f.n
  · exact f.cur
  · exact f.inCur
  · exact f.live
  · intro i s hs; exact hdirty i s hs
  · intro i hi; simp [Hw.step] at hi
  · intro i hi; simp [Hw.step] at hi
  · intro hm
    obtain ⟨h1, h2, h3, h4⟩ := f.mt hm
    rw [flushSt_quiet d m dev h1 h2 h3]
    exact ⟨rfl, rfl, rfl, h4⟩
  · intro _; rfl
  · intro _ h; simpa [Hw.step] using h
  · intro h
    simp only at h
    simp only [Hw.step]
    by_cases hu : d.pUp = true
    · rw [flushSt_up d m dev hu] at h; cases h
    · have hu : d.pUp = false := by simpa using hu
      by_cases hdn : d.pDown = true
      · exact f.touched hu (.inl hdn)
      · rw [flushSt_seat d m dev hu (by simpa using hdn)] at h
        exact f.touched hu (.inr (f.heldSt h))

theorem cancelTouches_shape (d : Dev) (m : Map) (dev : Nat) (rect : Option Rect) :
    ∃ v ss, (cancelTouches d m dev rect).2.1 = { d with seat := v, slots := ss } ∧ ss.length = d.slots.length ∧
      (v = d.seat ∨ v = none) ∧ (rect = none → v = none) ∧
      ∀ (j : Nat) (s : Slot), ss[j]? = some s → ∃ (s0 : Slot) (u : Option Nat), d.slots[j]? = some s0 ∧ s = { s0 with seat := u } ∧
        (u = s0.seat ∨ u = none) ∧ (rect = none → u = none) := by
  unfold cancelTouches
  dsimp only
  refine ⟨_, _, rfl, (cancelSlots_get _ _ _ _ _).1, ?_, ?_, ?_⟩
  · split
    · cases d.seat <;> simp [finish]
    · exact .inl rfl
  · intro h; simp only [h, Option.all_none, if_true]; cases d.seat <;> rfl
  · intro j s hs
    generalize (if rect.all (·.has d.point) then finish m d.seat (.cancel (dev, none)) else (m, d.seat, [])).1 = m' at hs
    have hj : j < d.slots.length := by
      rcases Nat.lt_or_ge j d.slots.length with h | h
      · exact h
      · rw [List.getElem?_eq_none (by rw [(cancelSlots_get _ _ _ _ _).1]; exact h)] at hs; cases hs
    obtain ⟨v, h1, h2, h3⟩ := (cancelSlots_get dev rect d.slots m' 0).2 j d.slots[j] (by simp [hj])
    rw [h1] at hs
    simp only [Option.some.injEq] at hs
    exact ⟨d.slots[j], v, by simp [hj], hs.symm, h2, h3⟩

theorem follows_cancel {w : Hw} {d : Dev} (f : Follows w d) (m : Map) (dev : Nat) (rect : Option Rect) :
    Follows w (cancelTouches d m dev rect).2.1 := by
  obtain ⟨v, ss, he, hl, hv, -, hs⟩ := cancelTouches_shape d m dev rect
  rw [he]
  have hvs : v.isSome → d.seat.isSome := by
    rcases hv with h | h <;> simp [h]
  refine ⟨f.isMt, hl.trans f.n, f.cur, f.inCur, f.live, ?_, f.inside, f.pMt, ?_, f.st, f.touched,
    fun h => f.heldSt (hvs h)⟩
  · intro i s hi
    obtain ⟨s0, u, h0, h1, -, -⟩ := hs i s hi
    rw [h1]; exact f.dirty i s0 h0
  · intro hm
    obtain ⟨h1, h2, h3, h4⟩ := f.mt hm
    refine ⟨h1, h2, h3, ?_⟩
    rcases hv with h | h
    · exact h.trans h4
    · exact h

theorem follows_modify {w w' : Hw} {d : Dev} (f : Follows w d) (hm : w.isMt = true) (g : Slot → Slot)
    (hg : ∀ s, (g s).dirty = true)
    (hw' : w' = { w with active := w'.active, changed := change w.changed w.cur true }) :
    Follows w' ({ d with pMt := true }.modify g) := by
  rw [hw']
  refine ⟨f.isMt, by simp [Dev.modify, f.n], f.cur, f.inCur, f.live, ?_, ?_, ?_, ?_, ?_, f.touched, f.heldSt⟩
  · intro i s hs
    simp only [Dev.modify] at hs
    obtain ⟨s0, h0, h1⟩ := modify_get hs
    rw [h1]
    simp only [change]
    rw [f.cur]
    by_cases hi : i = w.cur
    · simp [hi, hg]
    · have : ¬ w.cur = i := fun e => hi e.symm
      simp [hi, this, f.dirty i s0 h0]
  · intro i hi
    simp only [change] at hi
    split at hi
    · rename_i e; subst e; exact f.inCur hm
    · exact f.inside i hi
  · intro i _; rfl
  · exact f.mt
  · intro hm'; simp only at hm'; rw [hm] at hm'; cases hm'

theorem follows_step {w : Hw} {d : Dev} (f : Follows w d) (m : Map) (dev : Nat) (op : Op) (ho : Orderly w op) :
    Follows (w.step op) (devStep d m dev op).2.1 := by
  have hl' : ¬ d.inArb = true := by simp [f.live]
  cases op with
  | slot v =>
    obtain ⟨h1, h2, h3⟩ := ho
    have hd : d.isMt = true := f.isMt.trans h1
    simp only [devStep]
    rw [if_neg hl', if_pos hd]
    simp only [processTouch]
    rw [if_neg (by rw [f.n]; omega)]
    refine ⟨f.isMt, f.n, rfl, ?_, f.live, f.dirty, f.inside, f.pMt, f.mt, f.st, f.touched, f.heldSt⟩
    intro _; simp only [Hw.step]; omega
  | tracking v t =>
    have hd : d.isMt = true := f.isMt.trans ho
    simp only [devStep]
    rw [if_neg hl', if_pos hd]
    simp only [processTouch]
    split <;> exact follows_modify f ho _ (fun _ => rfl) rfl
  | mtX v =>
    have hd : d.isMt = true := f.isMt.trans ho
    simp only [devStep]
    rw [if_neg hl', if_pos hd]
    simp only [processTouch]
    exact follows_modify f ho _ (fun _ => rfl) rfl
  | mtY v =>
    have hd : d.isMt = true := f.isMt.trans ho
    simp only [devStep]
    rw [if_neg hl', if_pos hd]
    simp only [processTouch]
    exact follows_modify f ho _ (fun _ => rfl) rfl
  | tool v =>
    have hd : d.isMt = true := f.isMt.trans ho
    simp only [devStep]
    rw [if_neg hl', if_pos hd]
    simp only [processTouch]
    exact follows_modify f ho _ (fun _ => rfl) rfl
  | touch v =>
    have hw : w.isMt = false := ho
    have hd : d.isMt = false := f.isMt.trans hw
    have hd' : ¬ d.isMt = true := by simp [hd]
    simp only [devStep, Hw.step]
    rw [if_neg hl', if_neg hd']
    split
    · exact f
    · split
      · rename_i h0
        refine ⟨f.isMt, f.n, f.cur, f.inCur, f.live, f.dirty, f.inside, f.pMt, ?_, f.st, ?_, f.heldSt⟩
        · intro h; simp only at h; rw [hw] at h; cases h
        · intro h; simp at h
      · rename_i h0
        refine ⟨f.isMt, f.n, f.cur, f.inCur, f.live, f.dirty, f.inside, f.pMt, ?_, f.st, ?_, f.heldSt⟩
        · intro h; simp only at h; rw [hw] at h; cases h
        · intro _ _; simpa using h0
  | absX v =>
    simp only [devStep, Hw.step]
    rw [if_neg hl']
    split
    · exact f
    · rename_i hm
      rw [f.isMt] at hm
      exact ⟨f.isMt, f.n, f.cur, f.inCur, f.live, f.dirty, f.inside, f.pMt, fun h => absurd h hm, f.st, f.touched,
        f.heldSt⟩
  | absY v =>
    simp only [devStep, Hw.step]
    rw [if_neg hl']
    split
    · exact f
    · rename_i hm
      rw [f.isMt] at hm
      exact ⟨f.isMt, f.n, f.cur, f.inCur, f.live, f.dirty, f.inside, f.pMt, fun h => absurd h hm, f.st, f.touched,
        f.heldSt⟩
  | syn =>
    simp only [devStep]
    rw [if_neg hl']
    exact follows_syn f m dev
  | suspend => exact follows_cancel f m dev none
  | arbitration which rect =>
    simp only [devStep, Hw.step]
    split
    · exact f
    · cases which with
      | notActive =>
        exact ⟨f.isMt, f.n, f.cur, f.inCur, f.live, f.dirty, f.inside, f.pMt, f.mt, f.st, f.touched, f.heldSt⟩
      | ignoreRect =>
        have g := follows_cancel f m dev (some rect)
        exact ⟨g.isMt, g.n, g.cur, g.inCur, g.live, g.dirty, g.inside, g.pMt, g.mt, g.st, g.touched, g.heldSt⟩
      | ignoreAll => exact absurd rfl ho
  | timeout =>
    simp only [devStep, Hw.step]
    split
    · exact ⟨f.isMt, f.n, f.cur, f.inCur, rfl, f.dirty, f.inside, f.pMt, f.mt, f.st, f.touched, f.heldSt⟩
    · exact f
  | updateRect rect =>
    exact ⟨f.isMt, f.n, f.cur, f.inCur, f.live, f.dirty, f.inside, f.pMt, f.mt, f.st, f.touched, f.heldSt⟩

/-! ### Histories -/

theorem hardware_append (ws : List Hw) (a b : List SeatOp) : hardware ws (a ++ b) = hardware (hardware ws a) b := by
  induction a generalizing ws with
  | nil => rfl
  | cons op a ih =>
    cases op with
    | add => simp only [List.cons_append, hardware, ih]
    | dev i op =>
      simp only [List.cons_append, hardware]
      cases ws[i]? <;> simp only [ih]

theorem every_append (p : Hw → Op → Prop) (ws : List Hw) (a b : List SeatOp) :
    Every p ws (a ++ b) ↔ Every p ws a ∧ Every p (hardware ws a) b := by
  induction a generalizing ws with
  | nil => simp [Every, hardware]
  | cons op a ih =>
    cases op with
    | add => simp only [List.cons_append, Every, ih, and_assoc]; rfl
    | dev i op =>
      simp only [List.cons_append, Every, ih, and_assoc]
      have : hardware (hardware ws [.dev i op]) a = hardware ws (.dev i op :: a) := by
        rw [← hardware_append]; rfl
      rw [this]

theorem every_mono {p q : Hw → Op → Prop} (h : ∀ w op, p w op → q w op) (ops : List SeatOp) :
    ∀ ws, Every p ws ops → Every q ws ops := by
  induction ops with
  | nil => intro ws _; trivial
  | cons op ops ih =>
    intro ws hw
    cases op with
    | add => exact ⟨hw.1, ih _ hw.2⟩
    | dev i op => exact ⟨fun w e => h w op (hw.1 w e), ih _ hw.2⟩

/-- Every device is related to its hardware by `R`. -/
def Rel (R : Hw → Dev → Prop) (ws : List Hw) (s : Seat) : Prop :=
  ws.length = s.devs.length ∧ ∀ (i : Nat) w d, ws[i]? = some w → s.devs[i]? = some d → R w d

/-- A relation kept by the steps of a device is kept over histories.  `E` is what is known of the events of a step. -/
theorem rel_run {R : Hw → Dev → Prop} {p : Hw → Op → Prop} {E : List Ev → Prop} {M : Map → Prop}
    (hE : ∀ a b, E (a ++ b) → E a ∧ E b)
    (hnew : ∀ isMt n cur hasPalm hyst, (isMt = true → cur < n) →
      R ⟨isMt, n, cur, fun _ => false, fun _ => false, fun _ => false, false, false⟩ (newDev isMt n cur hasPalm hyst))
    (hstep : ∀ w d m dev op, R w d → p w op → M m → E (devStep d m dev op).2.2 →
      R (w.step op) (devStep d m dev op).2.1 ∧ M (devStep d m dev op).1)
    (ops : List SeatOp) :
    ∀ ws s, Rel R ws s → M s.map → Every p ws ops → E (run s ops).2 →
      Rel R (hardware ws ops) (run s ops).1 ∧ M (run s ops).1.map := by
  induction ops with
  | nil => intro ws s h hm _ _; exact ⟨h, hm⟩
  | cons op ops ih =>
    intro ws s h hm hw he
    obtain ⟨he1, he2⟩ := hE _ _ he
    cases op with
    | add isMt n cur hasPalm hyst =>
      refine ih _ _ ?_ hm hw.2 he2
      refine ⟨by simp [step, hardware, h.1], ?_⟩
      intro i w d hwi hdi
      simp only [step, hardware] at hwi hdi
      rw [List.getElem?_append] at hwi hdi
      rw [h.1] at hwi
      split at hwi
      · rename_i hlt
        rw [if_pos hlt] at hdi
        exact h.2 i w d hwi hdi
      · rename_i hlt
        rw [if_neg hlt] at hdi
        have h0 : i - s.devs.length = 0 := by
          rcases hh : i - s.devs.length with _ | j
          · rfl
          · rw [hh] at hdi; simp at hdi
        rw [h0] at hwi hdi
        simp at hwi hdi
        rw [← hwi, ← hdi]
        exact hnew _ _ _ _ _ hw.1
    | dev i op =>
      simp only [hardware]
      simp only [run, step] at he1 he2 ⊢
      have hw2 := hw.2
      simp only [hardware] at hw2
      cases hwi : ws[i]? with
      | none =>
        have hdi : s.devs[i]? = none := by
          rw [List.getElem?_eq_none_iff] at hwi ⊢; rw [← h.1]; exact hwi
        rw [hwi] at hw2
        simp only [hdi] at he1 he2 ⊢
        exact ih _ _ h hm hw2 he2
      | some w =>
        have hil : i < s.devs.length := by
          rw [← h.1]
          rcases Nat.lt_or_ge i ws.length with hh | hh
          · exact hh
          · rw [List.getElem?_eq_none hh] at hwi; cases hwi
        have hdi : s.devs[i]? = some s.devs[i] := by simp [hil]
        rw [hwi] at hw2
        simp only [hdi] at he1 he2 ⊢
        have hR := hstep w s.devs[i] s.map i op (h.2 i w _ hwi hdi) (hw.1 w hwi) hm he1
        refine ih _ _ ?_ hR.2 hw2 he2
        refine ⟨by simp [h.1], ?_⟩
        intro j w' d' hwj hdj
        rw [List.getElem?_set] at hwj hdj
        by_cases hij : i = j
        · subst hij
          simp [h.1, hil] at hwj hdj
          rw [← hwj, ← hdj]
          exact hR.1
        · simp only [hij, if_false] at hwj hdj
          exact h.2 j w' d' hwj hdj

theorem follows_new (isMt : Bool) (n cur : Nat) (hasPalm : Bool) (hyst : Option (Pt → Pt → Pt))
    (hc : isMt = true → cur < n) :
    Follows ⟨isMt, n, cur, fun _ => false, fun _ => false, fun _ => false, false, false⟩
      (newDev isMt n cur hasPalm hyst) := by
  refine ⟨rfl, by simp [newDev], rfl, hc, rfl, ?_, by simp, by simp, fun _ => ⟨rfl, rfl, rfl, rfl⟩, fun _ => rfl,
    by simp [newDev], by simp [newDev]⟩
  intro i s hs
  simp only [newDev, List.getElem?_replicate] at hs
  split at hs
  · simp at hs; rw [← hs]
  · cases hs

theorem start_rel (R : Hw → Dev → Prop) : Rel R [] start := ⟨rfl, by simp⟩

end Libinput.TouchSlots
