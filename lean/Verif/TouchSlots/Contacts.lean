import Verif.TouchSlots.Track
namespace Libinput.TouchSlots
open Spec

/-- What a kernel event does to the current slot. -/
def slotOp (hasPalm : Bool) : Op → Slot → Slot
  | .tracking v palmTool, s =>
    if v ≥ 0 then
      { s with state := .begin, dirty := true, palm := if hasPalm && palmTool then Palm.wasPalm else Palm.none }
    else { s with state := .end, dirty := true }
  | .mtX v, s => { s with point := (v, s.point.2), dirty := true }
  | .mtY v, s => { s with point := (s.point.1, v), dirty := true }
  | .tool palm, s => { s with
      palm := if palm then (if s.palm = Palm.none then Palm.new else s.palm)
              else (if s.palm = Palm.isPalm then Palm.wasPalm else s.palm),
      dirty := true }
  | _, s => s

/-- Events for slots. -/
def slotEvent : Op → Bool
  | .tracking _ _ => true
  | .mtX _ => true
  | .mtY _ => true
  | .tool _ => true
  | _ => false

theorem devStep_slotEvent {d : Dev} {m : Map} {dev : Nat} {op : Op} (hl : d.inArb = false) (hd : d.isMt = true)
    (ho : slotEvent op = true) : (devStep d m dev op).2.1 = { d with pMt := true }.modify (slotOp d.hasPalm op) := by
  have hl' : ¬ d.inArb = true := by simp [hl]
  cases op <;> simp only [slotEvent, Bool.false_eq_true] at ho <;>
    (simp only [devStep]; rw [if_neg hl', if_pos hd]; simp only [processTouch])
  · split
    · rename_i h; congr 1; funext s; simp [slotOp, h]
    · rename_i h; congr 1; funext s; simp [slotOp, h]
  all_goals (congr 1)

/-- A relation between the hardware's slot (contact now, contact at the last frame) and libinput's. -/
def Slots (R : Bool → Bool → Slot → Prop) (w : Hw) (d : Dev) : Prop :=
  ∀ (i : Nat) (s : Slot), d.slots[i]? = some s → R (w.active i) (w.last i) s

theorem slots_step {R : Bool → Bool → Slot → Prop} {w : Hw} {d : Dev} (f : Follows w d) (m : Map) (dev : Nat)
    (op : Op) (ho : Orderly w op) (hs : Slots R w d)
    (hop : slotEvent op = true → ∀ s, R (w.active w.cur) (w.last w.cur) s →
      R ((w.step op).active w.cur) (w.last w.cur) (slotOp d.hasPalm op s))
    (hcancel : (op = .suspend ∨ ∃ r, op = .arbitration .ignoreRect r) → ∀ a l s, R a l s → R a l { s with seat := none })
    (hclean : ∀ a l s, s.dirty = false → R a l s → R a a s)
    (hflush : ∀ (m' : Map) (e : Dev) (i : Nat) (sent : Bool) (s : Slot), op = .syn → s.dirty = true →
      e.arb = d.arb → e.hyst = d.hyst →
      (m.getLsbD 31 = false → (∀ k p, .down k 31 p ∉ (devStep d m dev op).2.2) → m'.getLsbD 31 = false) →
      R (w.active i) (w.last i) s →
      R (w.active i) (w.active i) (flushSlot e m' (dev, some i) s sent).2.1) :
    Slots R (w.step op) (devStep d m dev op).2.1 := by
  have hl' : ¬ d.inArb = true := by simp [f.live]
  have cancel : (op = .suspend ∨ ∃ r, op = .arbitration .ignoreRect r) → ∀ rect,
      Slots R w (cancelTouches d m dev rect).2.1 := by
    intro hc rect i s hi
    obtain ⟨v, ss, he, -, -, -, hss⟩ := cancelTouches_shape d m dev rect
    rw [he] at hi
    obtain ⟨s0, u, h0, h1, h2, -⟩ := hss i s hi
    have hr := hs i s0 h0
    rcases h2 with h | h
    · have : s = s0 := by rw [h1, h]
      rw [this]; exact hr
    · rw [h1, h]; exact hcancel hc _ _ _ hr
  by_cases hev : slotEvent op = true
  · have hm : w.isMt = true := by cases op <;> simp_all [slotEvent, Orderly]
    rw [devStep_slotEvent f.live (f.isMt.trans hm) hev]
    intro i s hi
    obtain ⟨s0, h0, h1⟩ := modify_get hi
    have hlast : (w.step op).last = w.last := by cases op <;> simp_all [slotEvent, Hw.step]
    have hoth : ∀ j, j ≠ w.cur → (w.step op).active j = w.active j := by
      intro j hj; cases op <;> simp_all [slotEvent, Hw.step, change]
    have hcur : d.cur = w.cur := f.cur
    rw [hlast, h1]
    simp only [hcur]
    by_cases hi : w.cur = i
    · subst hi; simp only [if_true]; exact hop hev s0 (hs _ _ h0)
    · simp only [hi, if_false]; rw [hoth i (fun e => hi e.symm)]; exact hs _ _ h0
  · cases op with
    | tracking v t => exact absurd rfl hev
    | mtX v => exact absurd rfl hev
    | mtY v => exact absurd rfl hev
    | tool v => exact absurd rfl hev
    | slot v =>
      simp only [devStep]
      rw [if_neg hl', if_pos (f.isMt.trans ho.1)]
      exact hs
    | touch v =>
      have e : (devStep d m dev (.touch v)).2.1.slots = d.slots := by
        simp only [devStep]; repeat' split
        all_goals rfl
      have e1 : ∀ i, (w.step (.touch v)).active i = w.active i := by intro i; simp only [Hw.step]; split <;> rfl
      have e2 : ∀ i, (w.step (.touch v)).last i = w.last i := by intro i; simp only [Hw.step]; split <;> rfl
      intro i s hi; rw [e] at hi; rw [e1, e2]; exact hs i s hi
    | absX v =>
      have e : (devStep d m dev (.absX v)).2.1.slots = d.slots := by
        simp only [devStep]; repeat' split
        all_goals rfl
      intro i s hi; rw [e] at hi; exact hs i s hi
    | absY v =>
      have e : (devStep d m dev (.absY v)).2.1.slots = d.slots := by
        simp only [devStep]; repeat' split
        all_goals rfl
      intro i s hi; rw [e] at hi; exact hs i s hi
    | suspend => exact cancel (.inl rfl) none
    | timeout =>
      have e : (devStep d m dev .timeout).2.1.slots = d.slots := by
        simp only [devStep]; split <;> rfl
      intro i s hi; rw [e] at hi; exact hs i s hi
    | updateRect r => exact hs
    | arbitration which r =>
      simp only [devStep]
      split
      · exact hs
      · cases which with
        | notActive => exact hs
        | ignoreRect => exact cancel (.inr ⟨r, rfl⟩) (some r)
        | ignoreAll => exact absurd rfl ho
    | syn =>
      have hstep : devStep d m dev .syn = handleState d m dev := by
        simp only [devStep]; rw [if_neg hl']
      intro i s hi
      rw [hstep] at hi
      rw [handleState_slots] at hi
      simp only [Hw.step]
      split at hi
      · rename_i hp
        have hil : i < d.slots.length := by
          rcases Nat.lt_or_ge i d.slots.length with h | h
          · exact h
          · rw [List.getElem?_eq_none (by rw [(flushSlots_get _ _ _ _ _ _).1]; exact h)] at hi; cases hi
        obtain ⟨m', sent', h1, -, h3⟩ := (flushSlots_get { d with seat := (flushSt d m dev).2.1 } dev d.slots
          (flushSt d m dev).1 0 false).2 i d.slots[i] (by simp [hil])
        rw [h1] at hi
        simp only [Nat.zero_add, Option.some.injEq] at hi
        have hr := hs i d.slots[i] (by simp [hil])
        by_cases hdi : d.slots[i].dirty = true
        · rw [← hi]
          refine hflush m' { d with seat := (flushSt d m dev).2.1 } i sent' d.slots[i] rfl hdi rfl rfl ?_ hr
          intro h31 hn
          have hisMt : w.isMt = true := by
            cases hw : w.isMt
            · exact absurd hp (by simp [f.st hw])
            · rfl
          obtain ⟨q1, q2, q3, -⟩ := f.mt hisMt
          refine h3 ?_ ?_
          · rw [flushSt_quiet d m dev q1 q2 q3]; exact h31
          · intro k p hk
            refine hn k p ?_
            rw [hstep]
            unfold handleState
            dsimp only
            rw [if_pos hp]
            exact List.mem_append.2 (.inl (List.mem_append.2 (.inr hk)))
        · have hdi' : d.slots[i].dirty = false := by simpa using hdi
          have : flushSlot { d with seat := (flushSt d m dev).2.1 } m' (dev, some i) d.slots[i] sent' =
              (m', d.slots[i], [], sent') := by
            unfold flushSlot; rw [if_pos (by simp [hdi'])]
          rw [this] at hi
          rw [← hi]
          exact hclean _ _ _ hdi' hr
      · rename_i hp
        have hc : w.changed i = false := by
          cases hc : w.changed i
          · rfl
          · exact absurd (f.pMt i hc) hp
        exact hclean _ _ _ ((f.dirty i s hi).trans hc) (hs i s hi)

/-! ### A touch that is down has a contact -/

/-- A slot whose contacts never end and begin within a frame: a touch is down only for a contact of the last frame. -/
def Sane (a l : Bool) (s : Slot) : Prop :=
  (s.seat.isSome = true → l = true) ∧ ((s.palm = .isPalm ∨ s.palm = .wasPalm) → s.seat = none) ∧
  match s.state with
  | .begin => s.dirty = true ∧ a = true ∧ l = false
  | .update => a = true ∧ l = true
  | .end => s.dirty = true ∧ a = false
  | .none => a = false ∧ l = false

theorem Sane.clean {a l : Bool} {s : Slot} (hd : s.dirty = false) (h : Sane a l s) : Sane a a s := by
  obtain ⟨h1, h2, h3⟩ := h
  refine ⟨?_, h2, ?_⟩
  · cases hs : s.state <;> simp_all
  · cases hs : s.state <;> simp_all

theorem finish_seat (m : Map) (v : Option Nat) (ev : Nat → Ev) : (finish m v ev).2.1 = none := by
  cases v <;> rfl

theorem motion_state (d : Dev) (s : Slot) (k : Key) :
    (motion d s k).1.state = s.state ∧ (motion d s k).1.palm = s.palm := by
  unfold motion defuzz
  split
  · exact ⟨rfl, rfl⟩
  · cases d.hyst with
    | none => exact ⟨rfl, rfl⟩
    | some f => dsimp only; split <;> split <;> exact ⟨rfl, rfl⟩

theorem Sane.flush {a l : Bool} {s : Slot} (d : Dev) (m : Map) (k : Key) (sent : Bool) (hd : s.dirty = true)
    (h : Sane a l s) : Sane a a (flushSlot d m k s sent).2.1 := by
  obtain ⟨h1, h2, h3⟩ := h
  have hseat : l = false → s.seat = none := by
    intro hl; cases hs : s.seat
    · rfl
    · simp_all
  unfold flushSlot
  rw [if_neg (by simp [hd])]
  dsimp only
  have hmo := motion_state d { s with dirty := false } k
  have hms := motion_seat d { s with dirty := false } k
  cases hp : s.palm <;> dsimp only
  · cases hs : s.state <;> simp only [hs] at h3 ⊢
    · exact ⟨by simp_all, by simp, by simp [nextState, h3]⟩
    · split
      · exact ⟨by simp_all, by simp_all, by simp [nextState, h3]⟩
      · refine ⟨by simp_all, by simp, by simp [nextState, h3]⟩
    · rw [hp, hs] at hmo
      rw [hp, hs] at hms
      refine ⟨?_, ?_, ?_⟩
      · simp only [hms]; intro _; exact h3.1
      · simp only [hmo.2]; simp
      · simp only [hmo.1, nextState, h3]; simp
    · refine ⟨by simp [finish_seat], by simp, by simp [nextState, h3]⟩
  · split
    · rename_i hb
      simp only [hb] at h3
      exact ⟨by simp_all, by simp_all, by simp [nextState, hb, h3]⟩
    · rename_i hb
      refine ⟨by simp [finish_seat], by simp [finish_seat], ?_⟩
      cases hs : s.state <;> simp only [hs] at h3 ⊢ <;> simp_all [nextState]
  · refine ⟨by simp_all, by simp_all, ?_⟩
    cases hs : s.state <;> simp only [hs] at h3 ⊢ <;> simp_all [nextState]
  · refine ⟨by simp_all, by simp_all, ?_⟩
    cases hs : s.state <;> simp only [hs] at h3 ⊢ <;> simp_all [nextState]

theorem sane_step {w : Hw} {d : Dev} (f : Follows w d) (m : Map) (dev : Nat) (op : Op) (ho : Distinct w op)
    (hs : Slots Sane w d) : Slots Sane (w.step op) (devStep d m dev op).2.1 := by
  refine slots_step f m dev op ho.1 hs ?_ ?_ ?_ ?_
  · intro hev s h
    have ho2 := ho.2
    obtain ⟨h1, h2, h3⟩ := h
    cases op with
    | tracking v t =>
      simp only [slotOp, Hw.step, change]
      by_cases hv : v ≥ 0 <;> simp only [hv, if_true, if_false]
      · have hl := ho2 v t rfl hv
        have hn : s.seat = none := by cases hs : s.seat <;> simp_all
        exact ⟨by simp [hn], by simp [hn], by simp [hl]⟩
      · exact ⟨h1, h2, by simp⟩
    | mtX v => refine ⟨h1, h2, ?_⟩; simp only [slotOp, Hw.step]; cases hs : s.state <;> simp_all
    | mtY v => refine ⟨h1, h2, ?_⟩; simp only [slotOp, Hw.step]; cases hs : s.state <;> simp_all
    | tool p =>
      refine ⟨h1, ?_, ?_⟩
      · simp only [slotOp]; intro hq; apply h2; cases p <;> cases hp : s.palm <;> simp_all
      · simp only [slotOp, Hw.step]; cases hs : s.state <;> simp_all
    | _ => simp [slotEvent] at hev
  · rintro - a l s ⟨h1, h2, h3⟩
    exact ⟨by simp, by simp, h3⟩
  · intro a l s hd h; exact h.clean hd
  · intro m' e i sent s _ hd _ _ _ h; exact h.flush e m' (dev, some i) sent hd

/-! ### A contact of a touch is down -/

/-- A slot that has seen no palm, arbitration or suspend. -/
def Shown (a l : Bool) (s : Slot) : Prop :=
  s.palm = .none ∧ s.seat.isSome = l ∧
  match s.state with
  | .begin => s.dirty = true ∧ a = true
  | .update => a = true ∧ l = true
  | .end => s.dirty = true ∧ a = false
  | .none => a = false ∧ l = false

theorem shown_step {w : Hw} {d : Dev} (f : Follows w d) (m : Map) (dev : Nat) (op : Op) (ho : Plain w op)
    (hm : m.getLsbD 31 = false) (he : ∀ k p, .down k 31 p ∉ (devStep d m dev op).2.2) (ha : d.arb = .notActive)
    (hs : Slots Shown w d) : Slots Shown (w.step op) (devStep d m dev op).2.1 := by
  obtain ⟨ho1, hsus, hpalm, htool, harb⟩ := ho
  refine slots_step f m dev op ho1 hs ?_ ?_ ?_ ?_
  · rintro hev s ⟨h1, h2, h3⟩
    cases op with
    | tracking v t =>
      have ht : t = false := by cases t <;> simp_all
      subst ht
      simp only [slotOp, Hw.step, change]
      by_cases hv : v ≥ 0 <;> simp only [hv, if_true, if_false]
      · exact ⟨by simp, h2, by simp⟩
      · exact ⟨h1, h2, by simp⟩
    | mtX v => refine ⟨h1, h2, ?_⟩; simp only [slotOp, Hw.step]; cases hs : s.state <;> simp_all
    | mtY v => refine ⟨h1, h2, ?_⟩; simp only [slotOp, Hw.step]; cases hs : s.state <;> simp_all
    | tool p =>
      have ht : p = false := by cases p <;> simp_all
      subst ht
      refine ⟨by simp [slotOp, h1], h2, ?_⟩
      simp only [slotOp, Hw.step]; cases hs : s.state <;> simp_all
    | _ => simp [slotEvent] at hev
  · rintro (h | ⟨r, h⟩)
    · exact absurd h hsus
    · exact absurd h (harb _ _)
  · rintro a l s hd ⟨h1, h2, h3⟩
    refine ⟨h1, ?_, ?_⟩ <;> cases hs : s.state <;> simp_all
  · rintro m' e i sent s - hd hea - h31 ⟨h1, h2, h3⟩
    have hm' := h31 hm he
    unfold flushSlot
    rw [if_neg (by simp [hd])]
    simp only [h1]
    cases hs : s.state <;> simp only [hs] at h3 ⊢
    · exact ⟨rfl, by simp_all, by simp [nextState, h3]⟩
    · rw [if_neg (by simp [arbitrate, hea, ha])]
      refine ⟨rfl, ?_, by simp [nextState, h3]⟩
      dsimp only
      rw [h3.2]
      unfold down
      cases hseat : s.seat with
      | some q => rfl
      | none =>
        cases hf : firstFree m' with
        | some q => rfl
        | none => have := firstFree_none hf 31 (by omega); rw [hm'] at this; cases this
    · have hmo := motion_state e { s with dirty := false } (dev, some i)
      have hms := motion_seat e { s with dirty := false } (dev, some i)
      rw [hs, h1] at hmo hms
      refine ⟨hmo.2, ?_, ?_⟩
      · simp only [hms, h2, h3]
      · simp only [hmo.1, nextState, h3]; simp
    · refine ⟨rfl, by simp [finish_seat, h3], by simp [nextState, h3]⟩

end Libinput.TouchSlots
