import Verif.TouchSlots.Track
namespace Libinput.TouchSlots
open Spec

/-- All events are about touches of device `dev`. -/
def Touches (dev : Nat) (es : List Ev) : Prop := ∀ e ∈ es, ∃ n, key e = some (dev, n)

theorem Touches.nil (dev : Nat) : Touches dev [] := by simp [Touches]

theorem Touches.append {dev : Nat} {a b : List Ev} (ha : Touches dev a) (hb : Touches dev b) : Touches dev (a ++ b) := by
  intro e he
  rcases List.mem_append.1 he with h | h
  · exact ha e h
  · exact hb e h

theorem down_keys (m : Map) (v : Option Nat) (k : Key) (p : Pt) : ∀ e ∈ (down m v k p).2.2, key e = some k := by
  unfold down
  cases v with
  | some _ => simp
  | none => cases firstFree m <;> simp [key]

theorem up_keys (m : Map) (v : Option Nat) (k : Key) : ∀ e ∈ (finish m v (.up k)).2.2, key e = some k := by
  cases v <;> simp [finish, key]

theorem cancel_keys (m : Map) (v : Option Nat) (k : Key) : ∀ e ∈ (finish m v (.cancel k)).2.2, key e = some k := by
  cases v <;> simp [finish, key]

theorem motion_keys (d : Dev) (s : Slot) (k : Key) : ∀ e ∈ (motion d s k).2, key e = some k := by
  unfold motion
  split
  · simp
  · dsimp only; split <;> simp [key]

theorem flushSlot_keys (d : Dev) (m : Map) (k : Key) (s : Slot) (sent : Bool) :
    ∀ e ∈ (flushSlot d m k s sent).2.2.1, key e = some k := by
  unfold flushSlot
  split
  · simp
  · dsimp only
    cases hp : s.palm <;> dsimp only
    · cases hs : s.state <;> dsimp only
      · simp
      · split
        · simp
        · exact down_keys _ _ _ _
      · exact motion_keys _ _ _
      · exact up_keys _ _ _
    · split
      · simp
      · exact cancel_keys _ _ _
    · simp
    · simp

/-- What a slot does to `sent`. -/
theorem flushSlot_sent (d : Dev) (m : Map) (k : Key) (s : Slot) (sent : Bool) :
    (s.dirty = false → (flushSlot d m k s sent).2.2.1 = [] ∧ (flushSlot d m k s sent).2.2.2 = sent) ∧
    ((flushSlot d m k s sent).2.2.1 ≠ [] → (flushSlot d m k s sent).2.2.2 = true) ∧
    ((flushSlot d m k s sent).2.2.2 = true → sent = true ∨ (flushSlot d m k s sent).2.2.1 ≠ []) := by
  have key : ∀ (l : List Ev), ((l ≠ [] → (!l.isEmpty) = true) ∧ ((!l.isEmpty) = true → sent = true ∨ l ≠ [])) := by
    intro l; cases l <;> simp
  unfold flushSlot
  split
  · rename_i h; simp only [Bool.not_eq_true'] at h; simp
  · rename_i h
    refine ⟨fun hd => absurd hd (by simpa using h), ?_⟩
    dsimp only
    cases hp : s.palm <;> dsimp only
    · cases hs : s.state <;> dsimp only
      · simp
      · split
        · simp
        · exact key _
      · exact key _
      · exact key _
    · split
      · simp
      · exact key _
    · simp
    · simp

theorem flushSlots_keys (d : Dev) (dev : Nat) (ss : List Slot) :
    ∀ (m : Map) (i : Nat) (sent : Bool), ∀ e ∈ (flushSlots d dev m i ss sent).2.2.1,
      ∃ j, i ≤ j ∧ j < i + ss.length ∧ key e = some (dev, some j) := by
  induction ss with
  | nil => intro m i sent; simp [flushSlots]
  | cons s ss ih =>
    intro m i sent e he
    simp only [flushSlots, List.mem_append] at he
    rcases he with h | h
    · exact ⟨i, Nat.le_refl i, by simp, flushSlot_keys _ _ _ _ _ e h⟩
    · obtain ⟨j, h1, h2, h3⟩ := ih _ _ _ e h
      exact ⟨j, by omega, by simp only [List.length_cons]; omega, h3⟩

/-- `sent` says whether there were events, provided the last changed slot had one. -/
theorem flushSlots_sent (d : Dev) (dev : Nat) (ss : List Slot) :
    ∀ (m : Map) (i : Nat) (sent : Bool),
      ((flushSlots d dev m i ss sent).2.2.2 = true → sent = true ∨ (flushSlots d dev m i ss sent).2.2.1 ≠ []) ∧
      ((∀ s ∈ ss, s.dirty = false) → (flushSlots d dev m i ss sent).2.2.2 = sent) ∧
      ∀ top, i ≤ top → (∀ (j : Nat) (s : Slot), ss[j]? = some s → top < i + j → s.dirty = false) →
        About (flushSlots d dev m i ss sent).2.2.1 (dev, some top) →
        (flushSlots d dev m i ss sent).2.2.2 = true := by
  induction ss with
  | nil => intro m i sent; simp [flushSlots, About]
  | cons s ss ih =>
    intro m i sent
    obtain ⟨ih1, ih2, ih3⟩ := ih (flushSlot d m (dev, some i) s sent).1 (i + 1)
      (flushSlot d m (dev, some i) s sent).2.2.2
    obtain ⟨s1, s2, s3⟩ := flushSlot_sent d m (dev, some i) s sent
    simp only [flushSlots]
    refine ⟨?_, ?_, ?_⟩
    · intro h
      rcases ih1 h with h | h
      · rcases s3 h with h | h
        · exact .inl h
        · right; simp [h]
      · right; simp [h]
    · intro h
      rw [ih2 (fun x hx => h x (List.mem_cons_of_mem _ hx))]
      exact (s1 (h s List.mem_cons_self)).2
    · intro top hi hclean habout
      obtain ⟨e, he, hk⟩ := habout
      rcases List.mem_append.1 he with h | h
      · have := flushSlot_keys _ _ _ _ _ e h
        rw [this] at hk
        simp only [Option.some.injEq, Prod.mk.injEq, true_and] at hk
        have hss : ∀ x ∈ ss, x.dirty = false := by
          intro x hx
          obtain ⟨j, hj, hx⟩ := List.getElem_of_mem hx
          exact hclean (j + 1) x (by simp [hj, hx]) (by omega)
        rw [ih2 hss]
        apply s2
        intro h0; rw [h0] at h; cases h
      · obtain ⟨j, h1, h2, h3⟩ := flushSlots_keys _ _ _ _ _ _ e h
        rw [h3] at hk
        simp only [Option.some.injEq, Prod.mk.injEq, true_and] at hk
        subst hk
        refine ih3 j h1 ?_ ⟨e, h, h3⟩
        intro j' x hj' hlt
        exact hclean (j' + 1) x (by simpa using hj') (by omega)

theorem flushSt_keys (d : Dev) (m : Map) (dev : Nat) : ∀ e ∈ (flushSt d m dev).2.2, key e = some (dev, none) := by
  have base : ∀ r : Map × Option Nat × List Ev, (∀ e ∈ r.2.2, key e = some (dev, none)) →
      ∀ e ∈ (if d.pUp then (let r' := finish r.1 r.2.1 (.up (dev, none)); (r'.1, r'.2.1, r.2.2 ++ r'.2.2)) else r).2.2,
        key e = some (dev, none) := by
    intro r h
    split
    · intro e he
      rcases List.mem_append.1 he with h' | h'
      · exact h e h'
      · exact up_keys _ _ _ e h'
    · exact h
  unfold flushSt
  refine base _ ?_
  split
  · exact down_keys _ _ _ _
  · split
    · split
      · simp
      · simp [key]
    · simp

theorem cancelSlots_keys (dev : Nat) (rect : Option Rect) (ss : List Slot) :
    ∀ (m : Map) (i : Nat), Touches dev (cancelSlots dev rect m i ss).2.2 := by
  induction ss with
  | nil => intro m i; exact .nil dev
  | cons s ss ih =>
    intro m i
    simp only [cancelSlots]
    refine .append ?_ (ih _ _)
    split
    · intro e he; exact ⟨some i, cancel_keys _ _ _ e he⟩
    · exact .nil dev

/-- The shape of a step's events. -/
def Framed (dev : Nat) (es : List Ev) : Prop :=
  ∃ body, Touches dev body ∧ (es = body ∨ (body ≠ [] ∧ es = body ++ [.frame dev]))

theorem Framed.nil (dev : Nat) : Framed dev [] := ⟨[], .nil dev, .inl rfl⟩

theorem cancelTouches_framed (d : Dev) (m : Map) (dev : Nat) (rect : Option Rect) :
    ∃ body, Touches dev body ∧
      (cancelTouches d m dev rect).2.2 = body ++ if body.isEmpty then [] else [.frame dev] := by
  unfold cancelTouches
  refine ⟨_, ?_, rfl⟩
  refine .append ?_ (cancelSlots_keys _ _ _ _ _)
  split
  · intro e he; exact ⟨none, cancel_keys _ _ _ e he⟩
  · exact .nil dev

theorem handleState_framed (d : Dev) (m : Map) (dev : Nat) (hmt : d.isMt = true → d.pDown = false ∧ d.pUp = false ∧
    d.pMotion = false) (hst : d.isMt = false → d.pMt = false) : Framed dev (handleState d m dev).2.2 := by
  have hk : Touches dev (flushSt d m dev).2.2 := fun e he => ⟨none, flushSt_keys d m dev e he⟩
  unfold handleState
  dsimp only
  split
  · rename_i hp
    have hm : d.isMt = true := by
      cases h : d.isMt
      · exact absurd hp (by simp [hst h])
      · rfl
    obtain ⟨q1, q2, q3⟩ := hmt hm
    rw [flushSt_quiet d m dev q1 q2 q3]
    dsimp only
    refine ⟨[] ++ (flushSlots { d with seat := d.seat } dev m 0 d.slots false).2.2.1,
      .append (.nil dev) (fun e he => ?_), ?_⟩
    · obtain ⟨j, -, -, h⟩ := flushSlots_keys _ _ _ _ _ _ e he
      exact ⟨some j, h⟩
    · split
      · rename_i hsent
        refine .inr ⟨?_, rfl⟩
        rcases (flushSlots_sent _ _ _ _ _ _).1 hsent with h | h
        · cases h
        · simpa using h
      · left; simp
  · refine ⟨_, hk, ?_⟩
    split
    · rename_i h
      refine .inr ⟨?_, rfl⟩
      intro h0; simp [h0] at h
    · left; simp

/-- Single-touch events only on devices without slots, slots only on devices with them. -/
def Kinds (d : Dev) : Prop :=
  (d.isMt = true → d.pDown = false ∧ d.pUp = false ∧ d.pMotion = false) ∧ (d.isMt = false → d.pMt = false)

theorem devStep_framed (d : Dev) (m : Map) (dev : Nat) (op : Op) (h : Kinds d) :
    Framed dev (devStep d m dev op).2.2 ∧ Kinds (devStep d m dev op).2.1 := by
  obtain ⟨h1, h2⟩ := h
  have cancel : ∀ rect, Framed dev (cancelTouches d m dev rect).2.2 := by
    intro rect
    obtain ⟨body, hb, he⟩ := cancelTouches_framed d m dev rect
    refine ⟨body, hb, ?_⟩
    rw [he]
    cases body with
    | nil => left; rfl
    | cons a b => right; exact ⟨by simp, by simp⟩
  have ckinds : ∀ rect, Kinds (cancelTouches d m dev rect).2.1 := fun rect => ⟨h1, h2⟩
  have hsame : Framed dev [] ∧ Kinds d := ⟨.nil dev, h1, h2⟩
  have hproc : d.isMt = true → ∀ op, Kinds (processTouch d op) := by
    intro hm op
    unfold processTouch
    cases op with
    | tracking v t => dsimp only; split <;> exact ⟨h1, fun h => absurd h (by simp [Dev.modify, hm])⟩
    | _ => exact ⟨h1, fun h => absurd h (by simp [Dev.modify, hm])⟩
  cases op with
  | suspend => exact ⟨cancel none, ckinds none⟩
  | arbitration which rect =>
    simp only [devStep]
    split
    · exact hsame
    · cases which with
      | notActive => exact ⟨.nil dev, h1, h2⟩
      | ignoreRect => exact ⟨cancel (some rect), ckinds (some rect)⟩
      | ignoreAll => exact ⟨cancel none, ckinds none⟩
  | timeout => simp only [devStep]; split <;> exact ⟨.nil dev, h1, h2⟩
  | updateRect r => exact ⟨.nil dev, h1, h2⟩
  | syn =>
    simp only [devStep]
    split
    · exact hsame
    · refine ⟨handleState_framed d m dev h1 h2, ?_⟩
      unfold handleState Kinds
      simp
  | touch v =>
    simp only [devStep]
    split
    · exact hsame
    · split
      · exact hsame
      · rename_i hm
        have := h2 (by simpa using hm)
        repeat' split
        all_goals exact ⟨.nil dev, fun h => absurd h hm, fun _ => this⟩
  | absX v =>
    simp only [devStep]
    split
    · exact hsame
    · split
      · exact hsame
      · rename_i hm
        exact ⟨.nil dev, fun h => absurd h hm, h2⟩
  | absY v =>
    simp only [devStep]
    split
    · exact hsame
    · split
      · exact hsame
      · rename_i hm
        exact ⟨.nil dev, fun h => absurd h hm, h2⟩
  | slot v =>
    simp only [devStep]
    split
    · exact hsame
    · split
      · rename_i hm; exact ⟨.nil dev, hproc hm _⟩
      · exact hsame
  | tracking v t =>
    simp only [devStep]
    split
    · exact hsame
    · split
      · rename_i hm; exact ⟨.nil dev, hproc hm _⟩
      · exact hsame
  | mtX v =>
    simp only [devStep]
    split
    · exact hsame
    · split
      · rename_i hm; exact ⟨.nil dev, hproc hm _⟩
      · exact hsame
  | mtY v =>
    simp only [devStep]
    split
    · exact hsame
    · split
      · rename_i hm; exact ⟨.nil dev, hproc hm _⟩
      · exact hsame
  | tool v =>
    simp only [devStep]
    split
    · exact hsame
    · split
      · rename_i hm; exact ⟨.nil dev, hproc hm _⟩
      · exact hsame

theorem run_kinds (ops : List SeatOp) : ∀ s : Seat, (∀ d ∈ s.devs, Kinds d) → ∀ d ∈ (run s ops).1.devs, Kinds d := by
  induction ops with
  | nil => intro s h; exact h
  | cons op ops ih =>
    intro s h
    refine ih _ ?_
    cases op with
    | add isMt n cur hasPalm hyst =>
      intro d hd
      simp only [step, List.mem_append, List.mem_singleton] at hd
      rcases hd with hd | hd
      · exact h d hd
      · rw [hd]; exact ⟨fun _ => ⟨rfl, rfl, rfl⟩, fun _ => rfl⟩
    | dev i op =>
      simp only [step]
      cases hi : s.devs[i]? with
      | none => exact h
      | some d =>
        intro d' hd'
        dsimp only at hd'
        rcases List.mem_or_eq_of_mem_set hd' with h' | h'
        · exact h d' h'
        · rw [h']; exact (devStep_framed d s.map i op (h d (List.mem_of_getElem? hi))).2

theorem hardware_length (ops : List SeatOp) : ∀ (ws : List Hw) (s : Seat), ws.length = s.devs.length →
    (hardware ws ops).length = (run s ops).1.devs.length := by
  induction ops with
  | nil => intro ws s h; exact h
  | cons op ops ih =>
    intro ws s h
    cases op with
    | add isMt n cur hasPalm hyst => exact ih _ _ (by simp [step, h])
    | dev i op =>
      simp only [hardware, run]
      have hs : (step s (.dev i op)).1.devs.length = s.devs.length := by
        simp only [step]; split <;> simp
      cases ws[i]? with
      | none => exact ih _ _ (h.trans hs.symm)
      | some w => exact ih _ _ (by simp [h, hs])

/-! ### Arbitration of the whole touchscreen -/

/-- The device is being ignored. -/
structure Quiet (d : Dev) : Prop where
  arb : d.arb = .ignoreAll
  inArb : d.inArb = true
  armed : d.armed = false
  seat : d.seat = none
  slots : ∀ s ∈ d.slots, s.seat = none

theorem cancelSlots_none (dev : Nat) (rect : Option Rect) (ss : List Slot) (h : ∀ s ∈ ss, s.seat = none) :
    ∀ (m : Map) (i : Nat), (cancelSlots dev rect m i ss).2.2 = [] := by
  induction ss with
  | nil => intro m i; rfl
  | cons s ss ih =>
    intro m i
    simp only [cancelSlots, ih (fun x hx => h x (List.mem_cons_of_mem _ hx)), List.append_nil]
    split
    · rw [h s List.mem_cons_self]; rfl
    · rfl

theorem cancelTouches_seats (d : Dev) (m : Map) (dev : Nat) :
    (cancelTouches d m dev none).2.1.seat = none ∧ ∀ s ∈ (cancelTouches d m dev none).2.1.slots, s.seat = none := by
  obtain ⟨v, ss, he, -, -, hv, hs⟩ := cancelTouches_shape d m dev none
  rw [he]
  refine ⟨hv rfl, ?_⟩
  intro s hs'
  obtain ⟨j, hj, hx⟩ := List.getElem_of_mem hs'
  obtain ⟨s0, u, -, h1, -, h3⟩ := hs j s (by rw [← hx]; exact List.getElem?_eq_getElem hj)
  rw [h1]; exact h3 rfl

theorem quiet_step {d : Dev} (q : Quiet d) (m : Map) (dev : Nat) (op : Op)
    (hop : ∀ which r, op = .arbitration which r → which = .ignoreAll) :
    (devStep d m dev op).2.2 = [] ∧ Quiet (devStep d m dev op).2.1 := by
  have hi := q.inArb
  cases op with
  | suspend =>
    refine ⟨?_, ?_⟩
    · simp only [devStep, cancelTouches, q.seat, finish, cancelSlots_none dev none d.slots q.slots]; simp
    · obtain ⟨h1, h2⟩ := cancelTouches_seats d m dev
      exact ⟨q.arb, q.inArb, q.armed, h1, h2⟩
  | arbitration which r =>
    have := hop which r rfl
    simp only [devStep]
    rw [if_pos (this.trans q.arb.symm)]
    exact ⟨rfl, q⟩
  | timeout =>
    simp only [devStep]
    rw [if_neg (by simp [q.armed])]
    exact ⟨rfl, q⟩
  | updateRect r => exact ⟨rfl, q.arb, q.inArb, q.armed, q.seat, q.slots⟩
  | _ => simp only [devStep]; rw [if_pos hi]; exact ⟨rfl, q⟩

theorem quiet_inv (d : Dev) (m : Map) (dev : Nat) (op : Op) (h : d.arb = .ignoreAll → Quiet d) :
    (devStep d m dev op).2.1.arb = .ignoreAll → Quiet (devStep d m dev op).2.1 := by
  intro ha
  by_cases hd : d.arb = .ignoreAll
  · have q := h hd
    cases op with
    | arbitration which r =>
      by_cases hw : which = .ignoreAll
      · exact (quiet_step q m dev _ (by intro w r' e; cases e; exact hw)).2
      · exfalso
        simp only [devStep] at ha
        rw [if_neg (by rw [hd]; exact hw)] at ha
        cases which <;> simp_all
    | _ => exact (quiet_step q m dev _ (by intro w r' e; cases e)).2
  · have same : ∀ d' : Dev, d'.arb = d.arb → d'.arb = .ignoreAll → False := fun d' e e' => hd (e.symm.trans e')
    cases op with
    | arbitration which r =>
      simp only [devStep] at ha ⊢
      by_cases hw : which = d.arb
      · rw [if_pos hw] at ha; exact absurd ha hd
      · rw [if_neg hw] at ha ⊢
        cases which with
        | notActive => cases ha
        | ignoreRect => cases ha
        | ignoreAll =>
          obtain ⟨h1, h2⟩ := cancelTouches_seats d m dev
          exact ⟨rfl, rfl, rfl, h1, h2⟩
    | suspend => exact absurd ha hd
    | timeout =>
      simp only [devStep] at ha
      split at ha <;> exact absurd ha hd
    | updateRect r => exact absurd ha hd
    | syn =>
      simp only [devStep, handleState] at ha
      split at ha
      · exact absurd ha hd
      · split at ha <;> exact absurd ha hd
    | tracking v t =>
      simp only [devStep, processTouch] at ha
      repeat' split at ha
      all_goals exact absurd ha hd
    | _ =>
      simp only [devStep] at ha
      repeat' split at ha
      all_goals exact absurd ha hd

theorem run_quiet (ops : List SeatOp) : ∀ s : Seat, (∀ d ∈ s.devs, d.arb = .ignoreAll → Quiet d) →
    ∀ d ∈ (run s ops).1.devs, d.arb = .ignoreAll → Quiet d := by
  induction ops with
  | nil => intro s h; exact h
  | cons op ops ih =>
    intro s h
    refine ih _ ?_
    cases op with
    | add isMt n cur hasPalm hyst =>
      intro d hd
      simp only [step, List.mem_append, List.mem_singleton] at hd
      rcases hd with hd | hd
      · exact h d hd
      · rw [hd]; intro ha; cases ha
    | dev i op =>
      simp only [step]
      cases hi : s.devs[i]? with
      | none => exact h
      | some d =>
        intro d' hd'
        dsimp only at hd'
        rcases List.mem_or_eq_of_mem_set hd' with h' | h'
        · exact h d' h'
        · rw [h']; exact quiet_inv d s.map i op (h d (List.mem_of_getElem? hi))

/-- A device that is ignored stays silent until arbitration is switched. -/
theorem quiet_run (d : Nat) (ops : List SeatOp)
    (hops : ∀ op ∈ ops, ∀ which r', op = .dev d (.arbitration which r') → which = .ignoreAll) :
    ∀ s : Seat, (∀ x ∈ s.devs, Kinds x) → (∃ x, s.devs[d]? = some x ∧ Quiet x) →
      (∃ x, (run s ops).1.devs[d]? = some x ∧ Quiet x) ∧ ∀ e ∈ (run s ops).2, ∀ n, key e ≠ some (d, n) := by
  induction ops with
  | nil => intro s _ h; exact ⟨h, by simp [run]⟩
  | cons op ops ih =>
    intro s hk hq
    have ih := ih (fun o ho => hops o (List.mem_cons_of_mem _ ho))
    have hk' : ∀ x ∈ (step s op).1.devs, Kinds x := run_kinds [op] s hk
    obtain ⟨x, hx, qx⟩ := hq
    have hdl : d < s.devs.length := by
      rcases Nat.lt_or_ge d s.devs.length with h | h
      · exact h
      · rw [List.getElem?_eq_none h] at hx; cases hx
    have key1 : (∃ x, (step s op).1.devs[d]? = some x ∧ Quiet x) ∧ ∀ e ∈ (step s op).2, ∀ n, key e ≠ some (d, n) := by
      cases op with
      | add isMt n cur hasPalm hyst =>
        refine ⟨⟨x, ?_, qx⟩, by simp [step]⟩
        simp only [step]
        rw [List.getElem?_append_left hdl]; exact hx
      | dev i op =>
        simp only [step]
        by_cases hid : i = d
        · subst hid
          simp only [hx]
          obtain ⟨h1, h2⟩ := quiet_step qx s.map i op
            (fun which r e => hops _ List.mem_cons_self which r (by rw [e]))
          refine ⟨⟨_, by simp [hdl], h2⟩, ?_⟩
          rw [h1]; simp
        · cases hi : s.devs[i]? with
          | none => exact ⟨⟨x, hx, qx⟩, by simp⟩
          | some y =>
            refine ⟨⟨x, by simp [List.getElem?_set, hid, hx], qx⟩, ?_⟩
            obtain ⟨body, hb, hs⟩ := (devStep_framed y s.map i op (hk y (List.mem_of_getElem? hi))).1
            intro e he n hke
            have : e ∈ body ∨ e = .frame i := by
              rcases hs with h | ⟨-, h⟩
              · rw [h] at he; exact .inl he
              · rw [h] at he
                rcases List.mem_append.1 he with h | h
                · exact .inl h
                · exact .inr (by simpa using h)
            rcases this with h | h
            · obtain ⟨n', hn'⟩ := hb e h
              rw [hke] at hn'
              simp at hn'
              exact hid hn'.1.symm
            · rw [h] at hke; simp [key] at hke
    obtain ⟨h1, h2⟩ := ih _ hk' key1.1
    refine ⟨h1, ?_⟩
    intro e he
    rcases List.mem_append.1 he with h | h
    · exact key1.2 e h
    · exact h2 e h

end Libinput.TouchSlots
