import Verif.Totem.History

/-! # Careful histories, step by step -/
namespace Libinput.Totem
open Spec

theorem added_touch (D : Device) (s : State) (t : Touch) : deviceAdded D s t = { s with touch := (deviceAdded D s t).touch } := by
  unfold deviceAdded
  repeat' split
  all_goals rfl

theorem added_fold (D : Device) (ts : List Touch) (s : State) : ts.foldl (deviceAdded D) s = { s with touch := (ts.foldl (deviceAdded D) s).touch } := by
  induction ts generalizing s with
  | nil => rfl
  | cons t ts ih =>
    simp only [List.foldl_cons]
    rw [ih (deviceAdded D s t), added_touch D s t]

theorem initialSlot_spec {D : Device} {k : Kern} (i : Nat) (h : -1 ≤ k.tracking ∧ k.orient ≤ 360) :
    SlotOk D k (initialSlot D i k {}).1 ∧ (initialSlot D i k {}).2 = slotEvents D i {} k {} none := by
  unfold initialSlot slotEvents
  cases hd : down k with
  | false =>
    have : k.tracking = -1 := by
      have : ¬ 0 ≤ k.tracking := by simpa [down] using hd
      omega
    rw [if_pos this]
    exact ⟨⟨fun _ => rfl, fun e => (by rw [hd] at e; cases e), h.2, h.1⟩, rfl⟩
  | true =>
    have : ¬ k.tracking = -1 := by
      have : 0 ≤ k.tracking := by simpa [down] using hd
      omega
    rw [if_neg this]
    have hf := fetch_all (D := D) (k := k) (x := { initAxes k { ({} : Slot) with tool := true } with changed := allChanged }) rfl rfl rfl h.2
    simp only [hf]
    exact ⟨⟨fun e => (by rw [hd] at e; cases e), fun _ => ⟨rfl, rfl, rfl, rfl, rfl, rfl⟩, h.2, h.1⟩, rfl⟩

theorem initialAll_spec {D : Device} (ks : List Kern) (h : ∀ k ∈ ks, -1 ≤ k.tracking ∧ k.orient ≤ 360) (i : Nat) :
    (initialAll D i ks).1.length = ks.length ∧ (∀ (j : Nat) k x, ks[j]? = some k → (initialAll D i ks).1[j]? = some x → SlotOk D k x) ∧
    (initialAll D i ks).2 = slotsEvents D false (fun _ => {}) i (ks.map fun _ => {}) ks false := by
  induction ks generalizing i with
  | nil => simp [initialAll, slotsEvents]
  | cons k ks ih =>
    obtain ⟨a, b, c⟩ := ih (fun k hk => h k (List.mem_cons_of_mem _ hk)) (i + 1)
    obtain ⟨d, e⟩ := initialSlot_spec (D := D) i (h k List.mem_cons_self)
    simp only [initialAll]
    refine ⟨by rw [List.length_cons, a, List.length_cons], ?_, ?_⟩
    · intro j k' x hk hx
      cases j with
      | zero => simp at hk hx; subst hk; subst hx; exact d
      | succ j => exact b j k' x (by simpa using hk) (by simpa using hx)
    · rw [e, c]
      simp [slotsEvents]

/-- A new device. -/
theorem start_spec {D : Device} {cur : Nat} {kern : List Kern} (h : Fresh cur kern) (others : List Touch) :
    ∃ s, start D cur kern others = some s ∧ Inv D s ∧ s.cur = cur ∧ s.kern = kern ∧ s.now = false ∧ s.prev = false ∧
      s.arb = (if s.touch.isSome then if kern.any down then .ignoreRect else .notActive else .notActive) ∧
      s.out = slotsEvents D false (fun _ => {}) 0 (kern.map fun _ => {}) kern false ++ touchCalls D s.touch false kern := by
  obtain ⟨a, b, c⟩ := initialAll_spec (D := D) kern h.sane 0
  obtain ⟨g1, g2⟩ := any_down a b
  have hall : (kern.all fun k => decide (k.tracking = -1)) = !(kern.any down) := by
    rw [Bool.eq_iff_iff, Bool.not_eq_true', List.all_eq_true, List.any_eq_false]
    constructor
    · intro hk k hm
      have := hk k hm
      simp only [decide_eq_true_eq] at this
      simp [down, this]
    · intro hk k hm
      have h1 := hk k hm
      have h2 := (h.sane k hm).1
      simp only [down, decide_eq_true_eq] at h1 ⊢
      omega
  obtain ⟨touch, hf⟩ : ∃ touch, others.foldl (deviceAdded D) { kern := kern, cur := cur, slot := cur, slots := kern.map fun _ => {} } = { kern := kern, cur := cur, slot := cur, slots := kern.map (fun _ => {}), touch := touch } :=
    ⟨_, added_fold D others _⟩
  have hs := setTouch_report (D := D) (s := { kern := kern, cur := cur, slot := cur, slots := (initialAll D 0 kern).1, touch := touch, out := (initialAll D 0 kern).2 }) (by simp) g2
  have hst : start D cur kern others = setTouch D { kern := kern, cur := cur, slot := cur, slots := (initialAll D 0 kern).1, touch := touch, out := (initialAll D 0 kern).2 } (!(kern.any down)) := by
    unfold start
    simp only [hall]
    rw [hf]
  refine ⟨_, hst.trans hs, ?_⟩
  refine ⟨⟨a, h.cur, rfl, b, fun _ => rfl, ?_, ?_, ?_⟩, rfl, rfl, rfl, rfl, rfl, ?_⟩
  · show (if _ then _ else Arb.notActive) ≠ _
    split
    · split <;> simp
    · simp
  · intro hd
    have hd' : kern.any down = false := hd
    show (if _ then (if kern.any down = true then _ else _) else Arb.notActive) = _
    rw [hd']
    simp
  · intro ht
    show (if Option.isSome _ = true then _ else Arb.notActive) = _
    rw [show Option.isSome _ = false from Option.isSome_eq_false_iff.mpr (Option.isNone_iff_eq_none.mpr ht)]
    rfl
  · show (initialAll D 0 kern).2 ++ _ = _
    rw [c]
    rfl

theorem added_spec {D : Device} {s : State} (h : Inv D s) (t : Touch) :
    ∃ u, run D s (Act.added t).ops = some u ∧ Inv D u ∧ u = { s with touch := u.touch } ∧ (s.touch.isSome → u.touch = s.touch) := by
  refine ⟨deviceAdded D s t, rfl, ?_, added_touch D s t, ?_⟩
  · rw [added_touch]
    refine ⟨h.len, h.cur, h.slot, h.ok, h.btn, h.arb1, h.arb2, ?_⟩
    intro ht
    refine h.arb3 ?_
    have ht' : (deviceAdded D s t).touch = none := ht
    unfold deviceAdded at ht'
    repeat' split at ht'
    all_goals first | exact ht' | (cases ht')
  · intro hs
    unfold deviceAdded
    repeat' split
    all_goals first | rfl | exact absurd hs ‹_›

theorem removed_spec {D : Device} {s : State} (h : Inv D s) (id : Nat) :
    ∃ u, run D s (Act.removed id).ops = some u ∧ Inv D u ∧ u.kern = s.kern ∧ u.prev = s.prev ∧ u.now = s.now ∧ u.slots = s.slots ∧ u.cur = s.cur ∧
      ((s.touch.map Touch.id ≠ some id ∧ u = s) ∨ (s.touch.map Touch.id = some id ∧ u.touch = none ∧ u.arb = .notActive ∧ u.out = s.out ++ offCall s.touch)) := by
  by_cases ht : s.touch.map Touch.id = some id
  · have hi : s.touch.isSome = true := by
      cases hh : s.touch with
      | none => rw [hh] at ht; cases ht
      | some _ => rfl
    refine ⟨{ s with out := s.out ++ offCall s.touch, arb := .notActive, touch := none }, ?_, ?_, rfl, rfl, rfl, rfl, rfl, Or.inr ⟨ht, rfl, rfl, rfl⟩⟩
    · simp only [Act.ops, run, step, deviceRemoved, setTouch_off, ht, ne_eq, not_true_eq_false, if_false, hi, if_true, Option.map_some, Option.bind_some]
    · exact ⟨h.len, h.cur, h.slot, h.ok, h.btn, by simp, fun _ => rfl, fun _ => rfl⟩
  · refine ⟨s, ?_, h, rfl, rfl, rfl, rfl, rfl, Or.inl ⟨ht, rfl⟩⟩
    simp only [Act.ops, run, step, deviceRemoved, ne_eq, ht, not_false_eq_true, if_true, Option.bind_some]

theorem resume_inv {D : Device} {s : State} (h : Inv D s) {cur : Nat} {kern : List Kern} (hc : cur = s.cur) (hl : kern.length = s.kern.length) (h0 : ∀ k ∈ s.kern, down k = false)
    (h1 : ∀ k ∈ kern, k.tracking = -1 ∧ k.orient ≤ 360) : Inv D (resume s cur kern) := by
  subst hc
  have hd : kern.any down = false := by
    rw [List.any_eq_false]
    intro k hk
    simp [down, (h1 k hk).1]
  have hd0 : s.kern.any down = false := by
    rw [List.any_eq_false]
    intro k hk
    simp [h0 k hk]
  refine ⟨by show s.slots.length = kern.length; rw [hl]; exact h.len, by show s.cur < kern.length; rw [hl]; exact h.cur, h.slot, ?_, ?_, h.arb1, fun _ => h.arb2 hd0, h.arb3⟩
  · intro j k x hk hx
    have hk' : kern[j]? = some k := hk
    have hm : k ∈ kern := List.mem_of_getElem? hk'
    have hlt : j < s.kern.length := by rw [← hl]; exact (List.getElem?_eq_some_iff.mp hk').1
    have ok := h.ok j _ x (List.getElem?_eq_getElem hlt) hx
    have hst := ok.off (h0 _ (List.getElem_mem hlt))
    have h2 := h1 k hm
    refine ⟨fun _ => hst, fun e => ?_, h2.2, by omega⟩
    simp [down, h2.1] at e
  · intro e
    have e' : kern.any down = true := e
    rw [hd] at e'; cases e'

/-! ### What was told -/

theorem follow_calls (l : Bool) (j : Nat) (p : Phase) (evs : List Ev) (h : ∀ e ∈ evs, forClient e = false) : evs.foldlM (follow l j) p = some p := by
  induction evs with
  | nil => rfl
  | cons e evs ih =>
    have h1 := h e List.mem_cons_self
    have h2 := ih fun e he => h e (List.mem_cons_of_mem _ he)
    cases e <;> first | exact h2 | cases h1

theorem calls_button (b : Bool) (evs : List Ev) (h : ∀ e ∈ evs, forClient e = false) : buttonTold b evs = b ∧ Alternate b evs := by
  induction evs with
  | nil => exact ⟨rfl, trivial⟩
  | cons e evs ih =>
    have h1 := h e List.mem_cons_self
    have h2 := ih fun e he => h e (List.mem_cons_of_mem _ he)
    cases e <;> first | exact h2 | cases h1

theorem touchCalls_calls (D : Device) (touch : Option Touch) (b : Bool) (ks : List Kern) : ∀ e ∈ touchCalls D touch b ks, forClient e = false := by
  unfold touchCalls
  repeat' split
  all_goals simp [forClient]

theorem offCall_calls (touch : Option Touch) : ∀ e ∈ offCall touch, forClient e = false := by
  unfold offCall
  repeat' split
  all_goals simp [forClient]

/-- What a device should have been told. -/
def shouldTold (touch : Option Touch) (arb : Arb) (id : Nat) : Arb :=
  match touch with
  | none => .notActive
  | some t => if t.id = id ∧ t.toggle = true then arb else .notActive

theorem told_touchCalls (D : Device) (touch : Option Touch) (arb : Arb) (ks : List Kern) (id : Nat) (h1 : arb ≠ .ignoreAll) :
    told id (shouldTold touch arb id) (touchCalls D touch (arb == .ignoreRect) ks) =
      shouldTold touch (if ks.any down then .ignoreRect else .notActive) id := by
  unfold shouldTold touchCalls
  cases touch with
  | none => rfl
  | some t =>
    simp only
    cases ks.any down <;> cases hg : t.toggle <;> cases hu : t.update <;> cases arb <;> by_cases hi : t.id = id <;> simp [told, hi] at h1 ⊢

theorem told_offCall (touch : Option Touch) (arb : Arb) (id : Nat) : told id (shouldTold touch arb id) (offCall touch) = .notActive := by
  unfold shouldTold offCall
  cases touch with
  | none => rfl
  | some t => cases hg : t.toggle <;> by_cases hi : t.id = id <;> simp [told, hi, hg]

/-- The history up to now. -/
structure Hist (D : Device) (acts : List Act) (s : State) (on : Bool) : Prop where
  inv : Inv D s
  phase : ∀ l : Bool, (l = false → Act.suspend ∉ acts) → ∀ j, s.out.foldlM (follow l j) .away = some (if on then ph s.kern j else .away)
  button : buttonTold false s.out = s.prev
  alternate : Act.suspend ∉ acts → Alternate false s.out
  told : ∀ id, told id .notActive s.out = shouldTold s.touch s.arb id
  off : on = false → s.arb = .notActive

theorem ph_none (ks : List Kern) (j : Nat) : ph (ks.map fun _ => ({} : Kern)) j = .away := by
  unfold ph
  rw [List.getElem?_map]
  cases ks[j]? <;> simp [down]

theorem ph_up {ks : List Kern} (h : ∀ k ∈ ks, down k = false) (j : Nat) : ph ks j = .away := by
  unfold ph
  cases hk : ks[j]? with
  | none => rfl
  | some k => simp [h k (List.mem_of_getElem? hk)]

theorem hist_start {D : Device} {cur : Nat} {kern : List Kern} (h : Fresh cur kern) {others : List Touch} {s : State} (hs : start D cur kern others = some s) : Hist D [] s true := by
  obtain ⟨s', e, hi, e1, e2, e3, e4, e5, e6⟩ := start_spec (D := D) h others
  rw [e] at hs
  obtain rfl := Option.some.inj hs
  have hl : (kern.map fun _ => ({} : Kern)).length = kern.length := by simp
  obtain ⟨b1, b2⟩ := slots_button D false (fun _ => {}) _ kern hl 0 false
  obtain ⟨c1, c2⟩ := calls_button false _ (touchCalls_calls D s'.touch false kern)
  have b1 : buttonTold false (slotsEvents D false (fun _ => {}) 0 (kern.map fun _ => {}) kern false) = false := by rw [b1]; split <;> rfl
  refine ⟨hi, ?_, ?_, ?_, ?_, by simp⟩
  · intro l _ j
    rw [e6, List.foldlM_append, slots_follow D l false _ _ kern hl 0 false j .away (fun _ => (ph_none kern _).symm)]
    simp only [Option.bind_eq_bind, Option.bind_some]
    rw [follow_calls l j _ _ (touchCalls_calls D s'.touch false kern), e2]
    simp
  · rw [e6, buttonTold_append, b1, c1, e4]
  · intro _
    rw [e6, alternate_append, b1]
    exact ⟨b2, c2⟩
  · intro id
    rw [e6, told_append, told_client _ _ _ (slots_client D false _ _ _ _ _)]
    have := told_touchCalls D s'.touch .notActive kern id (by simp)
    rw [show shouldTold s'.touch .notActive id = .notActive by unfold shouldTold; cases s'.touch <;> simp] at this
    rw [show (Arb.notActive == Arb.ignoreRect) = false by rfl] at this
    rw [this, e5]
    cases ht : s'.touch with
    | none => rfl
    | some t => simp

theorem hist_act {D : Device} {acts : List Act} {s : State} {on : Bool} (h : Hist D acts s on) {a : Act} (hc : CarefulAct on s a) :
    ∃ t, run D s a.ops = some t ∧ Hist D (acts ++ [a]) t (nextOn on a) := by
  cases a with
  | report evs =>
    obtain ⟨hon, hs⟩ := hc
    subst hon
    obtain ⟨t, e1, e2, e3, e4, e5, e6, e7, e8, -, e9⟩ := report_spec h.inv hs
    obtain ⟨b1, b2⟩ := slots_button D t.now (fun j => mentioned j (s.cur, s.kern) {} evs) s.kern t.kern e8.symm 0 s.prev
    have hcalls := touchCalls_calls D s.touch (s.arb == .ignoreRect) t.kern
    obtain ⟨c1, c2⟩ := calls_button t.prev _ hcalls
    refine ⟨t, e1, e2, ?_, ?_, ?_, ?_, by simp [nextOn]⟩
    · intro l hl j
      rw [e9, List.foldlM_append, List.foldlM_append, h.phase l (fun e hm => hl e (List.mem_append_left _ hm)) j]
      simp only [Option.bind_eq_bind, Option.bind_some, if_true]
      rw [slots_follow D l t.now _ s.kern t.kern e8.symm 0 s.prev j (ph s.kern j) (fun _ => rfl)]
      simp only [Option.bind_some]
      rw [follow_calls l j _ _ hcalls]
      simp [nextOn]
    · rw [e9, buttonTold_append, buttonTold_append, h.button, b1, ← e5, c1]
    · intro hn
      rw [e9, alternate_append, alternate_append, buttonTold_append, h.button, b1, ← e5]
      exact ⟨⟨h.alternate fun hm => hn (List.mem_append_left _ hm), b2⟩, c2⟩
    · intro id
      rw [e9, told_append, told_append, h.told, told_client _ _ _ (slots_client D t.now _ _ _ _ _), told_touchCalls D s.touch s.arb t.kern id h.inv.arb1, e6, e7]
      cases ht : s.touch with
      | none => rfl
      | some t => simp
  | suspend =>
    obtain rfl : on = true := hc
    obtain ⟨t, evs, e1, e2, e3, e4, e5, e6, e7, e8, e9, e10⟩ := suspend_spec h.inv
    obtain ⟨s1, s2⟩ := suspend_client e9
    obtain ⟨c1, -⟩ := calls_button t.prev _ (offCall_calls s.touch)
    refine ⟨t, e1, e2, ?_, ?_, ?_, ?_, fun _ => e6⟩
    · intro l hl j
      have : l = true := by
        cases l with
        | true => rfl
        | false => exact absurd (List.mem_append_right _ List.mem_cons_self) (hl rfl)
      subst this
      rw [e10, List.foldlM_append, List.foldlM_append, h.phase true (by simp) j]
      simp only [Option.bind_eq_bind, Option.bind_some, if_true]
      rw [suspend_follow e9 h.inv.ok j (ph s.kern j) (fun _ => rfl)]
      simp only [Option.bind_some]
      rw [follow_calls true j _ _ (offCall_calls s.touch)]
      simp [nextOn]
    · rw [e10, buttonTold_append, buttonTold_append, h.button, s2, ← e7, c1]
    · intro hn
      exact absurd (List.mem_append_right _ List.mem_cons_self) hn
    · intro id
      rw [e10, told_append, told_append, h.told, told_client _ _ _ s1, told_offCall, e5, e6]
      unfold shouldTold
      cases s.touch <;> simp
  | resume cur kern =>
    obtain ⟨rfl, hcur, hl, h0, h1⟩ := hc
    refine ⟨resume s cur kern, rfl, resume_inv h.inv hcur hl h0 h1, ?_, h.button, fun hn => h.alternate fun hm => hn (List.mem_append_left _ hm), h.told, by simp [nextOn]⟩
    intro l hl' j
    have := h.phase l (fun e hm => hl' e (List.mem_append_left _ hm)) j
    show s.out.foldlM _ _ = some (if true = true then ph kern j else _)
    rw [this]
    simp only [Bool.false_eq_true, if_false, if_true]
    rw [ph_up (fun k hk => by simp [down, (h1 k hk).1])]
  | added t =>
    obtain ⟨u, e1, e2, e3, e4⟩ := added_spec h.inv t
    have hk : u.kern = s.kern := by rw [e3]
    have ho : u.out = s.out := by rw [e3]
    have hp : u.prev = s.prev := by rw [e3]
    have ha : u.arb = s.arb := by rw [e3]
    refine ⟨u, e1, e2, ?_, ?_, ?_, ?_, ?_⟩
    · intro l hl j
      rw [ho, hk]
      exact h.phase l (fun e hm => hl e (List.mem_append_left _ hm)) j
    · rw [ho, hp]; exact h.button
    · intro hn
      rw [ho]
      exact h.alternate fun hm => hn (List.mem_append_left _ hm)
    · intro id
      rw [ho, h.told, ha]
      cases hts : s.touch with
      | some t' => rw [e4 (by rw [hts]; rfl), hts]
      | none =>
        rw [h.inv.arb3 hts]
        unfold shouldTold
        cases u.touch <;> simp
    · intro hon
      rw [ha]; exact h.off hon
  | removed id =>
    obtain ⟨u, e1, e2, ek, ep, -, -, -, hor⟩ := removed_spec h.inv id
    refine ⟨u, e1, e2, ?_, ?_, ?_, ?_, ?_⟩
    · intro l hl j
      have := h.phase l (fun e hm => hl e (List.mem_append_left _ hm)) j
      rcases hor with ⟨-, rfl⟩ | ⟨-, -, -, ho⟩
      · exact this
      · rw [ho, List.foldlM_append, this]
        simp only [Option.bind_eq_bind, Option.bind_some]
        rw [follow_calls l j _ _ (offCall_calls s.touch), ek]
        rfl
    · rcases hor with ⟨-, rfl⟩ | ⟨-, -, -, ho⟩
      · exact h.button
      · rw [ho, buttonTold_append, h.button, (calls_button _ _ (offCall_calls s.touch)).1, ep]
    · intro hn
      have := h.alternate fun hm => hn (List.mem_append_left _ hm)
      rcases hor with ⟨-, rfl⟩ | ⟨-, -, -, ho⟩
      · exact this
      · rw [ho, alternate_append]
        exact ⟨this, (calls_button _ _ (offCall_calls s.touch)).2⟩
    · intro i
      rcases hor with ⟨-, rfl⟩ | ⟨-, ht, ha, ho⟩
      · exact h.told i
      · rw [ho, told_append, h.told, told_offCall, ht]
        rfl
    · intro hon
      rcases hor with ⟨-, rfl⟩ | ⟨-, ht, ha, ho⟩
      · exact h.off hon
      · exact ha

theorem hist_of_careful {D : Device} {acts : List Act} {s : State} {on : Bool} (h : Careful D acts s on) : Hist D acts s on := by
  induction h with
  | start hf hs => exact hist_start hf hs
  | act _ hc hr ih =>
    obtain ⟨t, e, ht⟩ := hist_act ih hc
    rw [e] at hr
    obtain rfl := Option.some.inj hr
    exact ht

end Libinput.Totem
