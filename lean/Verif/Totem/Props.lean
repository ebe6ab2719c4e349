import Verif.Totem.Careful

/-!
# The properties of totems

In a careful history a totem that is put on the screen, moved, turned, pressed and lifted is told to the client exactly so; the touch screen below is told to ignore the area
around it while it stands.  What follows shows also what happens in other histories.
-/
namespace Libinput.Totem
open Spec

/-! ### C57: nothing crashes in careful histories -/

/-- A new device works, whatever stands on it. -/
theorem starts {D : Device} {cur : Nat} {kern : List Kern} (h : Fresh cur kern) (others : List Touch) : ∃ s, start D cur kern others = some s ∧ Careful D [] s true := by
  obtain ⟨s, e, -⟩ := start_spec (D := D) h others
  exact ⟨s, e, .start h e⟩

/-- And keeps working. -/
theorem no_crash {D : Device} {acts : List Act} {s : State} {on : Bool} (h : Careful D acts s on) {a : Act} (hc : CarefulAct on s a) :
    ∃ t, run D s a.ops = some t ∧ Careful D (acts ++ [a]) t (nextOn on a) := by
  obtain ⟨t, e, -⟩ := hist_act (hist_of_careful h) hc
  exact ⟨t, e, .act h hc e⟩

/-! ### C57: what a report tells -/

theorem ignoring_eq {D : Device} {acts : List Act} {s : State} {on : Bool} (h : Hist D acts s on) (t : Touch) (ht : s.touch = some t) (hg : t.toggle = true) :
    ignoring s = (s.arb == .ignoreRect) := by
  unfold ignoring
  rw [ht]
  simp only
  rw [h.told, ht]
  simp [shouldTold, hg]

/-- What a new device tells: the totems that stand there come near and stand. -/
theorem start_events {D : Device} {cur : Nat} {kern : List Kern} (h : Fresh cur kern) {others : List Touch} {s : State} (hs : start D cur kern others = some s) :
    s.kern = kern ∧ s.cur = cur ∧ s.out = slotsEvents D false (fun _ => {}) 0 (kern.map fun _ => {}) kern false ++ touchCalls D s.touch false kern := by
  obtain ⟨s', e, -, e1, e2, -, -, -, e6⟩ := start_spec (D := D) h others
  rw [e] at hs
  obtain rfl := Option.some.inj hs
  exact ⟨e2, e1, e6⟩

/-- What a report of the kernel tells is what changed between the two states of the kernel: every totem that came, comes near and stands; every totem that moved, moves by as
much as its position changed; the button goes to the first totem; every totem that went is lifted and goes; and the touch device is told. -/
theorem report_events {D : Device} {acts : List Act} {s : State} (h : Careful D acts s true) (hu : ∀ t, s.touch = some t → t.update = true → t.toggle = true)
    {evs : List KEv} (hs : Sensible (s.cur, s.kern) evs) :
    ∃ t, run D s (Act.report evs).ops = some t ∧ (t.cur, t.kern) = evs.foldl libevdev (s.cur, s.kern) ∧
      t.out = s.out ++ slotsEvents D (button s.now evs) (fun i => mentioned i (s.cur, s.kern) {} evs) 0 s.kern t.kern (buttonTold false s.out) ++
        touchCalls D s.touch (ignoring s) t.kern := by
  have hh := hist_of_careful h
  obtain ⟨t, e1, -, e3, e4, -, -, -, -, -, e9⟩ := report_spec hh.inv hs
  refine ⟨t, e1, e3, ?_⟩
  rw [e9, e4, hh.button]
  have : touchCalls D s.touch (s.arb == .ignoreRect) t.kern = touchCalls D s.touch (ignoring s) t.kern := by
    cases ht : s.touch with
    | none => rfl
    | some u =>
      by_cases hg : u.toggle = true
      · rw [ignoring_eq hh u ht hg]
      · have hu' : u.update = false := by
          cases hx : u.update with
          | false => rfl
          | true => exact absurd (hu u ht hx) hg
        simp [touchCalls, hg, hu']
  rw [this]

/-- The angles told are from 0 to 359. -/
theorem angles {D : Device} {now : Bool} {ch : Nat → Changed} {i : Nat} {ks0 ks1 : List Kern} {prev : Bool} {e : Ev} {a : Axes} (he : e ∈ slotsEvents D now ch i ks0 ks1 prev)
    (ha : Ev.axes? e = some a) : 0 ≤ a.rotation ∧ a.rotation < 360 := by
  induction ks0 generalizing ks1 i prev with
  | nil => simp [slotsEvents] at he
  | cons k0 ks0 ih =>
    cases ks1 with
    | nil => simp [slotsEvents] at he
    | cons k1 ks1 =>
      simp only [slotsEvents, List.mem_append] at he
      rcases he with he | he
      · have : a = axesOf D k1 := by
          revert he
          generalize (if (down k0 || down k1) && now != prev then some now else none) = press
          unfold slotEvents
          cases down k0 <;> cases down k1 <;> cases press <;> by_cases hc : ch i = {} <;> simp [hc] <;> intro he <;> rcases he with rfl | rfl | rfl <;> simpa [Ev.axes?] using ha.symm
        rw [this]
        simp only [axesOf]
        omega
      · exact ih he

/-! ### C57: sequences -/

/-- Every totem comes near, stands, moves, is lifted and goes, in this order; at the end it stands for the client exactly if it stands on a device that runs.  Only with
suspending a tool that is away may release the button and go once more. -/
theorem well_formed {D : Device} {acts : List Act} {s : State} {on : Bool} (h : Careful D acts s on) (i : Nat) :
    s.out.foldlM (follow (decide (Act.suspend ∈ acts)) i) .away = some (if on = true ∧ ∃ k, s.kern[i]? = some k ∧ down k = true then .standing else .away) := by
  rw [(hist_of_careful h).phase _ (by simp)]
  congr 1
  cases on with
  | false => simp
  | true =>
    unfold ph
    cases hk : s.kern[i]? with
    | none => simp
    | some k => simp

/-! ### C57: the button -/

theorem button_alternates {D : Device} {acts : List Act} {s : State} {on : Bool} (h : Careful D acts s on) (hn : Act.suspend ∉ acts) : Alternate false s.out :=
  (hist_of_careful h).alternate hn

theorem button_append (acts : List Act) (a : Act) : kernelButton (acts ++ [a]) = match a with | .report evs => button (kernelButton acts) evs | _ => kernelButton acts := by
  unfold kernelButton
  rw [List.foldl_append]
  rfl

theorem now_eq {D : Device} {acts : List Act} {s : State} {on : Bool} (h : Careful D acts s on) (hn : Act.suspend ∉ acts) : s.now = kernelButton acts := by
  induction h with
  | start hf hs =>
    obtain ⟨s', e, -, -, -, e3, -⟩ := start_spec (D := D) hf _
    rw [e] at hs
    obtain rfl := Option.some.inj hs
    rw [e3]; rfl
  | @act acts s on a t h hc hr ih =>
    have ih := ih fun hm => hn (List.mem_append_left _ hm)
    have hh := hist_of_careful h
    rw [button_append]
    cases a with
    | report evs =>
      obtain ⟨t', e1, -, -, e4, -⟩ := report_spec hh.inv hc.2
      rw [e1] at hr
      obtain rfl := Option.some.inj hr
      rw [e4, ih]
    | suspend => exact absurd (List.mem_append_right _ List.mem_cons_self) hn
    | resume cur kern =>
      simp only [Act.ops, run, step, Option.bind_some, Option.some.injEq] at hr
      rw [← hr]; exact ih
    | added t' =>
      obtain ⟨u, e1, -, e3, -⟩ := added_spec hh.inv t'
      rw [e1] at hr
      obtain rfl := Option.some.inj hr
      rw [e3]; exact ih
    | removed id =>
      obtain ⟨u, e1, -, -, -, e3, -⟩ := removed_spec hh.inv id
      rw [e1] at hr
      obtain rfl := Option.some.inj hr
      rw [e3]; exact ih

/-- While a totem stands, the client knows the state of the button. -/
theorem button_current {D : Device} {acts : List Act} {s : State} {on : Bool} (h : Careful D acts s on) (hn : Act.suspend ∉ acts) {k : Kern} (hk : k ∈ s.kern) (hd : down k = true) :
    buttonTold false s.out = kernelButton acts := by
  have hh := hist_of_careful h
  rw [hh.button, ← now_eq h hn]
  exact (hh.inv.btn (List.any_eq_true.mpr ⟨k, hk, hd⟩)).symm

theorem pressed_tool {D : Device} {acts : List Act} {s : State} {on : Bool} (h : Careful D acts s on) (hp : s.prev = true) : s.slots.any Slot.tool = true := by
  induction h with
  | start hf hs =>
    obtain ⟨s', e, -, -, -, -, e4, -⟩ := start_spec (D := D) hf _
    rw [e] at hs
    obtain rfl := Option.some.inj hs
    rw [e4] at hp; cases hp
  | @act acts s on a t h hc hr ih =>
    have hh := hist_of_careful h
    have hany : ∀ {s' : State}, Inv D s' → s'.kern.any down = true → ∃ (j : Nat) (x : Slot), s'.slots[j]? = some x ∧ x.tool = true := by
      intro s' hi hd
      obtain ⟨k, hk, hd⟩ := List.any_eq_true.mp hd
      obtain ⟨j, hj, rfl⟩ := List.mem_iff_getElem.mp hk
      have hj' : j < s'.slots.length := by rw [hi.len]; exact hj
      exact ⟨j, _, List.getElem?_eq_getElem hj', ((hi.ok j _ _ (List.getElem?_eq_getElem hj) (List.getElem?_eq_getElem hj')).on hd).2.1⟩
    cases a with
    | report evs =>
      obtain ⟨t', e1, e2, -, -, e5, -, -, e8, e9, -⟩ := report_spec hh.inv hc.2
      rw [e1] at hr
      obtain rfl := Option.some.inj hr
      have hkeep : (∃ (j : Nat) (x : Slot), s.slots[j]? = some x ∧ x.tool = true) → t'.slots.any Slot.tool = true := by
        rintro ⟨j, x, hx, ht⟩
        have hlt : j < t'.slots.length := by
          rw [e2.len, e8, ← hh.inv.len]; exact (List.getElem?_eq_some_iff.mp hx).1
        obtain ⟨k, -, hk⟩ := e9 j x _ hx (List.getElem?_eq_getElem hlt)
        exact List.any_eq_true.mpr ⟨_, List.getElem_mem hlt, by rw [hk, ht]; rfl⟩
      cases h0 : s.kern.any down with
      | true => exact hkeep (hany hh.inv h0)
      | false =>
        cases h1 : t'.kern.any down with
        | true =>
          obtain ⟨j, x, hx, ht⟩ := hany e2 h1
          exact List.any_eq_true.mpr ⟨x, List.mem_of_getElem? hx, ht⟩
        | false =>
          rw [e5, h0, h1] at hp
          simp only [Bool.or_self, Bool.false_eq_true, if_false] at hp
          obtain ⟨x, hx, ht⟩ := List.any_eq_true.mp (ih hp)
          obtain ⟨j, hj, rfl⟩ := List.mem_iff_getElem.mp hx
          exact hkeep ⟨j, _, List.getElem?_eq_getElem hj, ht⟩
    | suspend =>
      obtain ⟨t', evs, e1, e2, -, ek, -, -, e7, e8, -⟩ := suspend_spec hh.inv
      rw [e1] at hr
      obtain rfl := Option.some.inj hr
      rw [e7] at hp
      simp only [Bool.and_eq_true] at hp
      obtain ⟨x, hx, ht⟩ := List.any_eq_true.mp (ih hp.1)
      obtain ⟨j, hj, rfl⟩ := List.mem_iff_getElem.mp hx
      have hlt : j < t'.slots.length := by rw [e2.len, ek, ← hh.inv.len]; exact hj
      exact List.any_eq_true.mpr ⟨_, List.getElem_mem hlt, by rw [e8 j _ _ (List.getElem?_eq_getElem hj) (List.getElem?_eq_getElem hlt)]; exact ht⟩
    | resume cur kern =>
      simp only [Act.ops, run, step, Option.bind_some, Option.some.injEq] at hr
      subst hr
      exact ih hp
    | added t' =>
      obtain ⟨u, e1, -, e3, -⟩ := added_spec hh.inv t'
      rw [e1] at hr
      obtain rfl := Option.some.inj hr
      rw [e3] at hp ⊢
      exact ih hp
    | removed id =>
      obtain ⟨u, e1, -, -, e3, -, e4, -⟩ := removed_spec hh.inv id
      rw [e1] at hr
      obtain rfl := Option.some.inj hr
      rw [e3] at hp
      rw [e4]
      exact ih hp

/-! ### C57: suspending -/

/-- Suspending ends everything: the tools are away, the button is released, and no device ignores anything.  The button needs that a totem stands, or that the kernel's button is
still pressed. -/
theorem suspend_ends {D : Device} {acts : List Act} {s : State} (h : Careful D acts s true) :
    ∃ t, run D s Act.suspend.ops = some t ∧ (∀ i, t.out.foldlM (follow true i) .away = some .away) ∧ (∀ id, told id .notActive t.out = .notActive) ∧
      ((∃ k ∈ s.kern, down k = true) → buttonTold false t.out = false) ∧
      (Act.suspend ∉ acts → kernelButton acts = true → buttonTold false t.out = false) := by
  have hh := hist_of_careful h
  obtain ⟨t, e, ht⟩ := hist_act hh (a := .suspend) rfl
  obtain ⟨t', evs, e1, -, -, -, -, e6, e7, -⟩ := suspend_spec hh.inv
  rw [e] at e1
  obtain rfl := Option.some.inj e1
  refine ⟨t, e, ?_, ?_, ?_, ?_⟩
  · intro i
    rw [ht.phase true (by simp)]
    simp [nextOn]
  · intro id
    rw [ht.told, e6]
    unfold shouldTold
    cases t.touch <;> simp
  · rintro ⟨k, hk, hd⟩
    rw [ht.button, e7, hh.inv.btn (List.any_eq_true.mpr ⟨k, hk, hd⟩)]
    cases hp : s.prev with
    | false => rfl
    | true => rw [pressed_tool h hp]; rfl
  · intro hn hb
    rw [ht.button, e7, now_eq h hn, hb]
    cases hp : s.prev with
    | false => rfl
    | true => rw [pressed_tool h hp]; rfl

/-! ### C57: the touch screen below -/

/-- While no totem stands, no device ignores anything; and no device but the touch device ever does. -/
theorem touch_free {D : Device} {acts : List Act} {s : State} {on : Bool} (h : Careful D acts s on) (id : Nat)
    (hf : on = false ∨ (∀ k ∈ s.kern, down k = false) ∨ ∀ t, s.touch = some t → t.id ≠ id) : told id .notActive s.out = .notActive := by
  have hh := hist_of_careful h
  rw [hh.told]
  have arb : ∀ a, a = Arb.notActive → shouldTold s.touch a id = .notActive := by
    intro a ha
    subst ha
    unfold shouldTold
    cases s.touch <;> simp
  rcases hf with hf | hf | hf
  · exact arb _ (hh.off hf)
  · refine arb _ (hh.inv.arb2 ?_)
    rw [List.any_eq_false]
    intro k hk
    simp [hf k hk]
  · unfold shouldTold
    cases ht : s.touch with
    | none => rfl
    | some t => simp [hf t ht]

/-- After a report the touch device ignores the area around the totem exactly if one stands. -/
theorem touch_ignores {D : Device} {acts : List Act} {s : State} (h : Careful D acts s true) {evs : List KEv} (hs : Sensible (s.cur, s.kern) evs) {u : Touch}
    (hu : s.touch = some u) (hg : u.toggle = true) :
    ∃ t, run D s (Act.report evs).ops = some t ∧ t.touch = some u ∧ told u.id .notActive t.out = if t.kern.any down then .ignoreRect else .notActive := by
  have hh := hist_of_careful h
  obtain ⟨t, e, ht⟩ := hist_act hh (a := .report evs) ⟨rfl, hs⟩
  obtain ⟨t', e1, -, -, -, -, e6, e7, -⟩ := report_spec hh.inv hs
  rw [e] at e1
  obtain rfl := Option.some.inj e1
  refine ⟨t, e, by rw [e6, hu], ?_⟩
  rw [ht.told, e6, e7, hu]
  simp [shouldTold, hg]

theorem added_below {D : Device} {s : State} (h : ∀ u, s.touch = some u → Below D u) (t : Touch) : ∀ u, (deviceAdded D s t).touch = some u → Below D u := by
  intro u hu
  unfold deviceAdded at hu
  split at hu
  · exact h u hu
  · split at hu
    · exact h u hu
    · split at hu
      · exact h u hu
      · rename_i h1 h2 h3
        simp only [Option.some.injEq] at hu
        subst hu
        simp only [not_or, ne_eq, Classical.not_not, not_and] at h1 h2
        refine ⟨h1.1, h1.2, ?_⟩
        intro g g' e1 e2
        have := h2 (by rw [e1]; rfl) (by rw [e2]; rfl)
        rw [e1, e2] at this
        exact Option.some.inj this

theorem setTouch_touch {D : Device} {s t : State} {e : Bool} (h : setTouch D s e = some t) : t.touch = s.touch := by
  unfold setTouch at h
  cases hs : s.touch with
  | none =>
    rw [hs] at h
    simp only [Option.some.injEq] at h
    rw [← h, hs]
  | some u =>
    rw [hs] at h
    simp only at h
    repeat' split at h
    all_goals first | (cases h; done) | (simp only [Option.some.injEq] at h; rw [← h])

/-- The touch device is one of the same vendor and product, and of the same group if both have one. -/
theorem touch_below {D : Device} {acts : List Act} {s : State} {on : Bool} (h : Careful D acts s on) : ∀ u, s.touch = some u → Below D u := by
  induction h with
  | @start cur kern others s hf hs =>
    have : ∀ (ts : List Touch) (s : State), (∀ u, s.touch = some u → Below D u) → ∀ u, (ts.foldl (deviceAdded D) s).touch = some u → Below D u := by
      intro ts
      induction ts with
      | nil => intro s h; exact h
      | cons t ts ih => intro s h; exact ih _ (added_below h t)
    have hb := this others { kern := kern, cur := cur, slot := cur, slots := kern.map fun _ => {} } (by intro u hu; cases hu)
    have ht : s.touch = (others.foldl (deviceAdded D) { kern := kern, cur := cur, slot := cur, slots := kern.map fun _ => {} }).touch := by
      unfold start at hs
      have := setTouch_touch hs
      exact this
    rw [ht]; exact hb
  | @act acts s on a t h hc hr ih =>
    have hh := hist_of_careful h
    cases a with
    | report evs =>
      obtain ⟨t', e1, -, -, -, -, e6, -⟩ := report_spec hh.inv hc.2
      rw [e1] at hr
      obtain rfl := Option.some.inj hr
      rw [e6]; exact ih
    | suspend =>
      obtain ⟨t', evs, e1, -, -, -, e5, -⟩ := suspend_spec hh.inv
      rw [e1] at hr
      obtain rfl := Option.some.inj hr
      rw [e5]; exact ih
    | resume cur kern =>
      simp only [Act.ops, run, step, Option.bind_some, Option.some.injEq] at hr
      subst hr
      exact ih
    | added t' =>
      simp only [Act.ops, run, step, Option.bind_some, Option.some.injEq] at hr
      subst hr
      exact added_below ih t'
    | removed id =>
      obtain ⟨u, e1, -, -, -, -, -, -, hor⟩ := removed_spec hh.inv id
      rw [e1] at hr
      obtain rfl := Option.some.inj hr
      rcases hor with ⟨-, rfl⟩ | ⟨-, e, -⟩
      · exact ih
      · intro u' hu; rw [e] at hu; cases hu

/-- A touch device that comes while there is none is taken, if it may be the one below. -/
theorem touch_taken {D : Device} {s : State} (hn : s.touch = none) {t : Touch} (hb : Below D t) : run D s (Act.added t).ops = some { s with touch := some t } := by
  obtain ⟨a, b, c⟩ := hb
  have h1 : ¬ (t.vendor ≠ D.vendor ∨ t.product ≠ D.product) := by simp [a, b]
  have h2 : ¬ (D.group.isSome ∧ t.group.isSome ∧ D.group ≠ t.group) := by
    rintro ⟨x, y, z⟩
    obtain ⟨g, hg⟩ := Option.isSome_iff_exists.mp x
    obtain ⟨g', hg'⟩ := Option.isSome_iff_exists.mp y
    exact z (by rw [hg, hg', c g g' hg hg'])
  simp only [Act.ops, run, step, deviceAdded, if_neg h1, if_neg h2, hn, Option.isSome_none, Bool.false_eq_true, if_false, Option.bind_some]

/-- A device is refused if it lacks positions, slots, a dial or sizes, or if both sizes lack a resolution. -/
theorem refused (c : Caps) : reject c = true ↔ c.hasXY = false ∨ c.hasSlot = false ∨ c.hasDial = false ∨ c.hasSize = false ∨ (c.resMajor = 0 ∧ c.resMinor = 0) := by
  unfold reject
  cases c.hasXY <;> cases c.hasSlot <;> cases c.hasDial <;> cases c.hasSize <;> simp

/-! ### Examples -/

/-- A dial of 5 units to the millimetre, with a touch screen of the same maker. -/
def exD : Device := { resMajor := 5, resMinor := 5, minX := 0, resX := 10, minY := 0, resY := 10, vendor := 1, product := 2, group := some 3 }
def exTouch : Touch := { id := 7, vendor := 1, product := 2, group := some 3, toggle := true, update := true }
def exOther : Touch := { id := 8, vendor := 1, product := 4, group := some 3, toggle := true, update := true }

/-- A totem comes in slot 1, at 500, 600, turned by 30 degrees. -/
def exPut : List KEv := [.slot 1, .tracking 5, .x 500, .y 600, .orient 30, .major 50, .minor 40]
/-- It moves, and its button is pressed. -/
def exMove : List KEv := [.x 520, .y 590, .btn0 1]
/-- It is lifted, and its button released. -/
def exLift : List KEv := [.btn0 0, .tracking (-1)]

def exActs : List Act := [.added exOther, .added exTouch, .report exPut, .report exMove, .report exLift, .suspend]

def exS2 : State := { kern := [{}, {}], cur := 0, slot := 0, slots := [{}, {}], touch := some exTouch }
def exS3 : State := (run exD exS2 (Act.report exPut).ops).get (by decide +kernel)
def exS4 : State := (run exD exS3 (Act.report exMove).ops).get (by decide +kernel)
def exS5 : State := (run exD exS4 (Act.report exLift).ops).get (by decide +kernel)
def exS6 : State := (run exD exS5 Act.suspend.ops).get (by decide +kernel)

theorem exSensible {c : Nat × List Kern} {evs : List KEv} {i : Nat} {v : Int} {k : Kern} (h1 : trackings c evs = [(i, v)]) (h2 : c.2[i]? = some k) (h3 : -1 ≤ v) (h4 : 0 ≤ v ↔ down k = false)
    (h5 : evs.all fun e => match e with | .orient v => v ≤ 360 | _ => true) : Sensible c evs := by
  refine ⟨by rw [h1]; simp, ?_, ?_⟩
  · intro i' v' hm
    rw [h1] at hm
    simp only [List.mem_cons, Prod.mk.injEq, List.not_mem_nil, or_false] at hm
    obtain ⟨rfl, rfl⟩ := hm
    refine ⟨h3, fun k' hk => ?_⟩
    rw [h2] at hk
    obtain rfl := Option.some.inj hk
    exact h4
  · intro v hm
    have := List.all_eq_true.mp h5 _ hm
    simpa using this

theorem exStarted : Careful exD [] { exS2 with touch := none } true := .start (others := []) ⟨by decide, by simp⟩ rfl
theorem exCareful2 : Careful exD [.added exOther, .added exTouch] exS2 true :=
  .act (a := .added exTouch) (.act (a := .added exOther) exStarted trivial rfl) trivial rfl
theorem exSensible3 : Sensible (exS2.cur, exS2.kern) exPut := exSensible (i := 1) (v := 5) (k := {}) (by decide +kernel) (by decide +kernel) (by decide) (by decide) (by decide)
theorem exCareful3 : Careful exD [.added exOther, .added exTouch, .report exPut] exS3 true :=
  .act (a := .report exPut) exCareful2 ⟨rfl, exSensible3⟩ (Option.some_get _).symm
theorem exSensible4 : Sensible (exS3.cur, exS3.kern) exMove := by
  have : trackings (exS3.cur, exS3.kern) exMove = [] := by decide +kernel
  refine ⟨by rw [this]; exact List.nodup_nil, ?_, ?_⟩
  · intro i v hm; rw [this] at hm; cases hm
  · intro v hm; simp [exMove] at hm
theorem exCareful4 : Careful exD [.added exOther, .added exTouch, .report exPut, .report exMove] exS4 true :=
  .act (a := .report exMove) exCareful3 ⟨rfl, exSensible4⟩ (Option.some_get _).symm
theorem exSensible5 : Sensible (exS4.cur, exS4.kern) exLift :=
  exSensible (i := 1) (v := -1) (k := { tracking := 5, x := 520, y := 590, orient := 30, major := 50, minor := 40 }) (by decide +kernel) (by decide +kernel) (by decide) (by decide) (by decide)
theorem exCareful5 : Careful exD [.added exOther, .added exTouch, .report exPut, .report exMove, .report exLift] exS5 true :=
  .act (a := .report exLift) exCareful4 ⟨rfl, exSensible5⟩ (Option.some_get _).symm
/-- The history `exActs` is careful, ... -/
theorem exCareful6 : Careful exD exActs exS6 false := .act (a := .suspend) exCareful5 rfl (Option.some_get _).symm

/-- ... and this is what is told. -/
example : exS6.out.map kind =
    [.near 1, .down 1, .touch 7 .ignoreRect (some ⟨20, 30, 100, 100⟩), .axis 1 20 (-10), .button 1 true, .area 7 (some ⟨22, 29, 100, 100⟩), .button 1 false, .up 1, .gone 1,
     .touch 7 .notActive none, .gone 1, .touch 7 .notActive none] := by decide +kernel

/-- `report_events`, `touch_ignores`: a touch device, a totem that comes, and one that is lifted. -/
example : ∃ t, run exD exS2 (Act.report exPut).ops = some t ∧ t.touch = some exTouch ∧ told 7 .notActive t.out = if t.kern.any down then .ignoreRect else .notActive :=
  touch_ignores exCareful2 exSensible3 rfl rfl
example : exS3.kern.any down = true ∧ exS5.kern.any down = false := by decide +kernel
example := report_events exCareful4 (by intro t _ _; rename_i h _; cases h; rfl) exSensible5
/-- `well_formed`: the totem stands for the client. -/
example : exS4.out.foldlM (follow false 1) .away = some .standing := by decide +kernel
example := well_formed exCareful4 1
/-- `button_alternates`, `button_current`: it stands, with its button pressed. -/
example : Alternate false exS5.out := button_alternates exCareful5 (by decide)
example : buttonTold false exS4.out = true ∧ kernelButton [.added exOther, .added exTouch, .report exPut, .report exMove] = true ∧ (exS4.kern.any down) = true := by decide +kernel
/-- `suspend_ends`: it stands, with its button pressed. -/
example := suspend_ends exCareful4
/-- `touch_free`: no totem stands. -/
example : told 7 .notActive exS5.out = .notActive := touch_free exCareful5 7 (Or.inr (Or.inl (by decide +kernel)))
/-- `starts`: a totem stands on a new device. -/
example : (start exD 0 [{}, { tracking := 3, x := 100, y := 200, orient := 90 }] [exOther, exTouch]).map (fun s => s.out.map kind) =
    some [.near 1, .down 1, .touch 7 .ignoreRect (some ⟨-20, -10, 100, 100⟩)] := by decide +kernel
example : Fresh 0 [{}, { tracking := 3, x := 100, y := 200, orient := 90 }] := ⟨by decide, by simp⟩
/-- `no_crash`: resuming without a totem. -/
example : CarefulAct false exS6 (.resume exS6.cur [{}, {}]) := ⟨rfl, rfl, by decide +kernel, by decide +kernel, by simp⟩
/-- `touch_below`, `touch_taken`. -/
example : Below exD exTouch ∧ ¬ Below exD exOther := by
  refine ⟨⟨rfl, rfl, ?_⟩, fun h => absurd h.2.1 (by decide)⟩
  intro g h e1 e2
  cases e1; cases e2; rfl

/-! ### What happens in other histories -/

def exStart : State := { kern := [{}, {}], cur := 0, slot := 0, slots := [{}, {}], touch := some exTouch }

/-- A totem that comes and goes within one report, the first in its slot, fails an assertion. -/
theorem brief_totem_crashes : run exD exStart (Act.report [.tracking 5, .x 500, .tracking (-1)]).ops = none := by decide +kernel

/-- In a slot that had a totem before, it is told that one goes that never came. -/
theorem brief_totem_goes_only :
    (run exD exStart ((Act.report [.tracking 5]).ops ++ (Act.report [.tracking (-1)]).ops ++ (Act.report [.tracking 6, .tracking (-1)]).ops)).map (fun s => s.out.map kind) =
      some [.near 0, .down 0, .touch 7 .ignoreRect (some ⟨-30, -30, 100, 100⟩), .up 0, .gone 0, .touch 7 .notActive none, .up 0, .gone 0, .touch 7 .notActive none] := by decide +kernel

/-- A totem that stands while the device is suspended and is moved after it was resumed moves without having come near. -/
theorem resumed_totem_never_comes :
    (run exD exStart ((Act.report [.tracking 5, .x 500]).ops ++ Act.suspend.ops ++ (Act.resume 0 [{ tracking := 5, x := 500 }, {}]).ops ++ (Act.report [.x 510]).ops)).map (fun s => s.out.map kind) =
      some [.near 0, .down 0, .touch 7 .ignoreRect (some ⟨20, -30, 100, 100⟩), .up 0, .gone 0, .touch 7 .notActive none, .axis 0 10 0, .touch 7 .ignoreRect (some ⟨21, -30, 100, 100⟩)] := by decide +kernel

/-- A totem that stands while the device is suspended and is lifted before it is resumed: after the next report the touch screen ignores the area where nothing stands. -/
theorem lifted_while_suspended_still_ignored :
    (run exD exStart ((Act.report [.tracking 5, .x 500]).ops ++ Act.suspend.ops ++ (Act.resume 0 [{ tracking := -1, x := 500 }, {}]).ops ++ (Act.report [.btn0 1]).ops)).map (fun s => s.out.map kind) =
      some [.near 0, .down 0, .touch 7 .ignoreRect (some ⟨20, -30, 100, 100⟩), .up 0, .gone 0, .touch 7 .notActive none, .button 0 true, .touch 7 .ignoreRect (some ⟨20, -30, 100, 100⟩)] := by decide +kernel

/-- A device that is suspended and then removed tells twice that its totem is lifted. -/
theorem suspended_twice :
    (run exD exStart ((Act.report [.tracking 5]).ops ++ Act.suspend.ops ++ Act.suspend.ops)).map (fun s => s.out.map kind) =
      some [.near 0, .down 0, .touch 7 .ignoreRect (some ⟨-30, -30, 100, 100⟩), .up 0, .gone 0, .touch 7 .notActive none, .up 0, .gone 0, .touch 7 .notActive none] := by decide +kernel

/-- A totem that is lifted with its button pressed, which is released in the air, then the device is suspended: the button stays pressed for the client. -/
theorem released_in_the_air :
    (run exD exStart ((Act.report [.tracking 5, .btn0 1]).ops ++ (Act.report [.tracking (-1)]).ops ++ (Act.report [.btn0 0]).ops ++ Act.suspend.ops)).map (fun s => s.out.map kind) =
      some [.near 0, .down 0, .button 0 true, .touch 7 .ignoreRect (some ⟨-30, -30, 100, 100⟩), .up 0, .gone 0, .touch 7 .notActive none, .touch 7 .notActive none, .gone 0, .touch 7 .notActive none] := by decide +kernel

/-- A button pressed in the air is told as released when the device is suspended. -/
theorem pressed_in_the_air :
    (run exD exStart ((Act.report [.tracking 5]).ops ++ (Act.report [.tracking (-1)]).ops ++ (Act.report [.btn0 1]).ops ++ Act.suspend.ops)).map (fun s => s.out.map kind) =
      some [.near 0, .down 0, .touch 7 .ignoreRect (some ⟨-30, -30, 100, 100⟩), .up 0, .gone 0, .touch 7 .notActive none, .touch 7 .notActive none, .button 0 false, .gone 0, .touch 7 .notActive none] := by decide +kernel

/-- With a resolution of one size only, the other size is not a number. -/
theorem size_not_a_number : reject ⟨true, true, true, true, 5, 0⟩ = false ∧ ∀ k, (axesOf { exD with resMinor := 0 } k).minor = none := ⟨by decide, fun _ => rfl⟩

/-- If the kernel's current slot changed while the device was suspended, the totem's events are told of another totem. -/
theorem stale_slot : (run exD exStart ((Act.report [.tracking 5]).ops ++ (Act.report [.tracking (-1)]).ops ++ Act.suspend.ops ++ (Act.resume 1 [{}, {}]).ops ++ (Act.report [.tracking 6]).ops)).map
    (fun s => (s.kern.map down, (s.out.map kind).drop 8)) = some ([false, true], [.near 0, .down 0, .touch 7 .ignoreRect (some ⟨-30, -30, 100, 100⟩)]) := by decide +kernel

end Libinput.Totem
