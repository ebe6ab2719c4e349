import Verif.Totem.Inv

/-! # The steps of careful histories -/
namespace Libinput.Totem
open Spec

theorem any_down {D : Device} {ks : List Kern} {xs : List Slot} (hl : xs.length = ks.length) (h : ∀ (j : Nat) k x, ks[j]? = some k → xs[j]? = some x → SlotOk D k x) :
    (xs.all fun x => x.state = .none) = !(ks.any down) ∧ rectOf D xs = area D ks := by
  induction ks generalizing xs with
  | nil =>
    cases xs with
    | nil => exact ⟨rfl, rfl⟩
    | cons _ _ => simp at hl
  | cons k ks ih =>
    cases xs with
    | nil => simp at hl
    | cons x xs =>
      have ok := h 0 k x rfl rfl
      obtain ⟨a, b⟩ := ih (xs := xs) (by simpa using hl) (fun j k' x' p q => h (j + 1) k' x' (by simpa using p) (by simpa using q))
      unfold rectOf area at *
      cases hd : down k with
      | false =>
        have := ok.off hd
        constructor
        · simp only [List.all_cons, List.any_cons, this, hd, Bool.false_or, decide_true, Bool.true_and]
          exact a
        · rw [List.find?_cons_of_neg (by simp [this]), List.find?_cons_of_neg (by simp [hd])]
          exact b
      | true =>
        obtain ⟨e1, -, e3, -⟩ := ok.on hd
        constructor
        · simp [e1, hd]
        · rw [List.find?_cons_of_pos (by simp [e1]), List.find?_cons_of_pos hd]
          simp [e3, axesOf, mm]

theorem setTouch_report {D : Device} {s : State} (h : s.arb ≠ .ignoreAll) (hr : rectOf D s.slots = area D s.kern) :
    setTouch D s (!(s.kern.any down)) = some { s with out := s.out ++ touchCalls D s.touch (s.arb == .ignoreRect) s.kern, arb := if s.touch.isSome then if s.kern.any down then .ignoreRect else .notActive else s.arb } := by
  unfold setTouch touchCalls
  cases ht : s.touch with
  | none =>
    cases s
    simp only at ht
    subst ht
    simp
  | some t =>
    cases hd : s.kern.any down with
    | false => simp
    | true =>
      have ha : (area D s.kern).isSome = true := by
        unfold area
        rw [Option.isSome_map, List.find?_isSome]
        exact List.any_eq_true.mp hd
      simp only [Bool.not_true, Bool.false_eq_true, if_false, hr, ha, if_true]
      cases ha : s.arb with
      | ignoreAll => exact absurd ha h
      | notActive => simp
      | ignoreRect => simp

/-- A report. -/
theorem report_spec {D : Device} {s : State} (h : Inv D s) {evs : List KEv} (hs : Sensible (s.cur, s.kern) evs) :
    ∃ t, run D s (Act.report evs).ops = some t ∧ Inv D t ∧ (t.cur, t.kern) = evs.foldl libevdev (s.cur, s.kern) ∧ t.now = button s.now evs ∧
      t.prev = (if s.kern.any down || t.kern.any down then t.now else s.prev) ∧ t.touch = s.touch ∧
      t.arb = (if s.touch.isSome then if t.kern.any down then .ignoreRect else .notActive else s.arb) ∧ t.kern.length = s.kern.length ∧
      (∀ (j : Nat) x y, s.slots[j]? = some x → t.slots[j]? = some y → ∃ k, t.kern[j]? = some k ∧ y.tool = (x.tool || down k)) ∧
      t.out = s.out ++ slotsEvents D t.now (fun j => mentioned j (s.cur, s.kern) {} evs) 0 s.kern t.kern s.prev ++ touchCalls D s.touch (s.arb == .ignoreRect) t.kern := by
  obtain ⟨u, done, e1, e2, e3, e4⟩ := mid_events evs s _ [] (mid_start h) (by simpa using hs.once) hs.turns hs.angles
  obtain ⟨ys, prev', f1, f2, f3, f4, f5⟩ := handleAll_spec (D := D) u.now (fun j => mentioned j (s.cur, s.kern) {} evs) s.kern u.kern u.slots 0 u.prev e4.len0.symm e4.len (by
    intro j k0 k x a b c
    rw [Nat.zero_add]
    exact (e4.ok j k0 k x a b c).1)
  obtain ⟨g1, g2⟩ := any_down f2 f3
  have hst := setTouch_report (D := D) (s := { u with slots := ys, prev := prev', out := u.out ++ slotsEvents D u.now (fun j => mentioned j (s.cur, s.kern) {} evs) 0 s.kern u.kern u.prev })
    (by show u.arb ≠ _; rw [e4.arb]; exact h.arb1) g2
  have hrun : run D s (Act.report evs).ops = sync D u := by
    have : ∀ (ops : List Op) (s : State), run D s (ops ++ [.sync]) = (run D s ops).bind (sync D) := by
      intro ops
      induction ops with
      | nil => intro s; simp [run, step, Option.bind_fun_some]
      | cons op ops ih =>
        intro s
        simp only [List.cons_append, run, Option.bind_assoc]
        congr 1
        funext t
        exact ih t
    show run D s (evs.map .kernel ++ [.sync]) = _
    rw [this, e1]; rfl
  have hsync : sync D u = setTouch D { u with slots := ys, prev := prev', out := u.out ++ slotsEvents D u.now (fun j => mentioned j (s.cur, s.kern) {} evs) 0 s.kern u.kern u.prev }
      (!(u.kern.any down)) := by
    unfold sync
    rw [f1]
    simp only
    rw [g1]
  refine ⟨_, hrun.trans (hsync.trans hst), ?_, e2, e3, ?_, e4.touch, ?_, e4.len0, ?_, ?_⟩
  · refine ⟨f2, e4.cur, e4.slot, f3, ?_, ?_, ?_, ?_⟩
    · intro hd
      show u.now = prev'
      have hd' : u.kern.any down = true := hd
      rw [f5, hd']; simp
    · show (if u.touch.isSome then if u.kern.any down then Arb.ignoreRect else .notActive else u.arb) ≠ _
      rw [e4.arb]
      split
      · split <;> simp
      · exact h.arb1
    · intro hd
      show (if u.touch.isSome then if u.kern.any down then Arb.ignoreRect else .notActive else u.arb) = _
      have hd' : u.kern.any down = false := hd
      rw [hd', e4.arb, e4.touch]
      cases ht : s.touch with
      | some t => rfl
      | none => exact h.arb3 ht
    · intro ht
      show (if u.touch.isSome then if u.kern.any down then Arb.ignoreRect else .notActive else u.arb) = _
      have ht' : u.touch = none := ht
      rw [ht', e4.arb]
      rw [e4.touch] at ht'
      exact h.arb3 ht'
  · show prev' = _
    rw [f5, e4.prev]
  · show (if u.touch.isSome then if u.kern.any down then Arb.ignoreRect else .notActive else u.arb) = _
    rw [e4.touch, e4.arb]
  · intro j x y hx hy
    have hlt : j < s.slots.length := (List.getElem?_eq_some_iff.mp hx).1
    have hlu : j < u.slots.length := by rw [e4.len, e4.len0, ← h.len]; exact hlt
    have hku : j < u.kern.length := by rw [← e4.len]; exact hlu
    have := f4 j _ _ y (List.getElem?_eq_getElem hku) (List.getElem?_eq_getElem hlu) hy
    rw [e4.tools j x _ hx (List.getElem?_eq_getElem hlu)] at this
    exact ⟨_, List.getElem?_eq_getElem hku, this⟩
  · show (u.out ++ _) ++ _ = _
    rw [e4.out, e4.prev, e4.touch, e4.arb]

/-! ### Suspending -/

/-- The events about slot `i`. -/
def ofSlot (i : Nat) : Ev → Bool
  | .prox j _ _ _ _ _ => j == i
  | .tip j _ _ _ _ _ => j == i
  | .axis j _ _ _ _ _ => j == i
  | .button j _ _ _ _ _ => j == i
  | _ => false

theorem suspendSlot_spec {D : Device} {k : Kern} {x : Slot} (h : SlotOk D k x) (i : Nat) (now : Bool) :
    SlotOk D k (suspendSlot D i k x now).1 ∧ (suspendSlot D i k x now).1.tool = x.tool ∧
    (x.tool = false → (suspendSlot D i k x now).2 = []) ∧
    (x.tool = true → down k = true → (suspendSlot D i k x now).2 =
      (if now then [.button i true (axesOf D k) 0 0 false] else []) ++ [.tip i false {} (axesOf D k) 0 0, .prox i false {} (axesOf D k) 0 0]) ∧
    (x.tool = true → down k = false → ∃ a dx dy, (suspendSlot D i k x now).2 = (if now then [.button i false a dx dy false] else []) ++ [.prox i false {} a dx dy]) := by
  cases ht : x.tool with
  | false => simp [suspendSlot, ht, h]
  | true =>
    cases hd : down k with
    | true =>
      obtain ⟨a, b, c, d, e, f⟩ := h.on hd
      have hf : fetch D k x = (x, 0, 0, false) := by unfold fetch; rw [f]; simp
      have hx : ({ x with changed := {} } : Slot) = x := by cases x; simp only at f; rw [f]
      have : suspendSlot D i k x now = (x, (if now then [.button i true (axesOf D k) 0 0 false] else []) ++
          [.tip i false {} (axesOf D k) 0 0, .prox i false {} (axesOf D k) 0 0]) := by
        unfold suspendSlot
        rw [ht, hf]
        simp only [hx]
        rw [a, c]
        simp
      rw [this]
      exact ⟨h, ht, by simp, by simp, by simp⟩
    | false =>
      have hs := h.off hd
      have hfs : (fetch D k x).1.state = .none ∧ (fetch D k x).1.tool = true := by
        unfold fetch
        split
        · exact ⟨hs, ht⟩
        · exact ⟨hs, ht⟩
      have e : suspendSlot D i k x now = ({ (fetch D k x).1 with changed := {} },
          (if now then [.button i false (fetch D k x).1.axes (fetch D k x).2.1 (fetch D k x).2.2.1 false] else []) ++
          [.prox i false {} (fetch D k x).1.axes (fetch D k x).2.1 (fetch D k x).2.2.1]) := by
        unfold suspendSlot
        rw [ht]
        simp [hfs.1]
      rw [e]
      exact ⟨⟨fun _ => hfs.1, fun e => (by rw [hd] at e; cases e), h.angle, h.id⟩, hfs.2, by simp, by simp, fun _ _ => ⟨_, _, _, rfl⟩⟩

/-- The events of suspending: those of the slots that have a tool, in this order; the first releases the button. -/
inductive SuspendEvents (D : Device) : Nat → List Kern → List Slot → Bool → List Ev → Prop
  | nil {i now} : SuspendEvents D i [] [] now []
  | without {i k ks x xs now evs} : x.tool = false → SuspendEvents D (i + 1) ks xs now evs → SuspendEvents D i (k :: ks) (x :: xs) now evs
  | standing {i k ks x xs now evs} : x.tool = true → down k = true → SuspendEvents D (i + 1) ks xs false evs →
      SuspendEvents D i (k :: ks) (x :: xs) now
        (((if now then [.button i true (axesOf D k) 0 0 false] else []) ++ [.tip i false {} (axesOf D k) 0 0, .prox i false {} (axesOf D k) 0 0]) ++ evs)
  | away {i k ks x xs now evs a dx dy} : x.tool = true → down k = false → SuspendEvents D (i + 1) ks xs false evs →
      SuspendEvents D i (k :: ks) (x :: xs) now (((if now then [.button i false a dx dy false] else []) ++ [.prox i false {} a dx dy]) ++ evs)

theorem suspendAll_spec {D : Device} (ks : List Kern) (xs : List Slot) (i : Nat) (now prev : Bool) (hl : xs.length = ks.length)
    (h : ∀ (j : Nat) k x, ks[j]? = some k → xs[j]? = some x → SlotOk D k x) :
    (suspendAll D i ks xs now prev).1.length = ks.length ∧
    (∀ (j : Nat) k y, ks[j]? = some k → (suspendAll D i ks xs now prev).1[j]? = some y → SlotOk D k y) ∧
    (∀ (j : Nat) x y, xs[j]? = some x → (suspendAll D i ks xs now prev).1[j]? = some y → y.tool = x.tool) ∧
    (suspendAll D i ks xs now prev).2.1 = (now && !(xs.any Slot.tool)) ∧ (suspendAll D i ks xs now prev).2.2.1 = (prev && !(now && xs.any Slot.tool)) ∧
    SuspendEvents D i ks xs now (suspendAll D i ks xs now prev).2.2.2 := by
  induction ks generalizing xs i now prev with
  | nil =>
    cases xs with
    | cons _ _ => simp at hl
    | nil => simp [suspendAll]; exact .nil
  | cons k ks ih =>
    cases xs with
    | nil => simp at hl
    | cons x xs =>
      obtain ⟨a1, a2, a3, a4, a5, a6⟩ := ih xs (i + 1) (now && !x.tool) (prev && !(now && x.tool)) (by simpa using hl)
        (fun j k' x' p q => h (j + 1) k' x' (by simpa using p) (by simpa using q))
      obtain ⟨b1, b2, b3, b4, b5⟩ := suspendSlot_spec (h 0 k x rfl rfl) i now
      simp only [suspendAll]
      refine ⟨by rw [List.length_cons, a1, List.length_cons], ?_, ?_, ?_, ?_, ?_⟩
      · intro j k' y p q
        cases j with
        | zero => simp at p q; subst p; subst q; exact b1
        | succ j => exact a2 j k' y (by simpa using p) (by simpa using q)
      · intro j x' y p q
        cases j with
        | zero => simp at p q; subst p; subst q; exact b2
        | succ j => exact a3 j x' y (by simpa using p) (by simpa using q)
      · rw [a4]; cases now <;> cases hx : x.tool <;> simp [hx]
      · rw [a5]; cases now <;> cases hx : x.tool <;> simp [hx]
      · cases hx : x.tool with
        | false =>
          rw [b3 hx, List.nil_append]
          rw [hx] at a6
          have e : (now && !false) = now := by cases now <;> rfl
          rw [e] at a6 ⊢
          exact .without hx a6
        | true =>
          rw [hx] at a6
          have e : (now && !true) = false := by cases now <;> rfl
          rw [e] at a6 ⊢
          cases hd : down k with
          | true => rw [b4 hx hd]; exact .standing hx hd a6
          | false =>
            obtain ⟨a, dx, dy, e⟩ := b5 hx hd
            rw [e]; exact .away hx hd a6

def offCall (touch : Option Touch) : List Ev :=
  match touch with
  | none => []
  | some t => if t.toggle then [.toggle t.id .notActive none] else []

theorem setTouch_off (D : Device) (s : State) : setTouch D s true = some { s with out := s.out ++ offCall s.touch, arb := if s.touch.isSome then .notActive else s.arb } := by
  unfold setTouch offCall
  cases ht : s.touch with
  | none =>
    cases s
    simp only at ht
    subst ht
    simp
  | some t => simp

theorem suspend_spec {D : Device} {s : State} (h : Inv D s) :
    ∃ t evs, run D s Act.suspend.ops = some t ∧ Inv D t ∧ t.cur = s.cur ∧ t.kern = s.kern ∧ t.touch = s.touch ∧ t.arb = .notActive ∧
      t.prev = (s.prev && !(s.now && s.slots.any Slot.tool)) ∧
      (∀ (j : Nat) x y, s.slots[j]? = some x → t.slots[j]? = some y → y.tool = x.tool) ∧
      SuspendEvents D 0 s.kern s.slots s.now evs ∧ t.out = s.out ++ evs ++ offCall s.touch := by
  obtain ⟨a1, a2, a3, a4, a5, a6⟩ := suspendAll_spec (D := D) s.kern s.slots 0 s.now s.prev h.len h.ok
  have harb : (if s.touch.isSome then Arb.notActive else s.arb) = .notActive := by
    cases ht : s.touch with
    | none => exact h.arb3 ht
    | some t => rfl
  have hrun : run D s Act.suspend.ops = some { s with slots := (suspendAll D 0 s.kern s.slots s.now s.prev).1, now := (suspendAll D 0 s.kern s.slots s.now s.prev).2.1, prev := (suspendAll D 0 s.kern s.slots s.now s.prev).2.2.1, out := s.out ++ (suspendAll D 0 s.kern s.slots s.now s.prev).2.2.2 ++ offCall s.touch, arb := if s.touch.isSome then .notActive else s.arb } := by
    simp only [Act.ops, run, step, suspend, setTouch_off, Option.bind_some]
  refine ⟨_, _, hrun, ?_, ?_, ?_, ?_, ?_, ?_, ?_, a6, ?_⟩
  · refine ⟨a1, h.cur, h.slot, a2, ?_, ?_, fun _ => harb, fun _ => harb⟩
    · intro hd
      show (suspendAll D 0 s.kern s.slots s.now s.prev).2.1 = (suspendAll D 0 s.kern s.slots s.now s.prev).2.2.1
      rw [a4, a5, ← h.btn hd]
      cases s.now <;> cases s.slots.any Slot.tool <;> rfl
    · show (if s.touch.isSome then Arb.notActive else s.arb) ≠ _
      rw [harb]; simp
  · rfl
  · rfl
  · rfl
  · exact harb
  · exact a5
  · exact a3
  · rfl

end Libinput.Totem
