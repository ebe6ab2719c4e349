import Verif.Totem.Report

/-! # Careful histories of a totem -/
namespace Libinput.Totem
open Spec

/-- Between reports, while the device runs. -/
structure Inv (D : Device) (s : State) : Prop where
  len : s.slots.length = s.kern.length
  cur : s.cur < s.kern.length
  slot : s.slot = s.cur
  ok : ∀ (j : Nat) k x, s.kern[j]? = some k → s.slots[j]? = some x → SlotOk D k x
  btn : s.kern.any down = true → s.now = s.prev
  arb1 : s.arb ≠ .ignoreAll
  arb2 : s.kern.any down = false → s.arb = .notActive
  arb3 : s.touch = none → s.arb = .notActive

/-- Within a report that started in `s0`: the axes `ch` were mentioned, and the slots in `done` got a tracking id. -/
structure Mid (D : Device) (s0 s : State) (ch : Nat → Changed) (done : List Nat) : Prop where
  len : s.slots.length = s.kern.length
  len0 : s.kern.length = s0.kern.length
  cur : s.cur < s.kern.length
  slot : s.slot = s.cur
  ok : ∀ (j : Nat) k0 k x, s0.kern[j]? = some k0 → s.kern[j]? = some k → s.slots[j]? = some x → SlotMid D k0 k x (ch j) ∧ (j ∉ done → k.tracking = k0.tracking)
  tools : ∀ (j : Nat) x0 x, s0.slots[j]? = some x0 → s.slots[j]? = some x → x.tool = x0.tool
  prev : s.prev = s0.prev
  touch : s.touch = s0.touch
  arb : s.arb = s0.arb
  out : s.out = s0.out

theorem modify_some {α : Type} {l : List α} {c j : Nat} {f : α → α} {y : α} (h : (l.modify c f)[j]? = some y) : ∃ x, l[j]? = some x ∧ y = if c = j then f x else x := by
  rw [List.getElem?_modify] at h
  cases hx : l[j]? with
  | none => rw [hx] at h; cases h
  | some x =>
    rw [hx] at h
    simp only [Option.map_eq_map, Option.map_some, Option.some.injEq] at h
    exact ⟨x, rfl, h.symm⟩

theorem mid_start {D : Device} {s : State} (h : Inv D s) : Mid D s s (fun _ => {}) [] := by
  refine ⟨h.len, rfl, h.cur, h.slot, ?_, fun _ _ _ a b => by (rw [a] at b; rw [Option.some.inj b]), rfl, rfl, rfl, rfl⟩
  intro j k0 k x h0 h1 hx
  rw [h0] at h1
  obtain rfl := Option.some.inj h1
  have ok := h.ok j k0 x h0 hx
  refine ⟨⟨?_, ?_, fun _ => rfl, fun _ => rfl, fun _ => rfl, fun _ => rfl, fun _ => rfl, ok.angle, ok.id⟩, fun _ => rfl⟩
  · cases hd : down k0 with
    | false => exact ok.off hd
    | true => exact (ok.on hd).1
  · intro hd
    obtain ⟨a, b, c, d, e, f⟩ := ok.on hd
    exact ⟨b, c, d, e, f⟩

/-- An event that changes the current slot only. -/
theorem mid_slot {D : Device} {s0 s : State} {ch ch' : Nat → Changed} {done done' : List Nat} (h : Mid D s0 s ch done) (f : Kern → Kern) (g : Slot → Slot) (now : Bool)
    (hch : ∀ j, j ≠ s.cur → ch' j = ch j) (hdone : ∀ j, j ∈ done → j ∈ done') (htool : ∀ x, (g x).tool = x.tool)
    (hfg : ∀ k0 k x, s0.kern[s.cur]? = some k0 → SlotMid D k0 k x (ch s.cur) → (s.cur ∉ done → k.tracking = k0.tracking) →
      SlotMid D k0 (f k) (g x) (ch' s.cur) ∧ (s.cur ∉ done' → (f k).tracking = k0.tracking)) :
    Mid D s0 { s with kern := s.kern.modify s.cur f, slots := s.slots.modify s.slot g, now := now } ch' done' := by
  refine ⟨by simp [h.len], by simp [h.len0], by simpa using h.cur, h.slot, ?_, ?_, h.prev, h.touch, h.arb, h.out⟩
  · intro j k0 k x h0 h1 h2
    obtain ⟨k', a1, a2⟩ := modify_some h1
    obtain ⟨x', b1, b2⟩ := modify_some h2
    rw [h.slot] at b2
    obtain ⟨m1, m2⟩ := h.ok j k0 k' x' h0 a1 b1
    by_cases hj : s.cur = j
    · subst hj
      rw [if_pos rfl] at a2 b2
      subst a2; subst b2
      exact hfg k0 k' x' h0 m1 m2
    · rw [if_neg hj] at a2 b2
      subst a2; subst b2
      rw [hch j (fun e => hj e.symm)]
      exact ⟨m1, fun hn => m2 fun hd => hn (hdone j hd)⟩
  · intro j x0 x h1 h2
    obtain ⟨x', b1, b2⟩ := modify_some h2
    have := h.tools j x0 x' h1 b1
    rw [b2]
    split
    · rw [htool, this]
    · exact this

theorem modify_id {α : Type} (l : List α) (c : Nat) : l.modify c id = l := by
  apply List.ext_getElem?
  intro j
  rw [List.getElem?_modify]
  cases l[j]? <;> simp

theorem slotOf_lt {n : Nat} (h : 0 < n) (v : Int) : slotOf n v < n := by
  unfold slotOf
  split <;> omega

/-- One event of a report. -/
theorem mid_event {D : Device} {s0 s : State} {ch : Nat → Changed} {done : List Nat} (h : Mid D s0 s ch done) (e : KEv)
    (ht : ∀ v, e = .tracking v → s.cur ∉ done ∧ -1 ≤ v ∧ ∀ k, s0.kern[s.cur]? = some k → (0 ≤ v ↔ down k = false)) (ha : ∀ v, e = .orient v → v ≤ 360) :
    ∃ t, step D s (.kernel e) = some t ∧ (t.cur, t.kern) = libevdev (s.cur, s.kern) e ∧ t.now = button s.now [e] ∧
      Mid D s0 t (fun j => note j s.cur e (ch j)) (match e with | .tracking _ => s.cur :: done | _ => done) := by
  have hch : ∀ j, j ≠ s.cur → note j s.cur e (ch j) = ch j := by
    intro j hj
    unfold note
    rw [if_neg (fun e => hj e.symm)]
  have same : ∀ now, note s.cur s.cur e (ch s.cur) = ch s.cur → Mid D s0 { s with now := now } (fun j => note j s.cur e (ch j)) done := by
    intro now hn
    have : (fun j => note j s.cur e (ch j)) = ch := by
      funext j
      by_cases hj : j = s.cur
      · rw [hj]; exact hn
      · exact hch j hj
    rw [this]
    exact ⟨h.len, h.len0, h.cur, h.slot, h.ok, h.tools, h.prev, h.touch, h.arb, h.out⟩
  have flag : ∀ (f : Kern → Kern) (g : Changed → Changed), (∀ k, (f k).tracking = k.tracking) → (∀ k, (f k).orient = k.orient ∨ (f k).orient ≤ 360) →
      note s.cur s.cur e (ch s.cur) = g (ch s.cur) →
      (∀ (c : Changed) k, ((g c).x = false → c.x = false ∧ (f k).x = k.x) ∧ ((g c).y = false → c.y = false ∧ (f k).y = k.y) ∧
        ((g c).rotation = false → c.rotation = false ∧ (f k).orient = k.orient) ∧ ((g c).major = false → c.major = false ∧ (f k).major = k.major) ∧
        ((g c).minor = false → c.minor = false ∧ (f k).minor = k.minor)) →
      Mid D s0 { s with kern := s.kern.modify s.cur f, slots := s.slots.modify s.slot fun x => { x with changed := g x.changed } } (fun j => note j s.cur e (ch j)) done := by
    intro f g htr hor hn hg
    refine mid_slot h f (fun x => { x with changed := g x.changed }) s.now hch (fun _ hd => hd) (fun _ => rfl) ?_
    intro k0 k x h0 m ht
    have hd : down (f k) = down k := by unfold down; rw [htr]
    obtain ⟨q1, q2, q3, q4, q5⟩ := hg (ch s.cur) k
    simp only [hn]
    refine ⟨⟨?_, ?_, ?_, ?_, ?_, ?_, ?_, ?_, ?_⟩, ?_⟩
    · rw [hd]; exact m.state
    · intro hk
      obtain ⟨a, b, c, d, e⟩ := m.on hk
      exact ⟨a, b, c, d, by rw [e]⟩
    · intro hc; rw [(q1 hc).2]; exact m.hx (q1 hc).1
    · intro hc; rw [(q2 hc).2]; exact m.hy (q2 hc).1
    · intro hc; rw [(q3 hc).2]; exact m.hr (q3 hc).1
    · intro hc; rw [(q4 hc).2]; exact m.hM (q4 hc).1
    · intro hc; rw [(q5 hc).2]; exact m.hm (q5 hc).1
    · rcases hor k with e | e
      · rw [e]; exact m.angle
      · exact e
    · rw [htr]; exact m.id
    · intro hn; rw [htr]; exact ht hn
  cases e with
  | slot v =>
    refine ⟨_, rfl, ?_, rfl, ?_⟩
    · simp [process, libevdev]
    · have : (fun j => note j s.cur (.slot v) (ch j)) = ch := by
        funext j; unfold note; split <;> rfl
      rw [this]
      have hpos : 0 < s.kern.length := Nat.lt_of_le_of_lt (Nat.zero_le _) h.cur
      refine ⟨h.len, h.len0, slotOf_lt hpos v, ?_, h.ok, h.tools, h.prev, h.touch, h.arb, h.out⟩
      show (if v < 0 ∨ (s.slots.length : Int) ≤ v then s.slots.length - 1 else v.toNat) = slotOf s.kern.length v
      rw [h.len]; rfl
  | tracking v =>
    obtain ⟨t1, t2, t3⟩ := ht v rfl
    refine ⟨_, rfl, rfl, rfl, ?_⟩
    refine mid_slot h (fun k => { k with tracking := v }) (fun x => if v ≥ 0 then { x with state := .begin } else if x.state ≠ .none then { x with state := .ending } else x) s.now
      hch (fun j hd => List.mem_cons_of_mem _ hd) ?_ ?_
    · intro x; split
      · rfl
      · split <;> rfl
    · intro k0 k x h0 m ht
      have hk := ht t1
      have hd0 := t3 k0 h0
      have hdk : down k = down k0 := by unfold down; rw [hk]
      have hst := m.state
      rw [hdk] at hst
      have hn : note s.cur s.cur (.tracking v) (ch s.cur) = ch s.cur := by simp [note]
      simp only [hn]
      refine ⟨⟨?_, ?_, m.hx, m.hy, m.hr, m.hM, m.hm, m.angle, t2⟩, fun hd => absurd List.mem_cons_self hd⟩
      · cases hd : down k0 with
        | false =>
          have hv := hd0.mpr hd
          have : down { k with tracking := v } = true := by simpa [down] using hv
          rw [this, if_pos hv]
        | true =>
          have hv : ¬ 0 ≤ v := fun e => by (rw [hd0.mp e] at hd; cases hd)
          have : down { k with tracking := v } = false := by simpa [down] using hv
          rw [hd] at hst
          rw [this, if_neg hv, hst]
          rfl
      · intro hd
        obtain ⟨a, b, c, d, e⟩ := m.on hd
        refine ⟨?_, ?_, ?_, ?_, ?_⟩ <;> (split; (first | exact a | exact b | exact c | exact d | exact e); split <;> (first | exact a | exact b | exact c | exact d | exact e))
  | x v => exact ⟨_, rfl, rfl, rfl, flag (fun k => { k with x := v }) (fun c => { c with x := true }) (fun _ => rfl) (fun _ => .inl rfl) (by simp [note]) (by simp)⟩
  | y v => exact ⟨_, rfl, rfl, rfl, flag (fun k => { k with y := v }) (fun c => { c with y := true }) (fun _ => rfl) (fun _ => .inl rfl) (by simp [note]) (by simp)⟩
  | orient v => exact ⟨_, rfl, rfl, rfl, flag (fun k => { k with orient := v }) (fun c => { c with rotation := true }) (fun _ => rfl) (fun _ => .inr (ha v rfl)) (by simp [note]) (by simp)⟩
  | major v => exact ⟨_, rfl, rfl, rfl, flag (fun k => { k with major := v }) (fun c => { c with major := true }) (fun _ => rfl) (fun _ => .inl rfl) (by simp [note]) (by simp)⟩
  | minor v => exact ⟨_, rfl, rfl, rfl, flag (fun k => { k with minor := v }) (fun c => { c with minor := true }) (fun _ => rfl) (fun _ => .inl rfl) (by simp [note]) (by simp)⟩
  | toolType v => exact ⟨_, rfl, rfl, rfl, same s.now (by simp [note])⟩
  | otherAbs => exact ⟨_, rfl, rfl, rfl, same s.now (by simp [note])⟩
  | btn0 v =>
    refine ⟨{ s with now := if v = 2 then s.now else decide (v ≠ 0) }, ?_, rfl, rfl, same _ (by simp [note])⟩
    simp only [step, libevdev, process]
    split <;> rfl
  | otherKey v => exact ⟨_, rfl, rfl, rfl, same s.now (by simp [note])⟩
  | misc => exact ⟨_, rfl, rfl, rfl, same s.now (by simp [note])⟩

theorem button_cons (b : Bool) (e : KEv) (es : List KEv) : button b (e :: es) = button (button b [e]) es := by
  cases e <;> rfl

/-- All events of a report. -/
theorem mid_events {D : Device} {s0 : State} (evs : List KEv) (s : State) (ch : Nat → Changed) (done : List Nat) (h : Mid D s0 s ch done)
    (h1 : (done ++ (trackings (s.cur, s.kern) evs).map Prod.fst).Nodup)
    (h2 : ∀ i v, (i, v) ∈ trackings (s.cur, s.kern) evs → -1 ≤ v ∧ ∀ k, s0.kern[i]? = some k → (0 ≤ v ↔ down k = false))
    (h3 : ∀ v, .orient v ∈ evs → v ≤ 360) :
    ∃ t done', run D s (evs.map .kernel) = some t ∧ (t.cur, t.kern) = evs.foldl libevdev (s.cur, s.kern) ∧ t.now = button s.now evs ∧
      Mid D s0 t (fun j => mentioned j (s.cur, s.kern) (ch j) evs) done' := by
  induction evs generalizing s ch done with
  | nil => exact ⟨s, done, rfl, rfl, rfl, h⟩
  | cons e evs ih =>
    have htr : trackings (s.cur, s.kern) (e :: evs) = (match (generalizing := false) e with | .tracking v => [(s.cur, v)] | _ => []) ++ trackings (libevdev (s.cur, s.kern) e) evs := rfl
    rw [htr] at h1 h2
    obtain ⟨t, e1, e2, e3, e4⟩ := mid_event h e (by
      rintro v rfl
      simp only [List.map_append, List.map_cons, List.map_nil, List.singleton_append] at h1
      have := h2 s.cur v (by simp)
      rw [List.nodup_append] at h1
      refine ⟨fun hd => h1.2.2 s.cur hd s.cur List.mem_cons_self rfl, this⟩) (by
      rintro v rfl
      exact h3 v List.mem_cons_self)
    obtain ⟨u, done', f1, f2, f3, f4⟩ := ih t _ _ e4 (by
      rw [e2]
      cases e <;> try exact h1
      simp only [List.map_append, List.map_cons, List.map_nil, List.singleton_append] at h1 ⊢
      exact (List.perm_middle.nodup_iff).mp h1) (by
      rw [e2]
      intro i v hv
      exact h2 i v (List.mem_append_right _ hv)) (fun v hv => h3 v (List.mem_cons_of_mem _ hv))
    refine ⟨u, done', ?_, ?_, ?_, ?_⟩
    · simp only [List.map_cons, run, e1, Option.bind_some]
      exact f1
    · rw [f2, e2]; rfl
    · rw [f3, e3, ← button_cons]
    · have : (fun j => mentioned j (s.cur, s.kern) (ch j) (e :: evs)) = fun j => mentioned j (t.cur, t.kern) (note j s.cur e (ch j)) evs := by
        funext j
        rw [e2]; rfl
      rw [this]; exact f4

end Libinput.Totem
