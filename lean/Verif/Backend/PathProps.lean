import Verif.Backend.PathInv

/-! # C56: the devices of a path context -/
namespace Libinput.Backend.PathSeat.Props
open Libinput.Backend PathSeat Spec

theorem live_iff {s : State} (h : Inv s) (d : Dev) : Live s.out d ↔ d ∈ s.devs := by
  have hmem : ∀ e ∈ s.out, ∀ i, about i e = true → e ∈ hist s i := fun e he i ha => List.mem_filter.mpr ⟨he, ha⟩
  constructor
  · rintro ⟨ha, hr⟩
    have h1 := hmem _ ha d.id (by simp [about])
    rw [h.ho] at h1
    cases hk : s.known[d.id]? with
    | none => rw [hk] at h1; cases h1
    | some x =>
      rw [hk] at h1
      simp only at h1
      rw [List.mem_cons] at h1
      rcases h1 with h1 | h1
      · obtain rfl := Ev.added.inj h1
        apply Classical.byContradiction
        intro hn
        have h2 := h.ho d.id
        rw [hk] at h2
        simp only [if_neg hn] at h2
        have : Ev.removed d.id ∈ hist s d.id := by rw [h2]; simp
        exact hr (List.mem_filter.mp this).1
      · split at h1
        · cases h1
        · simp at h1
  · intro hd
    have hk := h.known_id (h.hd d hd)
    have h2 := h.ho d.id
    rw [hk] at h2
    simp only [if_pos hd] at h2
    constructor
    · have : Ev.added d ∈ hist s d.id := by rw [h2]; simp
      exact (List.mem_filter.mp this).1
    · intro hr
      have := hmem _ hr d.id (by simp [about])
      rw [h2] at this
      simp at this

/-- Whatever happens, a device is added once and removed at most once, after that; it is on the seat with the physical name udev says. -/
theorem device_events (ops : List Op) :
    (∀ i, (run {} ops).out.filter (about i) = [] ∨ ∃ d : Dev, d.id = i ∧
      ((run {} ops).out.filter (about i) = [.added d] ∨ (run {} ops).out.filter (about i) = [.added d, .removed i])) ∧
    ∀ d, .added d ∈ (run {} ops).out → d.phys = d.node.idSeat.getD "seat0" ∧ d.node.usable = true := by
  have h := inv_init.run ops
  revert h
  generalize run {} ops = s
  intro h
  constructor
  · intro i
    have := h.ho i
    unfold hist at this
    rw [this]
    cases hk : s.known[i]? with
    | none => exact Or.inl rfl
    | some d =>
      right
      refine ⟨d, h.hk i d hk, ?_⟩
      by_cases hd : d ∈ s.devs
      · left; simp [hd]
      · right; simp [hd]
  · intro d hd
    have : Ev.added d ∈ hist s d.id := List.mem_filter.mpr ⟨hd, by simp [about]⟩
    rw [h.ho] at this
    cases hk : s.known[d.id]? with
    | none => rw [hk] at this; cases this
    | some x =>
      rw [hk] at this
      simp only [List.mem_cons] at this
      rcases this with this | this
      · obtain rfl := Ev.added.inj this
        exact h.hseatOf d (List.mem_of_getElem? hk)
      · split at this
        · cases this
        · simp at this

theorem canCreate_iff (s : State) (p : Path) (n : Node) : canCreate s p n = true ↔ n.usable = true ∧ Usable s.sys p := by
  unfold canCreate Usable
  cases lookup s.sys p <;> simp

/-- Adding a path: one new device if udev has a usable one that is ready, and nothing otherwise; the other devices stay. -/
theorem add_path (ops : List Op) (path : Path) :
    let s := run {} ops
    let t := step s (.add (some path))
    (∀ e, lookup s.sys path = some e → e.ready = true → e.node.usable = true → e.node.ignored = false →
      ∃ d : Dev, d.path = path ∧ d.node = e.node ∧ d.seat = e.node.wlSeat.getD "default" ∧ t.out = s.out ++ [.added d, .result true] ∧ ∀ x, Live t.out x ↔ Live s.out x ∨ x = d) ∧
    ((∀ e, lookup s.sys path = some e → e.ready = false ∨ e.node.usable = false ∨ e.node.ignored = true) → t.out = s.out ++ [.result false] ∧ ∀ x, Live t.out x ↔ Live s.out x) := by
  intro s t
  have h : Inv s := inv_init.run ops
  have ht : t = add s (some path) := rfl
  obtain ⟨h1, h2, h3⟩ := add_cases h (some path)
  rw [← ht] at h1 h2 h3
  constructor
  · intro e he hr hu hi
    have hp : e.path = path := by simpa using List.find?_some he
    have hc : canCreate s e.path e.node = true := by
      rw [canCreate_iff, hp]; exact ⟨hu, e, he, hu⟩
    rcases h3 with ⟨x, hx, -, -, -, -, hd, ho⟩ | ⟨hno, -⟩
    · have : x = e := by
        have : lookup s.sys path = some x := hx
        rw [he] at this; exact (Option.some.inj this).symm
      subst this
      refine ⟨_, hp, rfl, rfl, ho, ?_⟩
      intro y
      rw [live_iff h1, live_iff h, hd, List.mem_append, List.mem_singleton]
    · have := hno e he hr hi
      rw [hc] at this; cases this
  · intro hno
    rcases h3 with ⟨e, he, hr, hi, hc, -⟩ | ⟨-, -, hd, ho⟩
    · exfalso
      rw [canCreate_iff] at hc
      rcases hno e he with a | a | a
      · rw [hr] at a; cases a
      · rw [hc.1] at a; cases a
      · rw [hi] at a; cases a
    · refine ⟨ho, ?_⟩
      intro x
      rw [live_iff h1, live_iff h, hd]

/-- A call with a path that is too long, or for a context of another backend, fails and does nothing. -/
theorem add_refused (s : State) : step s (.add none) = { s with out := s.out ++ [.result false] } := rfl

/-- Removing a device that is there removes that one only. -/
theorem remove_device (ops : List Op) (d : Dev) (hd : Live (run {} ops).out d) :
    (step (run {} ops) (.remove d.id)).out = (run {} ops).out ++ [.removed d.id] ∧
    ∀ x, Live (step (run {} ops) (.remove d.id)).out x ↔ Live (run {} ops).out x ∧ x ≠ d := by
  have h := inv_init.run ops
  revert h hd
  generalize run {} ops = s
  intro hd h
  have hd' := (live_iff h d).mp hd
  have hst : step s (.remove d.id) = removeDevice s d := by
    show (match s.known[d.id]? with | some d => removeDevice s d | none => s) = _
    rw [h.known_id (h.hd d hd')]
  obtain ⟨r1, r2, r3, r4, r5, r6, r7⟩ := removeDevice_spec h d (h.hd d hd')
  rw [hst]
  refine ⟨by rw [r7, if_pos hd'], ?_⟩
  intro x
  rw [live_iff r1, live_iff h, r6]

/-- Suspending removes all devices, whatever happened before. -/
theorem suspend_removes_all (ops : List Op) (d : Dev) : ¬ Live (step (run {} ops) .suspend).out d := by
  have h := inv_init.run ops
  obtain ⟨h1, -, h2⟩ := disable_spec h
  show ¬ Live (disable (run {} ops)).out d
  rw [live_iff h1, h2]; simp

/-- Moving a device that is there: it is removed, and comes back as a new one on the seat that was asked for; if it cannot be opened the call fails. -/
theorem change_of_seat (ops : List Op) (d : Dev) (hd : Live (run {} ops).out d) (name : String) :
    let s := run {} ops
    let t := step s (.changeSeat d.id (some name))
    (Usable s.sys d.path → ∃ N : Dev, N.path = d.path ∧ N.node = d.node ∧ N.handle = d.handle ∧ N.phys = d.phys ∧ N.seat = name ∧
      t.out = s.out ++ [.removed d.id, .added N, .result true] ∧ ∀ x, Live t.out x ↔ (Live s.out x ∧ x ≠ d) ∨ x = N) ∧
    (¬ Usable s.sys d.path → t.out = s.out ++ [.removed d.id, .result false] ∧ ∀ x, Live t.out x ↔ Live s.out x ∧ x ≠ d) := by
  have h := inv_init.run ops
  revert h hd
  generalize run {} ops = s
  intro hd h s' t
  have hd' := (live_iff h d).mp hd
  have hst : t = changeSeat s d (some name) := by
    show (match s.known[d.id]? with | some d => changeSeat s d (some name) | none => s) = _
    rw [h.known_id (h.hd d hd')]
  obtain ⟨c1, c2, c3, c4⟩ := changeSeat_cases h (h.hd d hd') name
  rw [← hst] at c1 c2 c3 c4
  obtain ⟨hph, hus⟩ := h.hseatOf d (h.hd d hd')
  constructor
  · intro hu
    obtain ⟨-, e2, e3⟩ := c3 ((canCreate_iff _ _ _).mpr ⟨hus, hu⟩)
    rw [if_pos hd', List.append_assoc] at e3
    refine ⟨mk s.known.length ⟨d.handle, d.path, d.node⟩ (some name), rfl, rfl, rfl, hph.symm, rfl, e3, ?_⟩
    intro x
    rw [live_iff c1, live_iff h]; exact e2 x
  · intro hu
    have : canCreate s d.path d.node = false := by
      cases hc : canCreate s d.path d.node with
      | false => rfl
      | true => exact absurd ((canCreate_iff _ _ _).mp hc).2 hu
    obtain ⟨-, e2, e3⟩ := c4 this
    rw [if_pos hd', List.append_assoc] at e3
    refine ⟨e3, ?_⟩
    intro x
    rw [live_iff c1, live_iff h]; exact e2 x

/-! ### Suspending and resuming -/

/-- What holds in careful histories. -/
structure CInv (on : Bool) (s : State) : Prop where
  inv : Inv s
  huniq : ∀ a ∈ s.devs, ∀ b ∈ s.devs, a.handle = b.handle → a = b
  hon : on = true → ∀ h, (∃ d ∈ s.devs, d.handle = h) ↔ ∃ r ∈ s.paths, r.handle = h
  hoff : on = false → s.devs = []

theorem news_mem (k : Nat) (rs : List Remembered) (d : Dev) (h : d ∈ news k rs) : ∃ r ∈ rs, d.handle = r.handle ∧ d.path = r.path ∧ d.node = r.node ∧
    d.seat = r.node.wlSeat.getD "default" := by
  induction rs generalizing k with
  | nil => cases h
  | cons r rs ih =>
    rcases List.mem_cons.mp h with rfl | h
    · exact ⟨r, List.mem_cons_self, rfl, rfl, rfl, rfl⟩
    · obtain ⟨x, hx, e⟩ := ih _ h
      exact ⟨x, List.mem_cons_of_mem _ hx, e⟩

theorem news_handle (k : Nat) (rs : List Remembered) (r : Remembered) (h : r ∈ rs) : ∃ d ∈ news k rs, d.handle = r.handle := by
  induction rs generalizing k with
  | nil => cases h
  | cons x rs ih =>
    rcases List.mem_cons.mp h with rfl | h
    · exact ⟨_, List.mem_cons_self, rfl⟩
    · obtain ⟨d, hd, e⟩ := ih (k + 1) h
      exact ⟨d, List.mem_cons_of_mem _ hd, e⟩

theorem news_inj (k : Nat) (rs : List Remembered) (hn : (rs.map Remembered.handle).Nodup) (a b : Dev) (ha : a ∈ news k rs) (hb : b ∈ news k rs) (e : a.handle = b.handle) : a = b := by
  induction rs generalizing k with
  | nil => cases ha
  | cons r rs ih =>
    simp only [List.map_cons, List.nodup_cons] at hn
    rcases List.mem_cons.mp ha with rfl | ha' <;> rcases List.mem_cons.mp hb with rfl | hb'
    · rfl
    · obtain ⟨x, hx, h1, -⟩ := news_mem _ _ _ hb'
      exact absurd (List.mem_map.mpr ⟨x, hx, by rw [← h1, ← e]; rfl⟩) hn.1
    · obtain ⟨x, hx, h1, -⟩ := news_mem _ _ _ ha'
      exact absurd (List.mem_map.mpr ⟨x, hx, by rw [← h1, e]; rfl⟩) hn.1
    · exact ih _ hn.2 ha' hb'

/-- Resuming succeeds if and only if all remembered devices can be created. -/
theorem resume_cases {s : State} (h : Inv s) :
    ((step s .resume).out.getLast? = some (.result true) ∧ (∀ r ∈ s.paths, canCreate s r.path r.node = true) ∧ (step s .resume).devs = s.devs ++ news s.known.length s.paths ∧
      (step s .resume).paths = s.paths) ∨
    ((step s .resume).out.getLast? = some (.result false) ∧ (∃ r ∈ s.paths, canCreate s r.path r.node = false) ∧ (step s .resume).devs = [] ∧ (step s .resume).paths = s.paths) := by
  obtain ⟨-, f, t, n⟩ := enableAll_spec h s.paths (fun _ hr => hr)
  by_cases hall : ∀ r ∈ s.paths, canCreate s r.path r.node = true
  · obtain ⟨a, b⟩ := t hall
    exact Or.inl ⟨by show (enableAll s s.paths).out.getLast? = _; rw [b]; simp, hall, a, f.paths⟩
  · have : ∃ r ∈ s.paths, canCreate s r.path r.node = false := by
      apply Classical.byContradiction
      intro hn
      apply hall
      intro r hr
      cases hc : canCreate s r.path r.node with
      | true => rfl
      | false => exact absurd ⟨r, hr, hc⟩ hn
    obtain ⟨a, b⟩ := n this
    exact Or.inr ⟨b, this, a, f.paths⟩

theorem CInv.step {on : Bool} {s : State} (h : CInv on s) (op : Op) (hc : CarefulOp on s op) : CInv (nextOn on s op) (step s op) := by
  have hi := h.inv.step op
  cases op with
  | appear p n =>
    have e : (PathSeat.step s (.appear p n)).devs = s.devs ∧ (PathSeat.step s (.appear p n)).paths = s.paths := by
      show (appear s p n).devs = _ ∧ (appear s p n).paths = _
      unfold appear; split <;> exact ⟨rfl, rfl⟩
    exact ⟨hi, by rw [e.1]; exact h.huniq, by rw [e.1, e.2]; exact h.hon, by rw [e.1]; exact h.hoff⟩
  | getReady p => exact ⟨hi, h.huniq, h.hon, h.hoff⟩
  | vanish p => exact ⟨hi, h.huniq, h.hon, h.hoff⟩
  | add p =>
    have hon : on = true := hc
    subst hon
    show CInv true (add s p)
    obtain ⟨a1, a2, a3⟩ := add_cases h.inv p
    rcases a3 with ⟨e, -, -, -, -, hp, hd, -⟩ | ⟨-, hp, hd, -⟩
    · have hfresh : ∀ x ∈ s.devs, x.handle ≠ s.next := by
        intro x hx
        obtain ⟨obj, a, -⟩ := h.inv.hobj
        have := (a x (h.inv.hd x hx)).1
        omega
      refine ⟨a1, ?_, ?_, by simp⟩
      · rw [hd]
        intro x hx y hy hxy
        rcases List.mem_append.mp hx with hx | hx <;> rcases List.mem_append.mp hy with hy | hy
        · exact h.huniq x hx y hy hxy
        · rw [List.mem_singleton] at hy
          rw [hy] at hxy
          exact absurd hxy (hfresh x hx)
        · rw [List.mem_singleton] at hx
          rw [hx] at hxy
          exact absurd hxy.symm (hfresh y hy)
        · rw [List.mem_singleton] at hx hy
          rw [hx, hy]
      · intro _ k
        rw [hd, hp]
        have := h.hon rfl k
        constructor
        · rintro ⟨d, hd, rfl⟩
          rcases List.mem_append.mp hd with hd | hd
          · obtain ⟨r, hr, e⟩ := this.mp ⟨d, hd, rfl⟩
            exact ⟨r, List.mem_cons_of_mem _ hr, e⟩
          · rw [List.mem_singleton] at hd
            exact ⟨_, List.mem_cons_self, by rw [hd]; rfl⟩
        · rintro ⟨r, hr, rfl⟩
          rcases List.mem_cons.mp hr with rfl | hr
          · exact ⟨_, List.mem_append_right _ (List.mem_singleton.mpr rfl), rfl⟩
          · obtain ⟨d, hd, e⟩ := this.mpr ⟨r, hr, rfl⟩
            exact ⟨d, List.mem_append_left _ hd, e⟩
    · exact ⟨a1, by rw [hd]; exact h.huniq, by rw [hd, hp]; exact h.hon, by simp⟩
  | remove id =>
    show CInv on (match s.known[id]? with | some d => removeDevice s d | none => s)
    cases hk : s.known[id]? with
    | none => exact h
    | some d =>
      have hdk := List.mem_of_getElem? hk
      obtain ⟨r1, -, -, -, r5, r6, -⟩ := removeDevice_spec h.inv d hdk
      refine ⟨r1, ?_, ?_, ?_⟩
      · intro a ha b hb
        exact h.huniq a ((r6 a).mp ha).1 b ((r6 b).mp hb).1
      · intro hon k
        have hlive : d ∈ s.devs := by
          rcases hc with hc | ⟨x, hx, hid⟩
          · rw [hc] at hon; cases hon
          · have hx' := (live_iff h.inv x).mp hx
            have := h.inv.known_id (h.inv.hd x hx')
            rw [hid, hk] at this
            rw [Option.some.inj this]; exact hx'
        have := h.hon hon k
        constructor
        · rintro ⟨x, hx, rfl⟩
          obtain ⟨hx1, hx2⟩ := (r6 x).mp hx
          obtain ⟨r, hr, e⟩ := this.mp ⟨x, hx1, rfl⟩
          exact ⟨r, (r5 r).mpr ⟨hr, fun e2 => hx2 (h.huniq x hx1 d hlive (by rw [← e, e2]))⟩, e⟩
        · rintro ⟨r, hr, rfl⟩
          obtain ⟨hr1, hr2⟩ := (r5 r).mp hr
          obtain ⟨x, hx, e⟩ := this.mpr ⟨r, hr1, rfl⟩
          exact ⟨x, (r6 x).mpr ⟨hx, fun e2 => hr2 (by rw [← e, e2])⟩, e⟩
      · intro hoff
        apply List.eq_nil_iff_forall_not_mem.mpr
        intro x hx
        have := ((r6 x).mp hx).1
        rw [h.hoff hoff] at this; cases this
  | suspend =>
    obtain ⟨d1, d2, d3⟩ := disable_spec h.inv
    show CInv false (disable s)
    exact ⟨d1, by rw [d3]; simp, by simp, fun _ => d3⟩
  | resume =>
    have hoff : on = false := hc
    have hnil := h.hoff hoff
    rcases resume_cases h.inv with ⟨o, -, hd, hp⟩ | ⟨o, -, hd, hp⟩
    · have hnx : nextOn on s .resume = true := by simp [nextOn, o]
      rw [hnx]
      rw [hnil, List.nil_append] at hd
      refine ⟨hi, ?_, ?_, by simp⟩
      · rw [hd]
        exact fun a ha b hb e => news_inj _ _ h.inv.hpaths a b ha hb e
      · intro _ k
        rw [hd, hp]
        constructor
        · rintro ⟨d, hd, rfl⟩
          obtain ⟨r, hr, e, -⟩ := news_mem _ _ _ hd
          exact ⟨r, hr, e.symm⟩
        · rintro ⟨r, hr, rfl⟩
          exact news_handle _ _ r hr
    · have hnx : nextOn on s .resume = false := by simp [nextOn, o]
      rw [hnx]
      exact ⟨hi, by rw [hd]; simp, by simp, fun _ => hd⟩
  | changeSeat id name =>
    show CInv on (match s.known[id]? with | some d => changeSeat s d name | none => s)
    cases hk : s.known[id]? with
    | none => exact h
    | some d =>
      have hdk := List.mem_of_getElem? hk
      cases name with
      | none => exact ⟨h.inv.result _, h.huniq, h.hon, h.hoff⟩
      | some name =>
        obtain ⟨x, hx, hid⟩ := hc
        have hlive : d ∈ s.devs := by
          have hx' := (live_iff h.inv x).mp hx
          have := h.inv.known_id (h.inv.hd x hx')
          rw [hid, hk] at this
          rw [Option.some.inj this]; exact hx'
        obtain ⟨c1, -, c3, c4⟩ := changeSeat_cases h.inv hdk name
        have hon : on = true := by
          cases on with
          | true => rfl
          | false => rw [h.hoff rfl] at hlive; cases hlive
        subst hon
        show CInv true (changeSeat s d (some name))
        have hr : ∀ k, (∃ x, (x ∈ s.devs ∧ x ≠ d) ∧ x.handle = k) ↔ ∃ r, (r ∈ s.paths ∧ r.handle ≠ d.handle) ∧ r.handle = k := by
          intro k
          have := h.hon rfl k
          constructor
          · rintro ⟨x, ⟨hx1, hx2⟩, rfl⟩
            obtain ⟨r, hr, e⟩ := this.mp ⟨x, hx1, rfl⟩
            exact ⟨r, ⟨hr, fun e2 => hx2 (h.huniq x hx1 d hlive (by rw [← e, e2]))⟩, e⟩
          · rintro ⟨r, ⟨hr1, hr2⟩, rfl⟩
            obtain ⟨x, hx, e⟩ := this.mpr ⟨r, hr1, rfl⟩
            exact ⟨x, ⟨hx, fun e2 => hr2 (by rw [← e, e2])⟩, e⟩
        cases hcan : canCreate s d.path d.node with
        | true =>
          obtain ⟨p, m, -⟩ := c3 hcan
          refine ⟨c1, ?_, ?_, by simp⟩
          · intro a ha b hb e
            rcases (m a).mp ha with ⟨ha1, ha2⟩ | ha1 <;> rcases (m b).mp hb with ⟨hb1, hb2⟩ | hb1
            · exact h.huniq a ha1 b hb1 e
            · rw [hb1] at e
              exact absurd (h.huniq a ha1 d hlive e) ha2
            · rw [ha1] at e
              exact absurd (h.huniq b hb1 d hlive e.symm) hb2
            · rw [ha1, hb1]
          · intro _ k
            constructor
            · rintro ⟨x, hx, rfl⟩
              rcases (m x).mp hx with hx1 | hx1
              · obtain ⟨r, hr1, e⟩ := (hr _).mp ⟨x, hx1, rfl⟩
                exact ⟨r, (p r).mpr (Or.inr hr1), e⟩
              · exact ⟨_, (p _).mpr (Or.inl rfl), by rw [hx1]; rfl⟩
            · rintro ⟨r, hr1, rfl⟩
              rcases (p r).mp hr1 with e | hr1
              · exact ⟨_, (m _).mpr (Or.inr rfl), by rw [e]; rfl⟩
              · obtain ⟨x, hx, e⟩ := (hr _).mpr ⟨r, hr1, rfl⟩
                exact ⟨x, (m x).mpr (Or.inl hx), e⟩
        | false =>
          obtain ⟨p, m, -⟩ := c4 hcan
          refine ⟨c1, fun a ha b hb => h.huniq a ((m a).mp ha).1 b ((m b).mp hb).1, ?_, by simp⟩
          intro _ k
          constructor
          · rintro ⟨x, hx, rfl⟩
            obtain ⟨r, hr1, e⟩ := (hr _).mp ⟨x, (m x).mp hx, rfl⟩
            exact ⟨r, (p r).mpr hr1, e⟩
          · rintro ⟨r, hr1, rfl⟩
            obtain ⟨x, hx, e⟩ := (hr _).mpr ⟨r, (p r).mp hr1, rfl⟩
            exact ⟨x, (m x).mpr hx, e⟩

theorem careful_inv {ops : List Op} {s : State} {on : Bool} (h : Careful ops s on) : CInv on s ∧ s = run {} ops := by
  induction h with
  | start => exact ⟨⟨inv_init, by simp, by simp, by simp⟩, rfl⟩
  | step hc ho ih => exact ⟨ih.1.step _ ho, by rw [ih.2]; simp [run, List.foldl_append]⟩

/-- In a careful history there is at most one device for each `struct udev_device`, and none while suspended. -/
theorem one_device_each (ops : List Op) (s : State) (on : Bool) (h : Careful ops s on) :
    (∀ a b, Live s.out a → Live s.out b → a.handle = b.handle → a = b) ∧ (on = false → ∀ d, ¬ Live s.out d) := by
  obtain ⟨hi, -⟩ := careful_inv h
  constructor
  · intro a b ha hb
    exact hi.huniq a ((live_iff hi.inv a).mp ha) b ((live_iff hi.inv b).mp hb)
  · intro hoff d hd
    have := (live_iff hi.inv d).mp hd
    rw [hi.hoff hoff] at this; cases this

theorem idle_keeps {s t : State} {ops : List Op} (h : Idle s ops t) (hi : Inv s) (hd : s.devs = []) : Inv t ∧ t.paths = s.paths ∧ t.devs = [] := by
  induction h with
  | nil => exact ⟨hi, rfl, hd⟩
  | @cons s op ops t ho hr ih =>
    have hs := hi.step op
    have key : (PathSeat.step s op).paths = s.paths ∧ (PathSeat.step s op).devs = [] := by
      cases op with
      | appear p n =>
        show (appear s p n).paths = _ ∧ (appear s p n).devs = _
        unfold appear; split <;> exact ⟨rfl, hd⟩
      | getReady p => exact ⟨rfl, hd⟩
      | vanish p => exact ⟨rfl, hd⟩
      | suspend =>
        obtain ⟨-, r, e⟩ := disable_spec hi
        exact ⟨r.paths, e⟩
      | resume =>
        rcases resume_cases hi with ⟨o, -⟩ | ⟨-, -, e, p⟩
        · simp [idle, o] at ho
        · exact ⟨p, e⟩
      | add p => simp [idle] at ho
      | remove id => simp [idle] at ho
      | changeSeat id name => simp [idle] at ho
    obtain ⟨a, b, c⟩ := ih hs key.2
    exact ⟨a, b.trans key.1, c⟩

/-- Suspending and resuming, whatever udev does in between and however often resuming fails: if all devices there were can be opened, resuming succeeds and there is a new
device for each of them, on the seat udev says; otherwise it fails and there is none. -/
theorem suspend_resume (ops : List Op) (s : State) (h : Careful ops s true) (mid : List Op) (t : State) (hm : Idle (step s .suspend) mid t) :
    ((∀ d, Live s.out d → Usable t.sys d.path) →
      (step t .resume).out.getLast? = some (.result true) ∧
      (∀ d, Live s.out d → ∃ e : Dev, Live (step t .resume).out e ∧ e.handle = d.handle ∧ e.path = d.path ∧ e.node = d.node ∧ e.phys = d.phys ∧ e.seat = d.node.wlSeat.getD "default") ∧
      (∀ e, Live (step t .resume).out e → ∃ d, Live s.out d ∧ d.handle = e.handle) ∧
      ∀ a b, Live (step t .resume).out a → Live (step t .resume).out b → a.handle = b.handle → a = b) ∧
    ((∃ d, Live s.out d ∧ ¬ Usable t.sys d.path) → (step t .resume).out.getLast? = some (.result false) ∧ ∀ d, ¬ Live (step t .resume).out d) := by
  obtain ⟨hi, -⟩ := careful_inv h
  obtain ⟨d1, d2, d3⟩ := disable_spec hi.inv
  obtain ⟨t1, t2, t3⟩ := idle_keeps (s := step s .suspend) hm d1 d3
  have hpaths : t.paths = s.paths := t2.trans d2.paths
  have hri := t1.step .resume
  obtain ⟨obj, oa, ob⟩ := hi.inv.hobj
  have hsame : ∀ d ∈ s.devs, ∀ r ∈ s.paths, r.handle = d.handle → r.path = d.path ∧ r.node = d.node := by
    intro d hd r hr e
    have h1 := (oa d (hi.inv.hd d hd)).2
    have h2 := (ob r hr).2
    rw [e, h1] at h2
    simp only [Prod.mk.injEq] at h2
    exact ⟨h2.1.symm, h2.2.symm⟩
  have hus : ∀ r ∈ s.paths, r.node.usable = true ∧ ∃ d ∈ s.devs, d.handle = r.handle ∧ d.path = r.path := by
    intro r hr
    obtain ⟨d, hd, e⟩ := (hi.hon rfl r.handle).mpr ⟨r, hr, rfl⟩
    obtain ⟨hp, hn⟩ := hsame d hd r hr e.symm
    exact ⟨by rw [hn]; exact (hi.inv.hseatOf d (hi.inv.hd d hd)).2, d, hd, e, hp.symm⟩
  constructor
  · intro hall
    rcases resume_cases t1 with ⟨o, -, hd, hp⟩ | ⟨-, ⟨r, hr, hc⟩, -⟩
    · rw [t3, List.nil_append] at hd
      have hlive : ∀ e, Live (step t .resume).out e ↔ e ∈ news t.known.length t.paths := by
        intro e; rw [live_iff hri, hd]
      refine ⟨o, ?_, ?_, ?_⟩
      · intro d hdl
        have hd' := (live_iff hi.inv d).mp hdl
        obtain ⟨r, hr, e⟩ := (hi.hon rfl d.handle).mp ⟨d, hd', rfl⟩
        obtain ⟨n, hn, hnh⟩ := news_handle t.known.length t.paths r (by rw [hpaths]; exact hr)
        obtain ⟨r', hr', e1, e2, e3, e4⟩ := news_mem _ _ _ hn
        rw [hpaths] at hr'
        have : r'.handle = d.handle := by rw [← e1, hnh, e]
        obtain ⟨hp1, hn1⟩ := hsame d hd' r' hr' this
        have hnk := (hri.hseatOf n (hri.hd n (by rw [hd]; exact hn))).1
        refine ⟨n, (hlive n).mpr hn, by rw [e1, this], by rw [e2, hp1], by rw [e3, hn1], ?_, by rw [e4, hn1]⟩
        rw [hnk, e3, hn1, (hi.inv.hseatOf d (hi.inv.hd d hd')).1]
      · intro e he
        obtain ⟨r, hr, e1, -⟩ := news_mem _ _ _ ((hlive e).mp he)
        rw [hpaths] at hr
        obtain ⟨-, d, hd, e2, -⟩ := hus r hr
        exact ⟨d, (live_iff hi.inv d).mpr hd, by rw [e2, e1]⟩
      · intro a b ha hb
        exact news_inj _ _ t1.hpaths a b ((hlive a).mp ha) ((hlive b).mp hb)
    · exfalso
      rw [hpaths] at hr
      obtain ⟨hu, d, hd, -, hp⟩ := hus r hr
      have := hall d ((live_iff hi.inv d).mpr hd)
      rw [hp] at this
      rw [(canCreate_iff _ _ _).mpr ⟨hu, this⟩] at hc; cases hc
  · rintro ⟨d, hdl, hno⟩
    have hd' := (live_iff hi.inv d).mp hdl
    obtain ⟨r, hr, e⟩ := (hi.hon rfl d.handle).mp ⟨d, hd', rfl⟩
    rcases resume_cases t1 with ⟨-, hall, -⟩ | ⟨o, -, hd, -⟩
    · exfalso
      have := (canCreate_iff _ _ _).mp (hall r (by rw [hpaths]; exact hr))
      rw [(hsame d hd' r hr e).1] at this
      exact hno this.2
    · refine ⟨o, ?_⟩
      intro x
      rw [live_iff hri, hd]; simp

/-! ### Examples -/

def ev (k : String) : Path := ⟨"/dev/input", "event" ++ k⟩
def plain : Node := ⟨0, none, none, true, false⟩

def someOps : List Op :=
  [.appear (ev "0") plain, .getReady (ev "0"), .appear (ev "1") { plain with idSeat := some "seat1" }, .getReady (ev "1"), .add (some (ev "0")), .add (some (ev "1")),
   .changeSeat 0 (some "left")]

example : (run {} someOps).out = [.added ⟨0, 0, ev "0", plain, "seat0", "default"⟩, .result true,
    .added ⟨1, 1, ev "1", { plain with serial := 1, idSeat := some "seat1" }, "seat1", "default"⟩, .result true,
    .removed 0, .added ⟨2, 0, ev "0", plain, "seat0", "left"⟩, .result true] := by decide

theorem someOps_careful : Careful someOps (run {} someOps) true := by
  have h1 : Careful [.appear (ev "0") plain] _ true := .step (ops := []) .start (op := .appear (ev "0") plain) trivial
  have h2 : Careful _ _ true := .step h1 (op := .getReady (ev "0")) trivial
  have h3 : Careful _ _ true := .step h2 (op := .appear (ev "1") { plain with idSeat := some "seat1" }) trivial
  have h4 : Careful _ _ true := .step h3 (op := .getReady (ev "1")) trivial
  have h5 : Careful _ _ true := .step h4 (op := .add (some (ev "0"))) rfl
  have h6 : Careful _ _ true := .step h5 (op := .add (some (ev "1"))) rfl
  have h7 : Careful _ _ true := .step h6 (op := .changeSeat 0 (some "left")) ⟨⟨0, 0, ev "0", plain, "seat0", "default"⟩, by unfold Live; decide, rfl⟩
  exact h7

/-- Suspended, failed to resume as one device is gone, resumed: both devices are back, without the logical seat. -/
example : Idle (step (run {} someOps) .suspend) [.vanish (ev "1"), .resume, .appear (ev "1") plain] (run (run {} someOps) [.suspend, .vanish (ev "1"), .resume, .appear (ev "1") plain]) := by
  exact .cons rfl (.cons (by decide) (.cons rfl .nil))

example : (run {} (someOps ++ [.suspend, .vanish (ev "1"), .resume, .appear (ev "1") plain, .resume])).out.drop 7 =
    [.removed 2, .removed 1, .added ⟨3, 0, ev "0", plain, "seat0", "default"⟩, .removed 3, .result false,
     .added ⟨4, 0, ev "0", plain, "seat0", "default"⟩, .added ⟨5, 1, ev "1", { plain with serial := 1, idSeat := some "seat1" }, "seat1", "default"⟩, .result true] := by decide

/-! ### Where care is needed -/

/-- Resuming a context that runs adds all its devices again. -/
theorem resumed_twice_is_doubled : ∃ a b, Live (run {} (someOps.take 5 ++ [.resume])).out a ∧ Live (run {} (someOps.take 5 ++ [.resume])).out b ∧ a.handle = b.handle ∧ a ≠ b := by
  refine ⟨⟨0, 0, ev "0", plain, "seat0", "default"⟩, ⟨1, 0, ev "0", plain, "seat0", "default"⟩, ?_⟩
  unfold Live
  decide

/-- A path added while suspended is there at once, and twice after resuming. -/
theorem added_while_suspended_is_doubled : (∃ d, Live (run {} [.appear (ev "0") plain, .getReady (ev "0"), .suspend, .add (some (ev "0"))]).out d) ∧
    ∃ a b, Live (run {} [.appear (ev "0") plain, .getReady (ev "0"), .suspend, .add (some (ev "0")), .resume]).out a ∧
      Live (run {} [.appear (ev "0") plain, .getReady (ev "0"), .suspend, .add (some (ev "0")), .resume]).out b ∧ a.handle = b.handle ∧ a ≠ b := by
  refine ⟨⟨⟨0, 0, ev "0", plain, "seat0", "default"⟩, by unfold Live; decide⟩, ⟨0, 0, ev "0", plain, "seat0", "default"⟩, ⟨1, 0, ev "0", plain, "seat0", "default"⟩, ?_⟩
  unfold Live
  decide

/-- Removing a device from before the context was suspended leaves the new one, which does not come back after the next time. -/
theorem removed_with_old_device : ∃ d, Live (run {} (someOps.take 5 ++ [.suspend, .resume, .remove 0])).out d ∧
    ∀ e, ¬ Live (run {} (someOps.take 5 ++ [.suspend, .resume, .remove 0, .suspend, .resume])).out e := by
  refine ⟨⟨1, 0, ev "0", plain, "seat0", "default"⟩, by unfold Live; decide, ?_⟩
  intro e
  have h := inv_init.run (someOps.take 5 ++ [.suspend, .resume, .remove 0, .suspend, .resume])
  rw [live_iff h]
  have : (run {} (someOps.take 5 ++ [.suspend, .resume, .remove 0, .suspend, .resume])).devs = [] := by decide
  rw [this]; simp

/-- The logical seat that the client chose is forgotten when the context is suspended. -/
theorem seat_forgotten : ∃ d e, Live (run {} someOps).out d ∧ d.seat = "left" ∧ Live (run {} (someOps ++ [.suspend, .resume])).out e ∧ e.handle = d.handle ∧ e.seat = "default" := by
  refine ⟨⟨2, 0, ev "0", plain, "seat0", "left"⟩, ⟨3, 0, ev "0", plain, "seat0", "default"⟩, ?_⟩
  unfold Live
  decide

end Libinput.Backend.PathSeat.Props
