import Verif.Backend.Steps
import Verif.Backend.Spec

/-! # C55: the devices of a udev context -/
namespace Libinput.Backend.Props
open Libinput.Backend Spec

/-! ### Numbers and events -/

theorem about_eq : Ev.about = about := by
  funext i e; cases e <;> rfl

theorem hist_eq (s : State) (i : Nat) : hist s i = s.out.filter (about i) := by rw [← about_eq]; rfl

theorem live_iff {s : State} (h : Base s) (d : Dev) : Live s.out d ↔ d ∈ s.devs := by
  have hmem : ∀ e ∈ s.out, ∀ i, about i e = true → e ∈ hist s i := by
    intro e he i ha
    rw [hist_eq]; exact List.mem_filter.mpr ⟨he, ha⟩
  constructor
  · rintro ⟨ha, hr⟩
    have h1 := hmem _ ha d.id (by simp [about])
    rw [h.inv.ho] at h1
    cases hk : s.known[d.id]? with
    | none => rw [hk] at h1; cases h1
    | some x =>
      rw [hk] at h1
      have hx := h.inv.hk _ _ hk
      simp only at h1
      rw [List.mem_cons] at h1
      rcases h1 with h1 | h1
      · obtain rfl := Ev.added.inj h1
        apply Classical.byContradiction
        intro hn
        have h2 := h.inv.ho d.id
        rw [hk] at h2
        simp only [if_neg hn] at h2
        have : Ev.removed d.id ∈ hist s d.id := by rw [h2]; simp
        exact hr (List.mem_filter.mp this).1
      · split at h1
        · cases h1
        · simp at h1
  · intro hd
    have hk := h.inv.known_id (h.inv.hd d hd)
    have h2 := h.inv.ho d.id
    rw [hk] at h2
    simp only [if_pos hd] at h2
    constructor
    · have : Ev.added d ∈ hist s d.id := by rw [h2]; simp
      exact (List.mem_filter.mp this).1
    · intro hr
      have := hmem _ hr d.id (by simp [about])
      rw [h2] at this
      simp at this

theorem careful_iff {s : State} (h : Base s) (op : Op) : Spec.CarefulOp s op ↔ Backend.CarefulOp s op := by
  unfold Spec.CarefulOp Backend.CarefulOp
  cases op with
  | changeSeat id name =>
    cases name with
    | none => exact Iff.rfl
    | some name =>
      simp only
      constructor
      · intro hc hs
        obtain ⟨d, hd, r⟩ := hc hs
        exact ⟨d, (live_iff h d).mp hd, r⟩
      · intro hc hs
        obtain ⟨d, hd, r⟩ := hc hs
        exact ⟨d, (live_iff h d).mpr hd, r⟩
  | _ => exact Iff.rfl

theorem careful_run {s : State} (h : Base s) (ops : List Op) (hc : Spec.Careful s ops) : Backend.Careful s ops := by
  induction ops generalizing s with
  | nil => trivial
  | cons op ops ih => exact ⟨(careful_iff h op).mp hc.1, fun t ht => ih (h.step op ht) (hc.2 t ht)⟩

theorem inv_of_run {ops : List Op} {s : State} (hc : Spec.Careful {} ops) (hr : run {} ops = some s) : Inv2 s :=
  inv2_init.run ops (careful_run base_init ops hc) hr

/-- Whatever udev and the client do, a device is added once, and removed at most once, after that; it is for the assigned seat, an event device, usable. -/
theorem device_events (ops : List Op) (s : State) (hr : run {} ops = some s) :
    (∀ i, s.out.filter (about i) = [] ∨ ∃ d : Dev, d.id = i ∧ (s.out.filter (about i) = [.added d] ∨ s.out.filter (about i) = [.added d, .removed i])) ∧
    ∀ d, .added d ∈ s.out → "event".toList <+: d.path.sysname.toList ∧ d.node.usable = true ∧ d.node.ignored = false ∧ s.seatId = some (d.node.idSeat.getD "seat0") := by
  have h := base_init.run ops hr
  constructor
  · intro i
    have := h.inv.ho i
    rw [hist_eq] at this
    rw [this]
    cases hk : s.known[i]? with
    | none => exact Or.inl rfl
    | some d =>
      right
      refine ⟨d, h.inv.hk i d hk, ?_⟩
      by_cases hd : d ∈ s.devs
      · left; simp [hd]
      · right; simp [hd]
  · intro d hd
    have : Ev.added d ∈ hist s d.id := by
      rw [hist_eq]; exact List.mem_filter.mpr ⟨hd, by simp [about]⟩
    rw [h.inv.ho] at this
    cases hk : s.known[d.id]? with
    | none => rw [hk] at this; cases this
    | some x =>
      rw [hk] at this
      simp only [List.mem_cons] at this
      rcases this with this | this
      · obtain rfl := Ev.added.inj this
        obtain ⟨a, b, c, e⟩ := h.inv.hq d (List.mem_of_getElem? hk)
        exact ⟨List.isPrefixOf_iff_prefix.mp a, b, c, e⟩
      · split at this
        · cases this
        · simp at this

/-- Whatever happens, a logical seat has no two devices for the same path. -/
theorem no_duplicates_on_a_seat (ops : List Op) (s : State) (hr : run {} ops = some s) (a b : Dev) (ha : Live s.out a) (hb : Live s.out b) (hs : a.seat = b.seat)
    (hp : a.path = b.path) : a = b := by
  have h := base_init.run ops hr
  exact h.inv.hu a ((live_iff h a).mp ha) b ((live_iff h b).mp hb) hs hp

/-! ### Following udev -/

theorem wanted_iff {s : State} (h : Inv2 s) (p : Path) (n : Node) : Wanted s.sys s.seatId p n ↔ cur s p = some n ∧ Fits s p n := by
  have hl : (∃ e ∈ s.sys, e.path = p ∧ e.node = n ∧ e.ready = true) ↔ cur s p = some n := by
    unfold cur
    constructor
    · rintro ⟨e, he, hp, hn, hr⟩
      have : lookup s.sys p = some e := by
        cases hlk : lookup s.sys p with
        | none => exact absurd (List.mem_map.mpr ⟨e, he, hp⟩) (lookup_none.mp hlk)
        | some x =>
          obtain ⟨hx, hxp⟩ := lookup_path hlk
          have hnd := h.hsys
          have : x = e := by
            clear hlk
            revert he hx hnd
            generalize s.sys = l
            intro he hx hnd
            induction l with
            | nil => cases he
            | cons a l ih =>
              simp only [List.map_cons, List.nodup_cons] at hnd
              rcases List.mem_cons.mp he with rfl | he' <;> rcases List.mem_cons.mp hx with rfl | hx'
              · rfl
              · exact absurd (List.mem_map.mpr ⟨x, hx', hxp.trans hp.symm⟩) hnd.1
              · exact absurd (List.mem_map.mpr ⟨e, he', hp.trans hxp.symm⟩) hnd.1
              · exact ih he' hx' hnd.2
          rw [this]
      rw [this]; simp [hr, hn]
    · intro hc
      cases hlk : lookup s.sys p with
      | none => rw [hlk] at hc; cases hc
      | some e =>
        rw [hlk] at hc
        simp only [Option.bind_some] at hc
        split at hc
        · rename_i hr
          exact ⟨e, (lookup_path hlk).1, (lookup_path hlk).2, Option.some.inj hc, hr⟩
        · cases hc
  unfold Wanted Fits
  rw [hl, ← List.isPrefixOf_iff_prefix]
  constructor
  · rintro ⟨a, b, c, d, e⟩; exact ⟨a, b, c, d, e.symm⟩
  · rintro ⟨a, b, c, d, e⟩; exact ⟨a, b, c, d, e.symm⟩

theorem follows_of {s : State} (h : Inv2 s) (hs : s.source = true) (hsc : s.scan = none) (hq : s.queue = []) : Follows s := by
  have hev : ∀ d, Live s.out d → isEvent d.path = true := fun d hd =>
    (h.base.inv.hq d (h.base.inv.hd d ((live_iff h.base d).mp hd))).1
  have key : ∀ p, isEvent p = true → (∀ n, (∃ d, (view s p).L d ∧ d.node = n) ↔ cur s p = some n ∧ Fits s p n) ∧ ∀ a b, (view s p).L a → (view s p).L b → a = b := by
    intro p hp
    obtain ⟨M1, T, e, h1, h2⟩ := (h.hgood hs p hp).main
    have hM : (view s p).M = [] := by
      show msgs s p = []
      unfold msgs; rw [hq]; rfl
    rw [hM] at e
    obtain ⟨rfl, rfl⟩ := List.append_eq_nil_iff.mp e.symm
    rcases h2 with ⟨-, -, hb⟩ | ⟨n, hT, -⟩
    · exact (hb rfl).1 (by simp [view, hsc]) (rd_none (h.hidle hsc) _)
    · cases hT
  constructor
  · intro p n
    rw [wanted_iff h]
    constructor
    · rintro ⟨d, hd, rfl, rfl⟩
      exact ((key d.path (hev d hd)).1 d.node).mp ⟨d, ⟨(live_iff h.base d).mp hd, rfl⟩, rfl⟩
    · intro hw
      obtain ⟨d, ⟨hd, hp⟩, hn⟩ := ((key p hw.2.1).1 n).mpr hw
      exact ⟨d, (live_iff h.base d).mpr hd, hp, hn⟩
  · intro a b ha hb hp
    exact (key a.path (hev a ha)).2 a b ⟨(live_iff h.base a).mp ha, rfl⟩ ⟨(live_iff h.base b).mp hb, hp.symm⟩

/-- When libinput has looked at all there was at first and at all messages, its devices are exactly those of udev. -/
theorem devices_are_those_of_udev (ops : List Op) (s : State) (hc : Spec.Careful {} ops) (hr : run {} ops = some s) (hs : s.source = true) (hsc : s.scan = none)
    (hq : s.queue = []) : Follows s :=
  follows_of (inv_of_run hc hr) hs hsc hq

theorem run_append (s : State) (a b : List Op) : run s (a ++ b) = (run s a).bind fun t => run t b := by
  induction a generalizing s with
  | nil => rfl
  | cons op a ih =>
    simp only [List.cons_append, run]
    cases step s op with
    | none => rfl
    | some t => simp [ih]

theorem handler_len (s : State) (m : Msg) (q : List Msg) (hq : s.queue = m :: q) : (handler s).queue = q ∧ (handler s).scan = s.scan ∧ (handler s).source = s.source ∧
    (handler s).sys = s.sys ∧ (handler s).seatId = s.seatId := by
  unfold handler
  rw [hq]
  simp only
  split
  · exact ⟨rfl, rfl, rfl, rfl, rfl⟩
  · split
    · have := deviceAdded_same { s with queue := q } m.path m.node none
      exact ⟨this.queue, this.scan, this.source, this.sys, this.seatId⟩
    · have : ∀ (l : List String) (t : State), Same t (l.foldl (removeOn m.path) t) := by
        intro l
        induction l with
        | nil => exact fun t => Same.refl t
        | cons x l ih =>
          intro t
          refine Same.trans ?_ (ih _)
          unfold removeOn
          split
          · exact (removeDev_rem t _).toSame
          · exact Same.refl t
      have := this s.seats { s with queue := q }
      exact ⟨this.queue, this.scan, this.source, this.sys, this.seatId⟩
    · exact ⟨rfl, rfl, rfl, rfl, rfl⟩

/-- Messages get handled. -/
theorem dispatch_all {s : State} (h : Inv2 s) (hs : s.source = true) (hsc : s.scan = none) :
    ∃ t, run s (List.replicate s.queue.length .dispatch) = some t ∧ Inv2 t ∧ t.source = true ∧ t.scan = none ∧ t.queue = [] ∧ t.sys = s.sys ∧ t.seatId = s.seatId := by
  generalize hn : s.queue.length = k
  induction k generalizing s with
  | zero => exact ⟨s, rfl, h, hs, hsc, List.length_eq_zero_iff.mp hn, rfl, rfl⟩
  | succ k ih =>
    cases hq : s.queue with
    | nil => rw [hq] at hn; cases hn
    | cons m q =>
      obtain ⟨e1, e2, e3, e4, e5⟩ := handler_len s m q hq
      have hst : step s .dispatch = some (handler s) := by simp [step, hsc, hs]
      obtain ⟨t, h1, h2, h3, h4, h5, h6, h7⟩ := ih (h.dispatch hs hsc) (e3.trans hs) (e2.trans hsc) (by rw [e1]; rw [hq] at hn; simpa using hn)
      refine ⟨t, ?_, h2, h3, h4, h5, h6.trans e4, h7.trans e5⟩
      rw [List.replicate_succ]
      simp [run, hst, h1]

/-- How many steps the enumeration may still take. -/
def scanLeft (s : State) : Nat :=
  match s.scan with
  | none => 0
  | some l => 2 * l.length + 1 + if s.reading.isSome then 1 else 0

theorem scan_less {s : State} (hl : s.scan ≠ none) : scanLeft (scanStep s) < scanLeft s ∧ (scanStep s).source = s.source ∧ (scanStep s).sys = s.sys ∧
    (scanStep s).seatId = s.seatId := by
  cases hl : s.scan with
  | none => contradiction
  | some l =>
    cases hr : s.reading with
    | some pn =>
      obtain ⟨p, n⟩ := pn
      rw [scanStep_create hl hr]
      have := deviceAdded_same { s with reading := none } p n none
      refine ⟨?_, this.source, this.sys, this.seatId⟩
      simp only [scanLeft]
      rw [this.scan, this.reading]
      simp [hl, hr]
    | none =>
      cases l with
      | nil =>
        rw [scanStep_end hl hr]
        exact ⟨by simp [scanLeft, hl, hr], rfl, rfl, rfl⟩
      | cons p l =>
        rw [scanStep_next hl hr]
        have hb : scanLeft s = 2 * l.length + 3 := by simp [scanLeft, hl, hr]; omega
        rw [hb]
        split
        · exact ⟨by simp [scanLeft, hr], rfl, rfl, rfl⟩
        · split
          · exact ⟨by simp [scanLeft, hr], rfl, rfl, rfl⟩
          · split
            · exact ⟨by simp [scanLeft, hr], rfl, rfl, rfl⟩
            · exact ⟨by simp [scanLeft], rfl, rfl, rfl⟩

theorem scan_all {s : State} (h : Inv2 s) : ∃ k t, run s (List.replicate k .scan) = some t ∧ Inv2 t ∧ t.scan = none ∧ t.source = s.source ∧ t.sys = s.sys ∧ t.seatId = s.seatId := by
  generalize hn : scanLeft s = n
  induction n using Nat.strongRecOn generalizing s with
  | ind n ih =>
    by_cases hl : s.scan = none
    · exact ⟨0, s, rfl, h, hl, rfl, rfl, rfl⟩
    · obtain ⟨a, b, c, d⟩ := scan_less hl
      obtain ⟨k, t, h1, h2, h3, h4, h5, h6⟩ := ih _ (hn ▸ a) h.scan rfl
      exact ⟨k + 1, t, by rw [List.replicate_succ]; simp [run, step, h1], h2, h3, h4.trans b, h5.trans c, h6.trans d⟩

/-- Whatever happened before, if libinput listens and udev does not change any more, the devices become those of udev: after the enumeration, and one call for each message. -/
theorem devices_follow_udev (ops : List Op) (s : State) (hc : Spec.Careful {} ops) (hr : run {} ops = some s) (hs : s.source = true) :
    ∃ k l t, run s (List.replicate k .scan ++ List.replicate l .dispatch) = some t ∧ t.sys = s.sys ∧ t.seatId = s.seatId ∧ Follows t := by
  obtain ⟨k, u, h1, h2, h3, h4, h5, h6⟩ := scan_all (inv_of_run hc hr)
  obtain ⟨t, g1, g2, g3, g4, g5, g6, g7⟩ := dispatch_all h2 (h4.trans hs) h3
  exact ⟨k, _, t, by rw [run_append, h1]; exact g1, g6.trans h5, g7.trans h6, follows_of g2 g3 g4 g5⟩

/-- Without listening, that is before a seat is assigned, after suspending and when starting failed, there are no devices. -/
theorem no_devices_while_suspended (ops : List Op) (s : State) (hc : Spec.Careful {} ops) (hr : run {} ops = some s) (hs : s.source = false) (d : Dev) : ¬ Live s.out d := by
  have h := inv_of_run hc hr
  rw [live_iff h.base, (h.hoff hs).1]
  simp

theorem foldl_pres {P : State → Prop} {α : Type} (f : State → α → State) (hf : ∀ s a, P s → P (f s a)) (l : List α) (s : State) (h : P s) : P (l.foldl f s) := by
  induction l generalizing s with
  | nil => exact h
  | cons x l ih => exact ih _ (hf s x h)

theorem removeDevices_pres {P : State → Prop} (hP : ∀ s d, P s → P (removeDev s d)) (s : State) (h : P s) : P (removeDevices s) :=
  foldl_pres _ (fun _ _ h => foldl_pres _ hP _ _ h) _ _ h

theorem suspend_stops (s t : State) (hsc : s.scan = none) (h : step s .suspend = some t) (hs : s.source = true → s.monitor = true) : t.source = false := by
  have : step s .suspend = disable s := by simp [step, hsc]
  rw [this] at h
  unfold disable at h
  split at h
  · rename_i hm
    obtain rfl := Option.some.inj h
    cases hh : s.source with
    | false => rfl
    | true => rw [hs hh] at hm; cases hm
  · split at h
    · cases h
    · obtain rfl := Option.some.inj h
      exact removeDevices_pres (P := fun u => u.source = false) (fun u x hu => hu) { s with monitor := false, source := false, queue := [] } rfl

/-- Suspending removes all devices, in any run with a careful client. -/
theorem suspend_removes_all (ops : List Op) (s t : State) (hc : Spec.Careful {} ops) (hr : run {} ops = some s) (hsc : s.scan = none) (ht : step s .suspend = some t)
    (d : Dev) : ¬ Live t.out d := by
  have h := inv_of_run hc hr
  have h2 := h.step .suspend trivial ht
  rw [live_iff h2.base, (h2.hoff (suspend_stops s t hsc ht fun hs => (h.hon hs).1)).1]
  simp

/-! ### Seats -/

/-- Where devices are put: where the client says, or where `WL_SEAT` says, or on the seat `default`. -/
theorem seat_of_new_devices (s t : State) (op : Op) (h : step s op = some t) (d : Dev) (hd : .added d ∈ t.out) (hn : .added d ∉ s.out) :
    ((op = .scan ∨ op = .dispatch) ∧ d.seat = d.node.wlSeat.getD "default") ∨ ∃ id name, op = .changeSeat id (some name) ∧ d.seat = name := by
  have hadd : ∀ (u : State) p n name, .added d ∈ (deviceAdded u p n name).out → .added d ∉ u.out → d.seat = (name.or n.wlSeat).getD "default" ∧ d.node = n := by
    intro u p n name h1 h2
    rcases deviceAdded_cases u p n name with ⟨e, -⟩ | ⟨-, -, -, -, e⟩ <;> rw [e] at h1
    · exact absurd h1 h2
    · simp only [List.mem_append, List.mem_singleton] at h1
      rcases h1 with h1 | h1
      · exact absurd h1 h2
      · obtain rfl := Ev.added.inj h1; exact ⟨rfl, rfl⟩
  have hrem : ∀ (u : State) p, .added d ∈ (deviceRemoved u p).out → .added d ∈ u.out := by
    intro u p
    unfold deviceRemoved
    generalize u.seats = l
    intro h
    induction l generalizing u with
    | nil => exact h
    | cons x l ih =>
      have h1 := ih _ h
      unfold removeOn at h1
      split at h1
      · simpa [removeDev] using h1
      · exact h1
  have hpost : ∀ (u : State) m, (post u m).out = u.out := by
    intro u m; unfold post; split <;> rfl
  have hen : ∀ (u : State) f, .added d ∈ (enable u f).out → .added d ∈ u.out := by
    intro u f h
    unfold enable at h
    split at h
    · simpa using h
    · split at h <;> simpa using h
  cases op with
  | appear p n =>
    obtain rfl := Option.some.inj h
    unfold appear at hd
    split at hd <;> exact absurd hd hn
  | getReady p =>
    obtain rfl := Option.some.inj h
    unfold getReady at hd
    split at hd
    · split at hd
      · exact absurd hd hn
      · rw [hpost] at hd; exact absurd hd hn
    · exact absurd hd hn
  | vanish p =>
    obtain rfl := Option.some.inj h
    unfold vanish at hd
    split at hd
    · rw [hpost] at hd; exact absurd hd hn
    · exact absurd hd hn
  | notify p =>
    obtain rfl := Option.some.inj h
    unfold notify at hd
    split at hd
    · rw [hpost] at hd; exact absurd hd hn
    · exact absurd hd hn
  | scan =>
    obtain rfl := Option.some.inj h
    refine Or.inl ⟨Or.inl rfl, ?_⟩
    unfold scanStep at hd
    split at hd
    · exact absurd hd hn
    · split at hd
      · obtain ⟨a, b⟩ := hadd _ _ _ _ hd hn
        rw [a, b]; rfl
      · split at hd
        · simp at hd; exact absurd hd hn
        · split at hd
          · exact absurd hd hn
          · split at hd
            · exact absurd hd hn
            · split at hd <;> exact absurd hd hn
  | dispatch =>
    refine Or.inl ⟨Or.inr rfl, ?_⟩
    simp only [step] at h
    split at h <;> obtain rfl := Option.some.inj h
    · exact absurd hd hn
    · split at hd
      · unfold handler at hd
        split at hd
        · exact absurd hd hn
        · simp only at hd
          split at hd
          · exact absurd hd hn
          · split at hd
            · obtain ⟨a, b⟩ := hadd _ _ _ _ hd hn
              rw [a, b]; rfl
            · exact absurd (hrem _ _ hd) hn
            · exact absurd hd hn
      · exact absurd hd hn
  | assign id f =>
    exfalso
    simp only [step] at h
    split at h <;> obtain rfl := Option.some.inj h
    · exact hn hd
    · unfold assign at hd
      split at hd
      · simp at hd; exact hn hd
      · rename_i i
        split at hd
        · simp at hd; exact hn hd
        · split at hd
          · simp at hd; exact hn hd
          · exact hn (hen { s with seatId := some i } _ hd)
  | suspend =>
    exfalso
    simp only [step] at h
    split at h
    · obtain rfl := Option.some.inj h; exact hn hd
    · unfold disable at h
      split at h
      · obtain rfl := Option.some.inj h; exact hn hd
      · split at h
        · cases h
        · obtain rfl := Option.some.inj h
          exact hn (removeDevices_pres (P := fun u => .added d ∈ u.out → .added d ∈ s.out) (fun u x hu h => hu (by simpa [removeDev] using h))
            { s with monitor := false, source := false, queue := [] } (fun h => h) hd)
  | resume f =>
    exfalso
    simp only [step] at h
    split at h <;> obtain rfl := Option.some.inj h
    · exact hn hd
    · exact hn (hen _ _ hd)
  | changeSeat id name =>
    simp only [step] at h
    split at h <;> obtain rfl := Option.some.inj h
    · exact absurd hd hn
    · unfold changeSeat at hd
      split at hd
      · exact absurd hd hn
      · simp at hd; exact absurd hd hn
      · simp only [List.mem_append, List.mem_singleton] at hd
        rcases hd with hd | hd
        · obtain ⟨a, -⟩ := hadd _ _ _ _ hd (fun h => hn (hrem _ _ h))
          exact Or.inr ⟨_, _, rfl, by rw [a]; rfl⟩
        · cases hd

/-- Moving a device with care: it is removed, and comes back as a new one for the same hardware on the seat that was asked for. -/
theorem change_of_seat (ops : List Op) (s : State) (hc : Spec.Careful {} ops) (hr : run {} ops = some s) (hsc : s.scan = none) (d : Dev) (hd : Live s.out d)
    (hq : ∀ m ∈ s.queue, m.path ≠ d.path) (name : String) :
    ∃ t N, step s (.changeSeat d.id (some name)) = some t ∧ N.path = d.path ∧ N.node = d.node ∧ N.seat = name ∧
      t.out = s.out ++ [.removed d.id, .added N, .result true] ∧ ∀ x, Live t.out x ↔ (Live s.out x ∧ x ≠ d) ∨ x = N := by
  have h := inv_of_run hc hr
  have hd' := (live_iff h.base d).mp hd
  obtain ⟨h1, -, -, h4, h5⟩ := changeSeat_spec h hsc hd' hq name
  refine ⟨changeSeat s d.id (some name), ⟨s.known.length, d.path, d.node, name⟩, by simp [step, hsc], rfl, rfl, rfl, ?_, ?_⟩
  · rw [h4]
    have hout : (deviceRemoved s d.path).out = s.out ++ [.removed d.id] := by
      -- the device is the only one with the path
      have hfind : ∀ (l : List String) (u : State), (∀ x ∈ u.devs, x.path ≠ d.path) → l.foldl (removeOn d.path) u = u := by
        intro l u hu
        induction l with
        | nil => rfl
        | cons y l ih =>
          rw [List.foldl_cons]
          have : removeOn d.path u y = u := by
            unfold removeOn
            have : u.devs.find? (fun x => x.seat = y && x.path = d.path) = none := by
              rw [List.find?_eq_none]
              intro x hx
              simp [hu x hx]
            rw [this]
          rw [this, ih]
      have key : ∀ (l : List String), d.seat ∈ l → (l.foldl (removeOn d.path) s).out = s.out ++ [.removed d.id] := by
        intro l
        induction l with
        | nil => intro h; cases h
        | cons y l ih =>
          intro hm
          rw [List.foldl_cons]
          by_cases hy : d.seat = y
          · have hf : s.devs.find? (fun x => x.seat = y && x.path = d.path) = some d := by
              cases hf : s.devs.find? (fun x => x.seat = y && x.path = d.path) with
              | none =>
                rw [List.find?_eq_none] at hf
                exact absurd (hf d hd') (by simp [hy])
              | some x =>
                have hx := List.mem_of_find?_eq_some hf
                have hp := List.find?_some hf
                simp only [Bool.and_eq_true, decide_eq_true_eq] at hp
                rw [h5 x hx hp.2]
            have hr : removeOn d.path s y = removeDev s d := by
              unfold removeOn; rw [hf]
            rw [hr, hfind l (removeDev s d)]
            · rfl
            · intro x hx hp
              simp only [removeDev, List.mem_filter, decide_eq_true_eq, ne_eq] at hx
              exact hx.2 (by rw [h5 x hx.1 hp])
          · have hf : s.devs.find? (fun x => x.seat = y && x.path = d.path) = none := by
              rw [List.find?_eq_none]
              intro x hx
              simp only [Bool.and_eq_true, decide_eq_true_eq, not_and]
              intro hs hp
              exact hy (by rw [← h5 x hx hp]; exact hs)
            have hr : removeOn d.path s y = s := by
              unfold removeOn; rw [hf]
            rw [hr]
            rcases List.mem_cons.mp hm with e | e
            · exact absurd e hy
            · exact ih e
      exact key s.seats (h.base.inv.hseat d hd')
    rw [hout, List.append_assoc]; rfl
  · intro x
    have hb := h.base.changeSeat d.id (some name)
    rw [live_iff hb, live_iff h.base]
    exact h1 x

/-! ### Results and crashes -/

/-- `libinput_udev_assign_seat` fails without a name, with a name that is too long and the second time, and then does nothing else. -/
theorem assign_refused (s : State) (id : Option String) (f : Option Fault) (hsc : s.scan = none)
    (h : id = none ∨ (∃ i, id = some i ∧ i.utf8ByteSize > 256) ∨ s.seatId ≠ none) :
    step s (.assign id f) = some { s with out := s.out ++ [.result false] } := by
  have : step s (.assign id f) = some (assign s id f) := by simp [step, hsc]
  rw [this]
  unfold assign
  cases id with
  | none => rfl
  | some i =>
    simp only
    split
    · rfl
    · rename_i hlen
      split
      · rfl
      · rename_i hn
        rcases h with h | ⟨j, hj, hj2⟩ | h
        · cases h
        · obtain rfl := Option.some.inj hj; exact absurd hj2 hlen
        · exact absurd (by simpa using hn) h

/-- `libinput_resume` while running succeeds and does nothing; so it does before a seat is assigned. -/
theorem resume_again (s : State) (f : Option Fault) (hsc : s.scan = none) (h : s.monitor = true ∨ s.seatId = none) :
    step s (.resume f) = some { s with out := s.out ++ [.result true] } := by
  have : step s (.resume f) = some (enable s f) := by simp [step, hsc]
  rw [this]
  unfold enable
  rw [if_pos h]

/-- Resuming, without failures, listens and looks at all devices; then it returns success. -/
theorem resume_listens (s : State) (hsc : s.scan = none) (hm : s.monitor = false) (hid : s.seatId ≠ none) :
    ∃ t, step s (.resume none) = some t ∧ t.source = true ∧ t.scan = some (s.sys.map Entry.path) ∧
      ∃ k u, run t (List.replicate k .scan) = some u ∧ u.scan = none ∧ u.source = true ∧ Ev.result true ∈ u.out.drop t.out.length := by
  have : step s (.resume none) = some (enable s none) := by simp [step, hsc]
  have he : enable s none = { s with monitor := true, source := true, queue := [], scan := some (s.sys.map Entry.path) } := by
    unfold enable
    rw [if_neg]
    rintro (h | h)
    · rw [hm] at h; cases h
    · exact hid h
  refine ⟨_, this, by rw [he], by rw [he], ?_⟩
  generalize hv : enable s none = v at he
  have hvs : v.scan ≠ none := by rw [he]; simp
  have hvr : v.source = true := by rw [he]
  clear he hv this
  -- every step only appends to the output
  have happ : ∀ u : State, ∃ e, (scanStep u).out = u.out ++ e := by
    intro u
    unfold scanStep
    split
    · exact ⟨[], by simp⟩
    · split
      · rename_i p n _
        rcases deviceAdded_cases { u with reading := none } p n none with ⟨e, -⟩ | ⟨-, -, -, -, e⟩ <;> rw [e]
        · exact ⟨[], by simp⟩
        · exact ⟨_, rfl⟩
      · split
        · exact ⟨_, rfl⟩
        · split
          · exact ⟨[], by simp⟩
          · split
            · exact ⟨[], by simp⟩
            · split <;> exact ⟨[], by simp⟩
  generalize hn : scanLeft v = n
  have main : ∀ n (u : State), scanLeft u = n → u.scan ≠ none → u.source = true → ∃ k w, run u (List.replicate k .scan) = some w ∧ w.scan = none ∧ w.source = true ∧
      ∃ e, w.out = u.out ++ e ∧ Ev.result true ∈ e := by
    intro n
    induction n using Nat.strongRecOn with
    | ind n ih =>
      intro u hn hu hs
      obtain ⟨a, b, -, -⟩ := scan_less hu
      obtain ⟨e0, he0⟩ := happ u
      by_cases hend : (scanStep u).scan = none
      · refine ⟨1, scanStep u, by simp [run, step, List.replicate], hend, b.trans hs, ?_⟩
        cases hl : u.scan with
        | none => exact absurd hl hu
        | some l =>
          cases hr : u.reading with
          | some pn =>
            rw [scanStep_create hl (by rw [hr] : u.reading = some (pn.1, pn.2)), (deviceAdded_same _ _ _ _).scan] at hend
            rw [show u.scan = none from hend] at hl; cases hl
          | none =>
            cases l with
            | nil => rw [scanStep_end hl hr]; exact ⟨_, rfl, by simp⟩
            | cons p l =>
              rw [scanStep_next hl hr] at hend
              split at hend
              · simp at hend
              · split at hend
                · simp at hend
                · split at hend <;> simp at hend
      · obtain ⟨k, w, h1, h2, h3, e, h4, h5⟩ := ih _ (hn ▸ a) (scanStep u) rfl hend (b.trans hs)
        refine ⟨k + 1, w, by rw [List.replicate_succ]; simp [run, step, h1], h2, h3, e0 ++ e, by rw [h4, he0, List.append_assoc], List.mem_append_right _ h5⟩
  obtain ⟨k, w, h1, h2, h3, e, h4, h5⟩ := main n v hn hvs hvr
  exact ⟨k, w, h1, h2, h3, by rw [h4, List.drop_left]; exact h5⟩

/-- When the monitor cannot be created, bound or watched, resuming fails and nothing changes: it may be tried again. -/
theorem resume_fails (s : State) (f : Fault) (hf : f ≠ .filter) (hsc : s.scan = none) (hm : s.monitor = false) (hid : s.seatId ≠ none) :
    step s (.resume (some f)) = some { s with out := s.out ++ [.result false] } := by
  have : step s (.resume (some f)) = some (enable s (some f)) := by simp [step, hsc]
  rw [this]
  unfold enable
  rw [if_neg (by rintro (h | h); · rw [hm] at h; cases h
                 · exact hid h)]
  cases f <;> first | rfl | exact absurd rfl hf

/-- Without failures of the filter, nothing crashes. -/
theorem no_crash (ops : List Op) (hf : ∀ op ∈ ops, filterFault op = false) : ∃ s, run {} ops = some s := by
  have main : ∀ (ops : List Op) (s : State), (∀ op ∈ ops, filterFault op = false) → (s.monitor = s.source) → ∃ t, run s ops = some t := by
    intro ops
    induction ops with
    | nil => intro s _ _; exact ⟨s, rfl⟩
    | cons op ops ih =>
      intro s hf hm
      have hf1 := hf op List.mem_cons_self
      have hf2 : ∀ o ∈ ops, filterFault o = false := fun o ho => hf o (List.mem_cons_of_mem _ ho)
      have hpost : ∀ (u : State) m, (post u m).monitor = u.monitor ∧ (post u m).source = u.source := by
        intro u m; unfold post; split <;> exact ⟨rfl, rfl⟩
      have hen : ∀ (u : State) f, f ≠ some .filter → u.monitor = u.source → (enable u f).monitor = (enable u f).source := by
        intro u f hf hu
        unfold enable
        split
        · exact hu
        · split
          · exact hu
          · exact absurd rfl hf
          · exact hu
          · exact hu
          · rfl
      have hrm : ∀ (u : State) p, Same u (deviceRemoved u p) := by
        intro u p
        unfold deviceRemoved
        generalize u.seats = l
        induction l generalizing u with
        | nil => exact Same.refl u
        | cons x l ih =>
          refine Same.trans ?_ (ih _)
          unfold removeOn
          split
          · exact (removeDev_rem u _).toSame
          · exact Same.refl u
      suffices h : ∃ u, step s op = some u ∧ u.monitor = u.source by
        obtain ⟨u, h1, h2⟩ := h
        obtain ⟨t, ht⟩ := ih u hf2 h2
        exact ⟨t, by simp [run, h1, ht]⟩
      cases op with
      | appear p n =>
        refine ⟨_, rfl, ?_⟩
        unfold appear; split <;> exact hm
      | getReady p =>
        refine ⟨_, rfl, ?_⟩
        unfold getReady
        split
        · split
          · exact hm
          · rw [(hpost _ _).1, (hpost _ _).2]; exact hm
        · exact hm
      | vanish p =>
        refine ⟨_, rfl, ?_⟩
        unfold vanish
        split
        · rw [(hpost _ _).1, (hpost _ _).2]; exact hm
        · exact hm
      | notify p =>
        refine ⟨_, rfl, ?_⟩
        unfold notify
        split
        · rw [(hpost _ _).1, (hpost _ _).2]; exact hm
        · exact hm
      | scan =>
        refine ⟨_, rfl, ?_⟩
        unfold scanStep
        split
        · exact hm
        · split
          · rename_i p n _
            have := deviceAdded_same { s with reading := none } p n none
            rw [this.monitor, this.source]; exact hm
          · split
            · exact hm
            · split
              · exact hm
              · split
                · exact hm
                · split <;> exact hm
      | dispatch =>
        simp only [step]
        split
        · exact ⟨_, rfl, hm⟩
        · refine ⟨_, rfl, ?_⟩
          split
          · unfold handler
            split
            · exact hm
            · rename_i m q _
              simp only
              split
              · exact hm
              · split
                · have := deviceAdded_same { s with queue := q } m.path m.node none
                  rw [this.monitor, this.source]; exact hm
                · have := hrm { s with queue := q } m.path
                  rw [this.monitor, this.source]; exact hm
                · exact hm
          · exact hm
      | assign id f =>
        simp only [step]
        split
        · exact ⟨_, rfl, hm⟩
        · refine ⟨_, rfl, ?_⟩
          unfold assign
          split
          · exact hm
          · split
            · exact hm
            · split
              · exact hm
              · exact hen _ f (by simpa [filterFault] using hf1) hm
      | suspend =>
        simp only [step]
        split
        · exact ⟨_, rfl, hm⟩
        · unfold disable
          split
          · exact ⟨_, rfl, hm⟩
          · rename_i h1
            rw [if_neg (by rw [← hm]; exact h1)]
            refine ⟨_, rfl, ?_⟩
            exact removeDevices_pres (P := fun u => u.monitor = u.source) (fun u x hu => hu) { s with monitor := false, source := false, queue := [] } rfl
      | resume f =>
        simp only [step]
        split
        · exact ⟨_, rfl, hm⟩
        · exact ⟨_, rfl, hen _ f (by simpa [filterFault] using hf1) hm⟩
      | changeSeat id name =>
        simp only [step]
        split
        · exact ⟨_, rfl, hm⟩
        · refine ⟨_, rfl, ?_⟩
          unfold changeSeat
          split
          · exact hm
          · exact hm
          · rename_i d name _
            have h1 := hrm s d.path
            have h2 := deviceAdded_same (deviceRemoved s d.path) d.path d.node (some name)
            show (deviceAdded _ _ _ _).monitor = (deviceAdded _ _ _ _).source
            rw [h2.monitor, h2.source, h1.monitor, h1.source]; exact hm
  exact main ops {} hf rfl

/-! ### Examples -/

def ev (k : String) : Path := ⟨"/sys/devices/x", "event" ++ k⟩
def plain : Node := ⟨0, none, none, true, false⟩

/-- Two devices, one there before and one that comes during enumeration and is seen twice; a third belongs to another seat. -/
def someOps : List Op :=
  [.appear (ev "0") plain, .getReady (ev "0"), .appear (ev "2") { plain with idSeat := some "seat1" }, .getReady (ev "2"), .appear (ev "1") plain,
   .assign (some "seat0") none, .scan, .scan, .getReady (ev "1"), .scan, .scan, .scan, .scan, .scan, .dispatch]

example : ∃ s, run {} someOps = some s ∧ s.source = true ∧ s.scan = none ∧ s.queue = [] ∧
    s.out = [.added ⟨0, ev "0", plain, "default"⟩, .added ⟨1, ev "1", { plain with serial := 2 }, "default"⟩, .result true] := by
  refine ⟨_, rfl, ?_⟩
  decide

example : Spec.Careful {} someOps := by
  simp [someOps, Spec.Careful, Spec.CarefulOp]

/-- A careful move, and its effect. -/
example : ∃ s, run {} (someOps ++ [.changeSeat 1 (some "left"), .suspend]) = some s ∧
    s.out = [.added ⟨0, ev "0", plain, "default"⟩, .added ⟨1, ev "1", { plain with serial := 2 }, "default"⟩, .result true,
      .removed 1, .added ⟨2, ev "1", { plain with serial := 2 }, "left"⟩, .result true, .removed 2, .removed 0] := by
  refine ⟨_, rfl, ?_⟩
  decide

/-! ### Where care is needed -/

/-- A device that is moved while the message about it waits is there twice for good. -/
theorem moved_too_early_is_doubled : ∃ ops s a b, run {} ops = some s ∧ s.source = true ∧ s.scan = none ∧ s.queue = [] ∧ Live s.out a ∧ Live s.out b ∧ a.path = b.path ∧ a ≠ b := by
  refine ⟨[.appear (ev "0") plain, .assign (some "seat0") none, .getReady (ev "0"), .scan, .scan, .scan,
    .changeSeat 0 (some "left"), .dispatch], _, ⟨1, ev "0", plain, "left"⟩, ⟨2, ev "0", plain, "default"⟩, rfl, ?_⟩
  unfold Live
  decide

/-- Moving a removed device while suspended makes a device, and resuming makes another one. -/
theorem moved_while_suspended_is_doubled : ∃ ops s, run {} ops = some s ∧ s.source = false ∧ (∃ d, Live s.out d) ∧
    ∃ k t a b, run s (.resume none :: List.replicate k .scan) = some t ∧ t.scan = none ∧ t.queue = [] ∧ Live t.out a ∧ Live t.out b ∧ a.path = b.path ∧ a ≠ b := by
  refine ⟨[.appear (ev "0") plain, .getReady (ev "0"), .assign (some "seat0") none, .scan, .scan, .scan, .suspend, .changeSeat 0 (some "left")], _, rfl, by decide,
    ⟨⟨1, ev "0", plain, "left"⟩, by unfold Live; decide⟩, 3, _, ⟨1, ev "0", plain, "left"⟩, ⟨2, ev "0", plain, "default"⟩, rfl, ?_⟩
  unfold Live
  decide

/-- A change of the seat reports success although the device is lost. -/
theorem lost_while_moving : ∃ ops s, run {} ops = some s ∧ s.out.getLast? = some (.result true) ∧ (∃ d, .added d ∈ s.out) ∧ ∀ d, ¬ Live s.out d := by
  refine ⟨[.appear (ev "0") plain, .getReady (ev "0"), .assign (some "seat0") none, .scan, .scan, .scan, .vanish (ev "0"), .changeSeat 0 (some "left")], _, rfl, by decide,
    ⟨⟨0, ev "0", plain, "default"⟩, by decide⟩, ?_⟩
  rintro d ⟨h1, h2⟩
  have : d = ⟨0, ev "0", plain, "default"⟩ := by
    have : Ev.added d ∈ [Ev.added ⟨0, ev "0", plain, "default"⟩, .result true, .removed 0, .result true] := h1
    simpa using this
  subst this
  exact h2 (by decide)

/-- Hardware that is replaced during the enumeration by hardware for another logical seat is there twice for a while, even if the client does nothing. -/
theorem doubled_for_a_while : ∃ ops s a b, Spec.Careful {} ops ∧ run {} ops = some s ∧ Live s.out a ∧ Live s.out b ∧ a.path = b.path ∧ a ≠ b := by
  refine ⟨[.appear (ev "0") plain, .assign (some "seat0") none, .getReady (ev "0"), .vanish (ev "0"), .appear (ev "0") { plain with wlSeat := some "left" }, .getReady (ev "0"),
    .scan, .scan, .scan, .dispatch], _, ⟨0, ev "0", { plain with serial := 1, wlSeat := some "left" }, "left"⟩, ⟨1, ev "0", plain, "default"⟩,
    by simp [Spec.Careful, Spec.CarefulOp], rfl, ?_⟩
  unfold Live
  decide

/-- If the filter of the monitor cannot be set up, `libinput_suspend` crashes afterwards. -/
theorem suspend_after_filter_failure_crashes : run {} [.assign (some "seat0") (some .filter), .suspend] = none := by decide

/-- Also, resuming reports success then, without listening. -/
theorem resume_after_filter_failure_does_nothing : ∃ s, run {} [.assign (some "seat0") (some .filter), .resume none] = some s ∧ s.out = [.result false, .result true] ∧
    s.source = false ∧ s.scan = none := by
  exact ⟨_, rfl, by decide⟩

end Libinput.Backend.Props
