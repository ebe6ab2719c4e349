import Verif.Backend.PathSpec

/-! Invariants of the path backend. -/
namespace Libinput.Backend.PathSeat
open Spec

def hist (s : State) (i : Nat) : List Ev := s.out.filter (about i)

structure Inv (s : State) : Prop where
  hk : ∀ (i : Nat) (d : Dev), s.known[i]? = some d → d.id = i
  hd : ∀ d ∈ s.devs, d ∈ s.known
  hseat : ∀ d ∈ s.devs, (d.phys, d.seat) ∈ s.seats
  ho : ∀ i, hist s i = match s.known[i]? with
    | none => []
    | some d => .added d :: if d ∈ s.devs then [] else [.removed i]
  honce : s.devs.Pairwise (fun a b => a.id ≠ b.id)
  hpaths : (s.paths.map Remembered.handle).Nodup
  hobj : ∃ obj : Nat → Path × Node, (∀ d ∈ s.known, d.handle < s.next ∧ obj d.handle = (d.path, d.node)) ∧ ∀ r ∈ s.paths, r.handle < s.next ∧ obj r.handle = (r.path, r.node)
  hseatOf : ∀ d ∈ s.known, d.phys = d.node.idSeat.getD "seat0" ∧ d.node.usable = true

theorem Inv.known_id {s : State} (h : Inv s) {d : Dev} (hd : d ∈ s.known) : s.known[d.id]? = some d := by
  obtain ⟨i, hi⟩ := List.getElem?_of_mem hd
  have := h.hk i d hi
  rw [this]; exact hi

theorem Inv.id_inj {s : State} (h : Inv s) {a b : Dev} (ha : a ∈ s.known) (hb : b ∈ s.known) (e : a.id = b.id) : a = b := by
  have h1 := h.known_id ha
  have h2 := h.known_id hb
  rw [e, h2] at h1
  exact (Option.some.inj h1).symm

/-- Changes of udev and results. -/
theorem Inv.of_same {s t : State} (h : Inv s) (h1 : t.next = s.next) (h2 : t.paths = s.paths) (h3 : t.seats = s.seats) (h4 : t.devs = s.devs) (h5 : t.known = s.known)
    (h6 : ∀ i, hist t i = hist s i) : Inv t := by
  refine ⟨by rw [h5]; exact h.hk, by rw [h4, h5]; exact h.hd, by rw [h3, h4]; exact h.hseat, ?_, by rw [h4]; exact h.honce, by rw [h2]; exact h.hpaths, by rw [h1, h2, h5]; exact h.hobj,
    by rw [h5]; exact h.hseatOf⟩
  intro i; rw [h6, h5, h4]; exact h.ho i

theorem Inv.result {s : State} (h : Inv s) (b : Bool) : Inv { s with out := s.out ++ [.result b] } :=
  h.of_same rfl rfl rfl rfl rfl (fun i => by simp [hist, about])

/-- Fewer paths. -/
theorem Inv.paths {s : State} (h : Inv s) {ps : List Remembered} (hs : ps.Sublist s.paths) : Inv { s with paths := ps } := by
  refine ⟨h.hk, h.hd, h.hseat, h.ho, h.honce, h.hpaths.sublist (hs.map _), ?_, h.hseatOf⟩
  obtain ⟨obj, a, b⟩ := h.hobj
  exact ⟨obj, a, fun r hr => b r (hs.subset hr)⟩

theorem removeDev_inv {s : State} (h : Inv s) {d : Dev} (hd : d ∈ s.devs) : Inv (removeDev s d) := by
  have hdk := h.hd d hd
  refine ⟨h.hk, fun x hx => h.hd x (List.mem_filter.mp hx).1, fun x hx => h.hseat x (List.mem_filter.mp hx).1, ?_, List.Pairwise.filter _ h.honce, h.hpaths, h.hobj, h.hseatOf⟩
  intro i
  show (s.out ++ [Ev.removed d.id]).filter (about i) = _
  rw [List.filter_append]
  show hist s i ++ _ = _
  rw [h.ho i]
  by_cases e : d.id = i
  · subst e
    rw [show (removeDev s d).known = s.known from rfl, h.known_id hdk]
    simp [hd, about, removeDev]
  · rw [show (removeDev s d).known = s.known from rfl]
    have : List.filter (about i) [Ev.removed d.id] = [] := by simp [about, e]
    rw [this, List.append_nil]
    cases hki : s.known[i]? with
    | none => rfl
    | some x =>
      have hxi := h.hk i x hki
      have : (x ∈ (removeDev s d).devs) ↔ x ∈ s.devs := by
        simp only [removeDev, List.mem_filter]
        constructor
        · exact fun h => h.1
        · intro hx; refine ⟨hx, ?_⟩
          have : x.id ≠ d.id := by rw [hxi]; exact fun h => e h.symm
          simpa using this
      simp only [this]

/-- What removing devices leaves alone. -/
structure Rem (s t : State) : Prop where
  sys : t.sys = s.sys
  serial : t.serial = s.serial
  next : t.next = s.next
  paths : t.paths = s.paths
  seats : t.seats = s.seats
  known : t.known = s.known

theorem Rem.refl (s : State) : Rem s s := ⟨rfl, rfl, rfl, rfl, rfl, rfl⟩

theorem Rem.trans {a b c : State} (h : Rem a b) (k : Rem b c) : Rem a c :=
  ⟨k.sys.trans h.sys, k.serial.trans h.serial, k.next.trans h.next, k.paths.trans h.paths, k.seats.trans h.seats, k.known.trans h.known⟩

theorem disableDevice_spec {s : State} (h : Inv s) (d : Dev) (hk : d ∈ s.known) : Inv (disableDevice s d) ∧ Rem s (disableDevice s d) ∧
    (∀ x, x ∈ (disableDevice s d).devs ↔ x ∈ s.devs ∧ x ≠ d) ∧ (disableDevice s d).out = s.out ++ if d ∈ s.devs then [.removed d.id] else [] := by
  unfold disableDevice
  split
  · rename_i hd
    refine ⟨removeDev_inv h hd, ⟨rfl, rfl, rfl, rfl, rfl, rfl⟩, ?_, rfl⟩
    intro x
    simp only [removeDev, List.mem_filter, decide_eq_true_eq, ne_eq]
    constructor
    · rintro ⟨a, b⟩; exact ⟨a, fun e => b (by rw [e])⟩
    · rintro ⟨a, b⟩; exact ⟨a, fun e => b (h.id_inj (h.hd x a) hk e)⟩
  · rename_i hd
    refine ⟨h, Rem.refl s, ?_, by simp⟩
    intro x
    constructor
    · exact fun hx => ⟨hx, fun e => hd (e ▸ hx)⟩
    · exact fun hx => hx.1

theorem foldl_disable {s : State} (h : Inv s) (l : List Dev) (hl : ∀ d ∈ l, d ∈ s.known) : Inv (l.foldl disableDevice s) ∧ Rem s (l.foldl disableDevice s) ∧
    ∀ x, x ∈ (l.foldl disableDevice s).devs ↔ x ∈ s.devs ∧ x ∉ l := by
  induction l generalizing s with
  | nil => exact ⟨h, Rem.refl s, by simp⟩
  | cons d l ih =>
    obtain ⟨h1, r1, m1, -⟩ := disableDevice_spec h d (hl d List.mem_cons_self)
    obtain ⟨h2, r2, m2⟩ := ih h1 (fun x hx => by rw [r1.known]; exact hl x (List.mem_cons_of_mem _ hx))
    refine ⟨h2, r1.trans r2, ?_⟩
    intro x
    rw [List.foldl_cons, m2, m1, List.mem_cons]
    constructor
    · rintro ⟨⟨a, b⟩, c⟩
      refine ⟨a, ?_⟩
      rintro (e | e)
      · exact b e
      · exact c e
    · rintro ⟨a, b⟩
      exact ⟨⟨a, fun e => b (Or.inl e)⟩, fun e => b (Or.inr e)⟩

theorem disable_spec {s : State} (h : Inv s) : Inv (disable s) ∧ Rem s (disable s) ∧ (disable s).devs = [] := by
  have main : ∀ (l : List (String × String)) (u : State), Inv u →
      let f := fun (s : State) seat => (s.devs.filter fun d => (d.phys, d.seat) = seat).foldl disableDevice s
      Inv (l.foldl f u) ∧ Rem u (l.foldl f u) ∧ ∀ x, x ∈ (l.foldl f u).devs ↔ x ∈ u.devs ∧ (x.phys, x.seat) ∉ l := by
    intro l
    induction l with
    | nil => intro u hu; exact ⟨hu, Rem.refl u, by simp⟩
    | cons y l ih =>
      intro u hu f
      obtain ⟨h1, r1, m1⟩ := foldl_disable hu (u.devs.filter fun d => (d.phys, d.seat) = y) (fun d hd => hu.hd d (List.mem_filter.mp hd).1)
      obtain ⟨h2, r2, m2⟩ := ih _ h1
      refine ⟨h2, r1.trans r2, ?_⟩
      intro x
      rw [List.foldl_cons, m2]
      show x ∈ (List.foldl disableDevice u _).devs ∧ _ ↔ _
      rw [m1]
      simp only [List.mem_filter, decide_eq_true_eq, List.mem_cons]
      grind
  obtain ⟨a, b, c⟩ := main s.seats s h
  refine ⟨a, b, ?_⟩
  apply List.eq_nil_iff_forall_not_mem.mpr
  intro x hx
  have := (c x).mp hx
  exact this.2 (h.hseat x this.1)

/-- The device that `path_device_enable` makes. -/
def mk (k : Nat) (r : Remembered) (name : Option String) : Dev := ⟨k, r.handle, r.path, r.node, r.node.idSeat.getD "seat0", (name.or r.node.wlSeat).getD "default"⟩

/-- What creating leaves alone. -/
structure Frame (s t : State) : Prop where
  sys : t.sys = s.sys
  serial : t.serial = s.serial
  next : t.next = s.next
  paths : t.paths = s.paths

theorem Frame.trans {a b c : State} (h : Frame a b) (k : Frame b c) : Frame a c :=
  ⟨k.sys.trans h.sys, k.serial.trans h.serial, k.next.trans h.next, k.paths.trans h.paths⟩

theorem deviceEnable_spec {s : State} (h : Inv s) (r : Remembered) (name : Option String)
    (hr : r.handle < s.next) (hobj : ∀ obj : Nat → Path × Node, ((∀ d ∈ s.known, d.handle < s.next ∧ obj d.handle = (d.path, d.node)) ∧
      ∀ r ∈ s.paths, r.handle < s.next ∧ obj r.handle = (r.path, r.node)) → obj r.handle = (r.path, r.node)) :
    Inv (deviceEnable s r name).1 ∧ Frame s (deviceEnable s r name).1 ∧ (deviceEnable s r name).2 = canCreate s r.path r.node ∧
    (canCreate s r.path r.node = true → (deviceEnable s r name).1.devs = s.devs ++ [mk s.known.length r name] ∧
      (deviceEnable s r name).1.known = s.known ++ [mk s.known.length r name] ∧ (deviceEnable s r name).1.out = s.out ++ [.added (mk s.known.length r name)]) ∧
    (canCreate s r.path r.node = false → (deviceEnable s r name).1.devs = s.devs ∧ (deviceEnable s r name).1.known = s.known ∧ (deviceEnable s r name).1.out = s.out) := by
  have hsub : ∀ x ∈ s.seats, x ∈ (if (r.node.idSeat.getD "seat0", (name.or r.node.wlSeat).getD "default") ∈ s.seats then s.seats
      else (r.node.idSeat.getD "seat0", (name.or r.node.wlSeat).getD "default") :: s.seats) := by
    intro x hx; split
    · exact hx
    · exact List.mem_cons_of_mem _ hx
  unfold deviceEnable
  simp only
  have hc : canCreate { s with seats := if (r.node.idSeat.getD "seat0", (name.or r.node.wlSeat).getD "default") ∈ s.seats then s.seats
      else (r.node.idSeat.getD "seat0", (name.or r.node.wlSeat).getD "default") :: s.seats } r.path r.node = canCreate s r.path r.node := rfl
  cases hcan : canCreate s r.path r.node with
  | false =>
    rw [hc, hcan, if_neg (by simp)]
    refine ⟨⟨h.hk, h.hd, fun d hd => hsub _ (h.hseat d hd), h.ho, h.honce, h.hpaths, h.hobj, h.hseatOf⟩, ⟨rfl, rfl, rfl, rfl⟩, rfl, by simp, fun _ => ⟨rfl, rfl, rfl⟩⟩
  | true =>
    rw [hc, hcan, if_pos rfl]
    refine ⟨?_, ⟨rfl, rfl, rfl, rfl⟩, rfl, fun _ => ⟨rfl, rfl, rfl⟩, by simp⟩
    show Inv { s with seats := _, devs := s.devs ++ [mk s.known.length r name], known := s.known ++ [mk s.known.length r name], out := s.out ++ [.added (mk s.known.length r name)] }
    have hNdef : mk s.known.length r name = ⟨s.known.length, r.handle, r.path, r.node, r.node.idSeat.getD "seat0", (name.or r.node.wlSeat).getD "default"⟩ := rfl
    generalize mk s.known.length r name = N at hNdef
    have hid : N.id = s.known.length := by rw [hNdef]
    have hNk : N ∉ s.known := by
      intro hm
      have := h.known_id hm
      rw [hid, List.getElem?_eq_none (Nat.le_refl _)] at this
      cases this
    refine ⟨?_, ?_, ?_, ?_, ?_, h.hpaths, ?_, ?_⟩
    · intro i d hd
      rw [List.getElem?_append] at hd
      split at hd
      · exact h.hk i d hd
      · rename_i hlt
        cases hj : i - s.known.length with
        | zero =>
          rw [hj] at hd
          simp only [List.getElem?_cons_zero, Option.some.injEq] at hd
          rw [← hd, hid]; omega
        | succ j => rw [hj] at hd; simp at hd
    · intro d hd
      rcases List.mem_append.mp hd with hd | hd
      · exact List.mem_append_left _ (h.hd d hd)
      · exact List.mem_append_right _ hd
    · intro d hd
      rcases List.mem_append.mp hd with hd | hd
      · exact hsub _ (h.hseat d hd)
      · rw [List.mem_singleton] at hd
        rw [hd, hNdef]
        show _ ∈ (if _ then _ else _)
        split
        · assumption
        · exact List.mem_cons_self
    · intro i
      show (s.out ++ [Ev.added N]).filter (about i) = match (s.known ++ [N])[i]? with
        | none => []
        | some d => .added d :: if d ∈ s.devs ++ [N] then [] else [.removed i]
      rw [List.filter_append]
      show hist s i ++ _ = _
      rw [h.ho i, List.getElem?_append]
      by_cases hlt : i < s.known.length
      · rw [if_pos hlt]
        have : List.filter (about i) [Ev.added N] = [] := by
          simp [about, hid]; omega
        rw [this, List.append_nil]
        cases hki : s.known[i]? with
        | none => rfl
        | some x =>
          have hx : x ≠ N := fun e => hNk (e ▸ List.mem_of_getElem? hki)
          simp [hx]
      · rw [if_neg hlt, List.getElem?_eq_none (by omega)]
        cases hj : i - s.known.length with
        | zero =>
          have : i = s.known.length := by omega
          simp [about, hid, this]
        | succ j =>
          have : ¬ s.known.length = i := by omega
          simp [about, hid, this]
    · refine List.pairwise_append.mpr ⟨h.honce, List.pairwise_singleton _ _, ?_⟩
      intro a ha b hb
      rw [List.mem_singleton] at hb
      rw [hb, hid]
      intro e
      have := h.known_id (h.hd a ha)
      rw [e, List.getElem?_eq_none (Nat.le_refl _)] at this
      cases this
    · obtain ⟨obj, a, b⟩ := h.hobj
      refine ⟨obj, ?_, b⟩
      intro d hd
      rcases List.mem_append.mp hd with hd | hd
      · exact a d hd
      · rw [List.mem_singleton] at hd
        rw [hd, hNdef]
        exact ⟨hr, hobj obj ⟨a, b⟩⟩
    · intro d hd
      rcases List.mem_append.mp hd with hd | hd
      · exact h.hseatOf d hd
      · rw [List.mem_singleton] at hd
        rw [hd, hNdef]
        simp only [canCreate, Bool.and_eq_true] at hcan
        exact ⟨rfl, hcan.1⟩

/-- A remembered path is one that may be enabled. -/
theorem Inv.obj_of_mem {s : State} {r : Remembered} (hr : r ∈ s.paths) (obj : Nat → Path × Node)
    (h : (∀ d ∈ s.known, d.handle < s.next ∧ obj d.handle = (d.path, d.node)) ∧ ∀ r ∈ s.paths, r.handle < s.next ∧ obj r.handle = (r.path, r.node)) :
    obj r.handle = (r.path, r.node) := (h.2 r hr).2

theorem canCreate_congr {s t : State} (h : t.sys = s.sys) (p : Path) (n : Node) : canCreate t p n = canCreate s p n := by
  unfold canCreate; rw [h]

/-- The devices that resuming makes. -/
def news (k : Nat) : List Remembered → List Dev
  | [] => []
  | r :: rs => mk k r none :: news (k + 1) rs

theorem enableAll_spec {s : State} (h : Inv s) (rs : List Remembered) (hrs : ∀ r ∈ rs, r ∈ s.paths) :
    Inv (enableAll s rs) ∧ Frame s (enableAll s rs) ∧
    ((∀ r ∈ rs, canCreate s r.path r.node = true) → (enableAll s rs).devs = s.devs ++ news s.known.length rs ∧
      (enableAll s rs).out = s.out ++ (news s.known.length rs).map .added ++ [.result true]) ∧
    ((∃ r ∈ rs, canCreate s r.path r.node = false) → (enableAll s rs).devs = [] ∧ (enableAll s rs).out.getLast? = some (.result false)) := by
  induction rs generalizing s with
  | nil =>
    refine ⟨h.result true, ⟨rfl, rfl, rfl, rfl⟩, fun _ => ⟨by simp [enableAll, news], by simp [enableAll, news]⟩, ?_⟩
    rintro ⟨r, hr, -⟩; cases hr
  | cons r rs ih =>
    have hrp := hrs r List.mem_cons_self
    have hlt : r.handle < s.next := by
      obtain ⟨obj, -, b⟩ := h.hobj
      exact (b r hrp).1
    obtain ⟨h1, f1, e1, t1, n1⟩ := deviceEnable_spec h r none hlt (fun obj hobj => Inv.obj_of_mem hrp obj hobj)
    unfold enableAll
    cases hcan : canCreate s r.path r.node with
    | true =>
      rw [hcan] at e1
      obtain ⟨d1, k1, o1⟩ := t1 hcan
      simp only [e1, if_true]
      obtain ⟨h2, f2, t2, n2⟩ := ih h1 (fun x hx => by rw [f1.paths]; exact hrs x (List.mem_cons_of_mem _ hx))
      refine ⟨h2, f1.trans f2, ?_, ?_⟩
      · intro hall
        obtain ⟨a, b⟩ := t2 (fun x hx => by rw [canCreate_congr f1.sys]; exact hall x (List.mem_cons_of_mem _ hx))
        rw [a, b, d1, o1, k1]
        simp [news]
      · rintro ⟨x, hx, hxc⟩
        rcases List.mem_cons.mp hx with rfl | hx
        · rw [hcan] at hxc; cases hxc
        · exact n2 ⟨x, hx, by rw [canCreate_congr f1.sys]; exact hxc⟩
    | false =>
      rw [hcan] at e1
      simp only [e1, Bool.false_eq_true, if_false]
      obtain ⟨h2, r2, hd⟩ := disable_spec h1
      refine ⟨h2.result false, f1.trans ⟨r2.sys, r2.serial, r2.next, r2.paths⟩, ?_, fun _ => ⟨hd, by simp⟩⟩
      intro hall
      rw [hall r List.mem_cons_self] at hcan; cases hcan

theorem createDevice_spec {s : State} (h : Inv s) (r : Remembered) (name : Option String) (hr : r.handle < s.next) (hfresh : r.handle ∉ s.paths.map Remembered.handle)
    (hobj : ∃ obj : Nat → Path × Node, ((∀ d ∈ s.known, d.handle < s.next ∧ obj d.handle = (d.path, d.node)) ∧
      ∀ r ∈ s.paths, r.handle < s.next ∧ obj r.handle = (r.path, r.node)) ∧ obj r.handle = (r.path, r.node)) :
    Inv (createDevice s r name).1 ∧ (createDevice s r name).1.sys = s.sys ∧ (createDevice s r name).1.next = s.next ∧ (createDevice s r name).2 = canCreate s r.path r.node ∧
    (canCreate s r.path r.node = true → (createDevice s r name).1.paths = r :: s.paths ∧ (createDevice s r name).1.devs = s.devs ++ [mk s.known.length r name] ∧
      (createDevice s r name).1.out = s.out ++ [.added (mk s.known.length r name)]) ∧
    (canCreate s r.path r.node = false → (createDevice s r name).1.paths = s.paths ∧ (createDevice s r name).1.devs = s.devs ∧ (createDevice s r name).1.out = s.out) := by
  obtain ⟨obj, ⟨ha, hb⟩, hc⟩ := hobj
  have h0 : Inv { s with paths := r :: s.paths } := by
    refine ⟨h.hk, h.hd, h.hseat, h.ho, h.honce, ?_, ⟨obj, ha, ?_⟩, h.hseatOf⟩
    · simp only [List.map_cons, List.nodup_cons]; exact ⟨hfresh, h.hpaths⟩
    · intro x hx
      rcases List.mem_cons.mp hx with rfl | hx
      · exact ⟨hr, hc⟩
      · exact hb x hx
  obtain ⟨h1, f1, e1, t1, n1⟩ := deviceEnable_spec h0 r name hr (fun obj hobj => Inv.obj_of_mem (s := { s with paths := r :: s.paths }) List.mem_cons_self obj hobj)
  have hcc : canCreate { s with paths := r :: s.paths } r.path r.node = canCreate s r.path r.node := rfl
  rw [hcc] at e1 t1 n1
  unfold createDevice
  cases hcan : canCreate s r.path r.node with
  | true =>
    rw [hcan] at e1
    obtain ⟨d1, k1, o1⟩ := t1 hcan
    simp only [e1, if_true]
    exact ⟨h1, f1.sys, f1.next, trivial, fun _ => ⟨f1.paths, d1, o1⟩, by simp⟩
  | false =>
    rw [hcan] at e1
    obtain ⟨d1, k1, o1⟩ := n1 hcan
    simp only [e1, Bool.false_eq_true, if_false]
    refine ⟨h1.paths ?_, f1.sys, f1.next, trivial, by simp, fun _ => ⟨by rw [f1.paths]; rfl, d1, o1⟩⟩
    exact List.tail_sublist _

theorem removeDevice_spec {s : State} (h : Inv s) (d : Dev) (hk : d ∈ s.known) : Inv (removeDevice s d) ∧ (removeDevice s d).sys = s.sys ∧ (removeDevice s d).next = s.next ∧
    (removeDevice s d).known = s.known ∧
    (∀ r, r ∈ (removeDevice s d).paths ↔ r ∈ s.paths ∧ r.handle ≠ d.handle) ∧ (∀ x, x ∈ (removeDevice s d).devs ↔ x ∈ s.devs ∧ x ≠ d) ∧
    (removeDevice s d).out = s.out ++ if d ∈ s.devs then [.removed d.id] else [] := by
  have h0 : Inv { s with paths := s.paths.eraseP fun r => r.handle = d.handle } := h.paths List.eraseP_sublist
  obtain ⟨h1, r1, m1, o1⟩ := disableDevice_spec h0 d hk
  refine ⟨h1, r1.sys, r1.next, r1.known, ?_, m1, o1⟩
  intro r
  unfold removeDevice
  rw [r1.paths]
  show r ∈ s.paths.eraseP _ ↔ _
  have := h.hpaths
  revert this
  generalize s.paths = l
  intro hn
  induction l with
  | nil => simp
  | cons x l ih =>
    simp only [List.map_cons, List.nodup_cons] at hn
    rw [List.eraseP_cons]
    by_cases hx : x.handle = d.handle
    · simp only [hx, decide_true, cond_true, List.mem_cons]
      constructor
      · intro hr
        refine ⟨Or.inr hr, ?_⟩
        intro e
        exact hn.1 (List.mem_map.mpr ⟨r, hr, by rw [e, hx]⟩)
      · rintro ⟨rfl | hr, hne⟩
        · exact absurd hx hne
        · exact hr
    · simp only [hx, decide_false, cond_false, List.mem_cons]
      have hh := ih hn.2
      constructor
      · rintro (rfl | hr)
        · exact ⟨Or.inl rfl, hx⟩
        · exact ⟨Or.inr (hh.mp hr).1, (hh.mp hr).2⟩
      · rintro ⟨rfl | hr, hne⟩
        · exact Or.inl rfl
        · exact Or.inr (hh.mpr ⟨hr, hne⟩)

/-- A handle for a device there is. -/
theorem Inv.obj_dev {s : State} (h : Inv s) {d : Dev} (hd : d ∈ s.known) : d.handle < s.next ∧
    ∃ obj : Nat → Path × Node, ((∀ d ∈ s.known, d.handle < s.next ∧ obj d.handle = (d.path, d.node)) ∧
      ∀ r ∈ s.paths, r.handle < s.next ∧ obj r.handle = (r.path, r.node)) ∧ obj d.handle = (d.path, d.node) := by
  obtain ⟨obj, a, b⟩ := h.hobj
  exact ⟨(a d hd).1, obj, ⟨a, b⟩, (a d hd).2⟩

/-- A fresh handle. -/
theorem Inv.obj_fresh {s : State} (h : Inv s) (p : Path) (n : Node) : Inv { s with next := s.next + 1 } ∧ s.next ∉ s.paths.map Remembered.handle ∧
    ∃ obj : Nat → Path × Node, ((∀ d ∈ s.known, d.handle < s.next + 1 ∧ obj d.handle = (d.path, d.node)) ∧
      ∀ r ∈ s.paths, r.handle < s.next + 1 ∧ obj r.handle = (r.path, r.node)) ∧ obj s.next = (p, n) := by
  obtain ⟨obj, a, b⟩ := h.hobj
  refine ⟨⟨h.hk, h.hd, h.hseat, h.ho, h.honce, h.hpaths, ⟨obj, fun d hd => ⟨Nat.lt_succ_of_lt (a d hd).1, (a d hd).2⟩, fun r hr => ⟨Nat.lt_succ_of_lt (b r hr).1, (b r hr).2⟩⟩,
    h.hseatOf⟩, ?_, fun k => if k = s.next then (p, n) else obj k, ⟨?_, ?_⟩, by simp⟩
  · intro hm
    obtain ⟨r, hr, e⟩ := List.mem_map.mp hm
    have := (b r hr).1
    omega
  · intro d hd
    have := (a d hd).1
    refine ⟨by omega, ?_⟩
    show (if _ then _ else _) = _
    rw [if_neg (by omega)]; exact (a d hd).2
  · intro r hr
    have := (b r hr).1
    refine ⟨by omega, ?_⟩
    show (if _ then _ else _) = _
    rw [if_neg (by omega)]; exact (b r hr).2

/-- What `add` does. -/
theorem add_cases {s : State} (h : Inv s) (path : Option Path) : Inv (add s path) ∧ (add s path).sys = s.sys ∧
    ((∃ e, (path.bind fun p => lookup s.sys p) = some e ∧ e.ready = true ∧ e.node.ignored = false ∧ canCreate s e.path e.node = true ∧
      (add s path).paths = ⟨s.next, e.path, e.node⟩ :: s.paths ∧ (add s path).devs = s.devs ++ [mk s.known.length ⟨s.next, e.path, e.node⟩ none] ∧
      (add s path).out = s.out ++ [.added (mk s.known.length ⟨s.next, e.path, e.node⟩ none), .result true]) ∨
     ((∀ e, (path.bind fun p => lookup s.sys p) = some e → e.ready = true → e.node.ignored = false → canCreate s e.path e.node = false) ∧
      (add s path).paths = s.paths ∧ (add s path).devs = s.devs ∧ (add s path).out = s.out ++ [.result false])) := by
  unfold add
  cases hb : path.bind fun p => lookup s.sys p with
  | none => exact ⟨h.result _, rfl, Or.inr ⟨by simp, rfl, rfl, rfl⟩⟩
  | some e =>
    simp only
    by_cases hr : e.ready = false
    · rw [if_pos hr]
      refine ⟨h.result _, rfl, Or.inr ⟨?_, rfl, rfl, rfl⟩⟩
      intro x hx hxr
      obtain rfl := Option.some.inj hx
      rw [hr] at hxr; cases hxr
    · rw [if_neg hr]
      by_cases hi : e.node.ignored = true
      · rw [if_pos hi]
        refine ⟨h.result _, rfl, Or.inr ⟨?_, rfl, rfl, rfl⟩⟩
        intro x hx _ hxi
        obtain rfl := Option.some.inj hx
        rw [hi] at hxi; cases hxi
      · rw [if_neg hi]
        obtain ⟨h1, h2, h3⟩ := h.obj_fresh e.path e.node
        obtain ⟨c1, c2, c3, c4, c5, c6⟩ := createDevice_spec h1 ⟨s.next, e.path, e.node⟩ none (Nat.lt_succ_self _) h2 h3
        have hcc : canCreate { s with next := s.next + 1 } e.path e.node = canCreate s e.path e.node := rfl
        refine ⟨c1.result _, c2, ?_⟩
        cases hcan : canCreate s e.path e.node with
        | true =>
          have hcan' := hcan
          rw [← hcc] at hcan
          obtain ⟨p1, d1, o1⟩ := c5 hcan
          refine Or.inl ⟨e, rfl, by simpa using hr, by simpa using hi, hcan', p1, d1, ?_⟩
          show (createDevice _ _ _).1.out ++ [Ev.result (createDevice _ _ _).2] = _
          rw [o1, c4]
          rw [show canCreate { s with next := s.next + 1 } _ _ = true from hcan, List.append_assoc]; rfl
        | false =>
          have hcan' := hcan
          rw [← hcc] at hcan
          obtain ⟨p1, d1, o1⟩ := c6 hcan
          refine Or.inr ⟨?_, p1, d1, ?_⟩
          · intro x hx _ _
            obtain rfl := Option.some.inj hx
            exact hcan'
          · show (createDevice _ _ _).1.out ++ [Ev.result (createDevice _ _ _).2] = _
            rw [o1, c4]
            rw [show canCreate { s with next := s.next + 1 } _ _ = false from hcan]

/-- What `changeSeat` does. -/
theorem changeSeat_cases {s : State} (h : Inv s) {d : Dev} (hd : d ∈ s.known) (name : String) :
    let t := changeSeat s d (some name)
    let N := mk s.known.length ⟨d.handle, d.path, d.node⟩ (some name)
    Inv t ∧ t.sys = s.sys ∧
    (canCreate s d.path d.node = true → (∀ r, r ∈ t.paths ↔ r = ⟨d.handle, d.path, d.node⟩ ∨ (r ∈ s.paths ∧ r.handle ≠ d.handle)) ∧
      (∀ x, x ∈ t.devs ↔ (x ∈ s.devs ∧ x ≠ d) ∨ x = N) ∧ t.out = s.out ++ (if d ∈ s.devs then [.removed d.id] else []) ++ [.added N, .result true]) ∧
    (canCreate s d.path d.node = false → (∀ r, r ∈ t.paths ↔ r ∈ s.paths ∧ r.handle ≠ d.handle) ∧
      (∀ x, x ∈ t.devs ↔ (x ∈ s.devs ∧ x ≠ d)) ∧ t.out = s.out ++ (if d ∈ s.devs then [.removed d.id] else []) ++ [.result false]) := by
  intro t N
  obtain ⟨r1, r2, r3, r4, r5, r6, r7⟩ := removeDevice_spec h d hd
  obtain ⟨o1, o2⟩ := r1.obj_dev (d := d) (by rw [r4]; exact hd)
  have hfresh : d.handle ∉ (removeDevice s d).paths.map Remembered.handle := by
    intro hm
    obtain ⟨r, hr, e⟩ := List.mem_map.mp hm
    exact ((r5 r).mp hr).2 e
  obtain ⟨c1, c2, c3, c4, c5, c6⟩ := createDevice_spec r1 ⟨d.handle, d.path, d.node⟩ (some name) o1 hfresh o2
  have hcc : canCreate (removeDevice s d) d.path d.node = canCreate s d.path d.node := canCreate_congr r2 _ _
  have ht : t = { (createDevice (removeDevice s d) ⟨d.handle, d.path, d.node⟩ (some name)).1 with
      out := (createDevice (removeDevice s d) ⟨d.handle, d.path, d.node⟩ (some name)).1.out ++
        [.result (createDevice (removeDevice s d) ⟨d.handle, d.path, d.node⟩ (some name)).2] } := rfl
  refine ⟨by rw [ht]; exact c1.result _, by rw [ht]; exact c2.trans r2, ?_, ?_⟩
  · intro hcan
    rw [← hcc] at hcan
    obtain ⟨p1, d1, e1⟩ := c5 hcan
    refine ⟨?_, ?_, ?_⟩
    · intro r
      rw [ht]
      show r ∈ (createDevice _ _ _).1.paths ↔ _
      rw [p1, List.mem_cons, r5]
    · intro x
      rw [ht]
      show x ∈ (createDevice _ _ _).1.devs ↔ _
      rw [d1, List.mem_append, List.mem_singleton, r6, r4]
    · rw [ht]
      show (createDevice _ _ _).1.out ++ _ = _
      rw [e1, c4, r7, r4]
      rw [show canCreate (removeDevice s d) _ _ = true from hcan]
      simp [N]
  · intro hcan
    rw [← hcc] at hcan
    obtain ⟨p1, d1, e1⟩ := c6 hcan
    refine ⟨?_, ?_, ?_⟩
    · intro r
      rw [ht]
      show r ∈ (createDevice _ _ _).1.paths ↔ _
      rw [p1, r5]
    · intro x
      rw [ht]
      show x ∈ (createDevice _ _ _).1.devs ↔ _
      rw [d1, r6]
    · rw [ht]
      show (createDevice _ _ _).1.out ++ _ = _
      rw [e1, c4, r7]
      rw [show canCreate (removeDevice s d) _ _ = false from hcan]

theorem inv_init : Inv {} := by
  refine ⟨?_, ?_, ?_, ?_, List.Pairwise.nil, ?_, ⟨fun _ => (⟨"", ""⟩, ⟨0, none, none, false, false⟩), ?_, ?_⟩, ?_⟩ <;> simp [hist]

theorem Inv.step {s : State} (h : Inv s) (op : Op) : Inv (step s op) := by
  cases op with
  | appear p n =>
    show Inv (appear s p n)
    unfold appear
    split
    · exact h
    · exact h.of_same rfl rfl rfl rfl rfl (fun _ => rfl)
  | getReady p => exact h.of_same rfl rfl rfl rfl rfl (fun _ => rfl)
  | vanish p => exact h.of_same rfl rfl rfl rfl rfl (fun _ => rfl)
  | add p => exact (add_cases h p).1
  | remove id =>
    show Inv (match s.known[id]? with | some d => removeDevice s d | none => s)
    split
    · rename_i d hd; exact (removeDevice_spec h d (List.mem_of_getElem? hd)).1
    · exact h
  | suspend => exact (disable_spec h).1
  | resume => exact (enableAll_spec h s.paths (fun _ hr => hr)).1
  | changeSeat id name =>
    show Inv (match s.known[id]? with | some d => changeSeat s d name | none => s)
    split
    · rename_i d hd
      cases name with
      | none => exact h.result _
      | some name => exact (changeSeat_cases h (List.mem_of_getElem? hd) name).1
    · exact h

theorem Inv.run {s : State} (h : Inv s) (ops : List Op) : Inv (run s ops) := by
  induction ops generalizing s with
  | nil => exact h
  | cons op ops ih => exact ih (h.step op)

end Libinput.Backend.PathSeat
