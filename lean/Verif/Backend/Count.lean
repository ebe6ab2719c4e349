import Verif.Backend.Udev

/-! Invariants of any run: numbers of devices, the events about each of them, and one device per path on a seat. -/
namespace Libinput.Backend

/-- The events about device `i`. -/
def Ev.about (i : Nat) : Ev → Bool
  | .added d => d.id == i
  | .removed j => j == i
  | .result _ => false

def hist (s : State) (i : Nat) : List Ev := s.out.filter (Ev.about i)

/-- A device that may be used on the assigned seat. -/
def Fits (s : State) (p : Path) (n : Node) : Prop :=
  isEvent p = true ∧ n.usable = true ∧ n.ignored = false ∧ s.seatId = some (n.idSeat.getD "seat0")

structure Inv1 (s : State) : Prop where
  hk : ∀ (i : Nat) (d : Dev), s.known[i]? = some d → d.id = i
  hd : ∀ d ∈ s.devs, d ∈ s.known
  hseat : ∀ d ∈ s.devs, d.seat ∈ s.seats
  hu : ∀ a ∈ s.devs, ∀ b ∈ s.devs, a.seat = b.seat → a.path = b.path → a = b
  ho : ∀ i, hist s i = match s.known[i]? with
    | none => []
    | some d => .added d :: if d ∈ s.devs then [] else [.removed i]
  hq : ∀ d ∈ s.known, Fits s d.path d.node
  hr : ∀ p n, s.reading = some (p, n) → isEvent p = true

theorem Inv1.known_id {s : State} (h : Inv1 s) {d : Dev} (hd : d ∈ s.known) : s.known[d.id]? = some d := by
  obtain ⟨i, hi⟩ := List.getElem?_of_mem hd
  have := h.hk i d hi
  rw [this]; exact hi

theorem Inv1.id_inj {s : State} (h : Inv1 s) {a b : Dev} (ha : a ∈ s.known) (hb : b ∈ s.known) (e : a.id = b.id) : a = b := by
  have h1 := h.known_id ha
  have h2 := h.known_id hb
  rw [e, h2] at h1
  exact (Option.some.inj h1).symm

/-- Steps that leave the devices alone and do not say anything about them. -/
theorem Inv1.of_same {s t : State} (h : Inv1 s) (hk : t.known = s.known) (hd : t.devs = s.devs) (hs : t.seats = s.seats) (hid : s.seatId = none ∨ t.seatId = s.seatId)
    (ho : ∀ i, hist t i = hist s i) (hr : ∀ p n, t.reading = some (p, n) → isEvent p = true) : Inv1 t := by
  refine ⟨by rw [hk]; exact h.hk, by rw [hk, hd]; exact h.hd, by rw [hs, hd]; exact h.hseat, by rw [hd]; exact h.hu, ?_, ?_, hr⟩
  · intro i; rw [ho, hk, hd]; exact h.ho i
  · intro d hm
    rw [hk] at hm
    obtain ⟨a, b, c, e⟩ := h.hq d hm
    rcases hid with hn | hid
    · rw [hn] at e; exact absurd e (by simp)
    · exact ⟨a, b, c, by rw [hid]; exact e⟩

theorem hist_result (s : State) (b : Bool) (i : Nat) (t : State) (ht : t.out = s.out ++ [.result b]) : hist t i = hist s i := by
  simp [hist, ht, Ev.about]

theorem Inv1.result {s : State} (h : Inv1 s) (b : Bool) : Inv1 { s with out := s.out ++ [.result b] } :=
  h.of_same rfl rfl rfl (Or.inr rfl) (fun i => hist_result s b i _ rfl) h.hr

theorem removeDev_inv1 {s : State} (h : Inv1 s) {d : Dev} (hd : d ∈ s.devs) : Inv1 (removeDev s d) := by
  have hdk := h.hd d hd
  refine ⟨h.hk, ?_, ?_, ?_, ?_, h.hq, h.hr⟩
  · intro x hx; exact h.hd x (List.mem_filter.mp hx).1
  · intro x hx; exact h.hseat x (List.mem_filter.mp hx).1
  · intro a ha b hb
    exact h.hu a (List.mem_filter.mp ha).1 b (List.mem_filter.mp hb).1
  · intro i
    show (s.out ++ [Ev.removed d.id]).filter (Ev.about i) = _
    rw [List.filter_append]
    show hist s i ++ _ = _
    rw [h.ho i]
    by_cases e : d.id = i
    · subst e
      rw [show (removeDev s d).known = s.known from rfl, h.known_id hdk]
      simp [hd, Ev.about, removeDev]
    · rw [show (removeDev s d).known = s.known from rfl]
      have : List.filter (Ev.about i) [Ev.removed d.id] = [] := by simp [Ev.about, e]
      rw [this, List.append_nil]
      cases hki : s.known[i]? with
      | none => rfl
      | some x =>
        have hxi := h.hk i x hki
        have : (x ∈ (removeDev s d).devs) ↔ x ∈ s.devs := by
          simp only [removeDev, List.mem_filter]
          constructor
          · exact fun h => h.1
          · intro hx; refine ⟨hx, ?_⟩
            have : x.id ≠ d.id := by rw [hxi]; exact fun h => e h.symm
            simpa using this
        simp only [this]

/-- Everything that removing devices leaves alone. -/
structure Same (s t : State) : Prop where
  sys : t.sys = s.sys
  serial : t.serial = s.serial
  monitor : t.monitor = s.monitor
  source : t.source = s.source
  queue : t.queue = s.queue
  scan : t.scan = s.scan
  reading : t.reading = s.reading
  seatId : t.seatId = s.seatId

theorem Same.refl (s : State) : Same s s := ⟨rfl, rfl, rfl, rfl, rfl, rfl, rfl, rfl⟩

theorem Same.trans {a b c : State} (h : Same a b) (k : Same b c) : Same a c :=
  ⟨k.sys.trans h.sys, k.serial.trans h.serial, k.monitor.trans h.monitor, k.source.trans h.source, k.queue.trans h.queue, k.scan.trans h.scan, k.reading.trans h.reading,
    k.seatId.trans h.seatId⟩

/-- The part of `Same` that removals have on top. -/
structure Rem (s t : State) : Prop extends Same s t where
  known : t.known = s.known
  seats : t.seats = s.seats

theorem Rem.refl (s : State) : Rem s s := ⟨Same.refl s, rfl, rfl⟩

theorem Rem.trans {a b c : State} (h : Rem a b) (k : Rem b c) : Rem a c := ⟨h.toSame.trans k.toSame, k.known.trans h.known, k.seats.trans h.seats⟩

theorem removeDev_rem (s : State) (d : Dev) : Rem s (removeDev s d) := ⟨⟨rfl, rfl, rfl, rfl, rfl, rfl, rfl, rfl⟩, rfl, rfl⟩

theorem removeOn_spec {s : State} (h : Inv1 s) (path : Path) (seat : String) :
    Inv1 (removeOn path s seat) ∧ Rem s (removeOn path s seat) ∧
    ∀ d, d ∈ (removeOn path s seat).devs ↔ d ∈ s.devs ∧ ¬ (d.seat = seat ∧ d.path = path) := by
  unfold removeOn
  cases hf : s.devs.find? (fun d => d.seat = seat && d.path = path) with
  | none =>
    refine ⟨h, Rem.refl s, ?_⟩
    rw [List.find?_eq_none] at hf
    intro d
    constructor
    · intro hd; exact ⟨hd, by simpa using hf d hd⟩
    · exact fun h => h.1
  | some x =>
    have hx := List.mem_of_find?_eq_some hf
    have hp := List.find?_some hf
    simp only [Bool.and_eq_true, decide_eq_true_eq] at hp
    refine ⟨removeDev_inv1 h hx, removeDev_rem s x, ?_⟩
    intro d
    simp only [removeDev, List.mem_filter, decide_eq_true_eq, ne_eq]
    constructor
    · rintro ⟨hd, hn⟩
      refine ⟨hd, ?_⟩
      rintro ⟨h1, h2⟩
      exact hn (by rw [h.hu d hd x hx (h1.trans hp.1.symm) (h2.trans hp.2.symm)])
    · rintro ⟨hd, hn⟩
      refine ⟨hd, ?_⟩
      intro e
      have := h.id_inj (h.hd d hd) (h.hd x hx) e
      subst this
      exact hn hp

theorem foldl_removeOn {s : State} (h : Inv1 s) (path : Path) (l : List String) :
    Inv1 (l.foldl (removeOn path) s) ∧ Rem s (l.foldl (removeOn path) s) ∧
    ∀ d, d ∈ (l.foldl (removeOn path) s).devs ↔ d ∈ s.devs ∧ ¬ (d.seat ∈ l ∧ d.path = path) := by
  induction l generalizing s with
  | nil => exact ⟨h, Rem.refl s, by simp⟩
  | cons x l ih =>
    obtain ⟨h1, r1, m1⟩ := removeOn_spec h path x
    obtain ⟨h2, r2, m2⟩ := ih h1
    refine ⟨h2, r1.trans r2, ?_⟩
    intro d
    rw [List.foldl_cons, m2, m1, List.mem_cons]
    grind

theorem deviceRemoved_spec {s : State} (h : Inv1 s) (path : Path) :
    Inv1 (deviceRemoved s path) ∧ Rem s (deviceRemoved s path) ∧ ∀ d, d ∈ (deviceRemoved s path).devs ↔ d ∈ s.devs ∧ d.path ≠ path := by
  obtain ⟨a, b, c⟩ := foldl_removeOn h path s.seats
  refine ⟨a, b, ?_⟩
  intro d
  unfold deviceRemoved
  rw [c]
  constructor
  · rintro ⟨hd, hn⟩; exact ⟨hd, fun e => hn ⟨h.hseat d hd, e⟩⟩
  · rintro ⟨hd, hn⟩; exact ⟨hd, fun e => hn e.2⟩

theorem foldl_removeDev {s : State} (h : Inv1 s) (l : List Dev) (hl : ∀ d ∈ l, d ∈ s.devs) (hn : l.Pairwise (fun a b => a.id ≠ b.id)) :
    Inv1 (l.foldl removeDev s) ∧ Rem s (l.foldl removeDev s) ∧ ∀ d, d ∈ (l.foldl removeDev s).devs ↔ d ∈ s.devs ∧ d ∉ l := by
  induction l generalizing s with
  | nil => exact ⟨h, Rem.refl s, by simp⟩
  | cons x l ih =>
    have hx := hl x List.mem_cons_self
    rw [List.pairwise_cons] at hn
    have hl' : ∀ d ∈ l, d ∈ (removeDev s x).devs := by
      intro d hd
      simp only [removeDev, List.mem_filter, decide_eq_true_eq, ne_eq]
      exact ⟨hl d (List.mem_cons_of_mem _ hd), fun e => hn.1 d hd e.symm⟩
    obtain ⟨h2, r2, m2⟩ := ih (removeDev_inv1 h hx) hl' hn.2
    refine ⟨h2, (removeDev_rem s x).trans r2, ?_⟩
    intro d
    rw [List.foldl_cons, m2]
    simp only [removeDev, List.mem_filter, decide_eq_true_eq, ne_eq, List.mem_cons]
    constructor
    · rintro ⟨⟨hd, hne⟩, hnl⟩
      refine ⟨hd, ?_⟩
      rintro (rfl | e)
      · exact hne rfl
      · exact hnl e
    · rintro ⟨hd, hne⟩
      refine ⟨⟨hd, ?_⟩, fun e => hne (Or.inr e)⟩
      intro e
      exact hne (Or.inl (h.id_inj (h.hd d hd) (h.hd x hx) e))

/-- No device is twice in the list. -/
def Once (s : State) : Prop := s.devs.Pairwise (fun a b => a.id ≠ b.id)

theorem removeDev_once {s : State} (h : Once s) (d : Dev) : Once (removeDev s d) := List.Pairwise.filter _ h

theorem removeOn_once {s : State} (h : Once s) (p : Path) (q : String) : Once (removeOn p s q) := by
  unfold removeOn
  split
  · exact removeDev_once h _
  · exact h

theorem foldl_once {α : Type} (f : State → α → State) (hf : ∀ s a, Once s → Once (f s a)) (l : List α) {s : State} (h : Once s) : Once (l.foldl f s) := by
  induction l generalizing s with
  | nil => exact h
  | cons x l ih => exact ih (hf s x h)

theorem removeDevices_aux {s : State} (h : Inv1 s) (hn : Once s) (l : List String) :
    let f := fun (s : State) seat => (s.devs.filter fun d => d.seat = seat).foldl removeDev s
    Inv1 (l.foldl f s) ∧ Rem s (l.foldl f s) ∧ ∀ d, d ∈ (l.foldl f s).devs ↔ d ∈ s.devs ∧ d.seat ∉ l := by
  intro f
  induction l generalizing s with
  | nil => exact ⟨h, Rem.refl s, by simp⟩
  | cons x l ih =>
    obtain ⟨h1, r1, m1⟩ := foldl_removeDev h (s.devs.filter fun d => d.seat = x) (fun d hd => (List.mem_filter.mp hd).1) (List.Pairwise.filter _ hn)
    obtain ⟨h2, r2, m2⟩ := ih h1 (foldl_once _ (fun s a k => removeDev_once k a) _ hn)
    refine ⟨h2, r1.trans r2, ?_⟩
    intro d
    rw [List.foldl_cons, m2]
    show d ∈ (List.foldl removeDev s _).devs ∧ _ ↔ _
    rw [m1]
    simp only [List.mem_filter, decide_eq_true_eq, List.mem_cons]
    grind

theorem removeDevices_spec {s : State} (h : Inv1 s) (hn : Once s) :
    Inv1 (removeDevices s) ∧ Rem s (removeDevices s) ∧ (removeDevices s).devs = [] ∧ Once (removeDevices s) := by
  obtain ⟨a, b, c⟩ := removeDevices_aux h hn s.seats
  refine ⟨a, b, ?_, foldl_once _ (fun s a k => foldl_once _ (fun s a k => removeDev_once k a) _ k) _ hn⟩
  apply List.eq_nil_iff_forall_not_mem.mpr
  intro d hd
  have := (c d).mp hd
  exact this.2 (h.hseat d this.1)

/-- What `device_added` does: nothing, or one more device. -/
theorem deviceAdded_cases (s : State) (path : Path) (n : Node) (name : Option String) :
    (deviceAdded s path n name = s ∧
      (s.seatId ≠ some (n.idSeat.getD "seat0") ∨ n.ignored = true ∨ (∃ d ∈ s.devs, d.seat = (name.or n.wlSeat).getD "default" ∧ d.path = path) ∨ canCreate s path n = false)) ∨
    (s.seatId = some (n.idSeat.getD "seat0") ∧ n.ignored = false ∧ (∀ d ∈ s.devs, ¬ (d.seat = (name.or n.wlSeat).getD "default" ∧ d.path = path)) ∧ canCreate s path n = true ∧
      deviceAdded s path n name = { s with
        seats := if (name.or n.wlSeat).getD "default" ∈ s.seats then s.seats else (name.or n.wlSeat).getD "default" :: s.seats
        devs := s.devs ++ [⟨s.known.length, path, n, (name.or n.wlSeat).getD "default"⟩]
        known := s.known ++ [⟨s.known.length, path, n, (name.or n.wlSeat).getD "default"⟩]
        out := s.out ++ [.added ⟨s.known.length, path, n, (name.or n.wlSeat).getD "default"⟩] }) := by
  unfold deviceAdded
  by_cases h1 : some (n.idSeat.getD "seat0") ≠ s.seatId
  · rw [if_pos h1]; exact Or.inl ⟨rfl, Or.inl fun e => h1 e.symm⟩
  · rw [if_neg h1]
    by_cases h2 : n.ignored = true
    · rw [if_pos h2]; exact Or.inl ⟨rfl, Or.inr (Or.inl h2)⟩
    · rw [if_neg h2]
      by_cases h3 : filterDuplicates s ((name.or n.wlSeat).getD "default") path = true
      · simp only [h3, if_true]
        refine Or.inl ⟨trivial, Or.inr (Or.inr (Or.inl ?_))⟩
        simpa [filterDuplicates] using h3
      · simp only [h3, Bool.false_eq_true, if_false]
        by_cases h4 : canCreate s path n = true
        · simp only [h4, if_true]
          refine Or.inr ⟨(Classical.not_not.mp h1).symm, by simpa using h2, ?_, trivial, trivial⟩
          simpa [filterDuplicates] using h3
        · simp only [h4, Bool.false_eq_true, if_false]
          exact Or.inl ⟨trivial, Or.inr (Or.inr (Or.inr (by simpa using h4)))⟩

theorem deviceAdded_same (s : State) (path : Path) (n : Node) (name : Option String) : Same s (deviceAdded s path n name) := by
  rcases deviceAdded_cases s path n name with ⟨e, -⟩ | ⟨-, -, -, -, e⟩ <;> rw [e]
  · exact Same.refl s
  · exact ⟨rfl, rfl, rfl, rfl, rfl, rfl, rfl, rfl⟩

theorem deviceAdded_inv1 {s : State} (h : Inv1 s) (path : Path) (n : Node) (name : Option String) (he : isEvent path = true) : Inv1 (deviceAdded s path n name) := by
  rcases deviceAdded_cases s path n name with ⟨e, -⟩ | ⟨hs, hi, hf, hc, e⟩ <;> rw [e]
  · exact h
  · generalize hN : (⟨s.known.length, path, n, (name.or n.wlSeat).getD "default"⟩ : Dev) = N
    have hid : N.id = s.known.length := by rw [← hN]
    have hNk : N ∉ s.known := by
      intro hm
      have := h.known_id hm
      rw [hid, List.getElem?_eq_none (Nat.le_refl _)] at this
      cases this
    refine ⟨?_, ?_, ?_, ?_, ?_, ?_, h.hr⟩
    · intro i d hd
      rw [List.getElem?_append] at hd
      split at hd
      · exact h.hk i d hd
      · rename_i hlt
        cases hj : i - s.known.length with
        | zero =>
          rw [hj] at hd
          simp only [List.getElem?_cons_zero, Option.some.injEq] at hd
          rw [← hd, hid]; omega
        | succ j => rw [hj] at hd; simp at hd
    · intro d hd
      rcases List.mem_append.mp hd with hd | hd
      · exact List.mem_append_left _ (h.hd d hd)
      · exact List.mem_append_right _ hd
    · intro d hd
      show d.seat ∈ (if _ then _ else _)
      rcases List.mem_append.mp hd with hd | hd
      · have := h.hseat d hd
        split
        · exact this
        · exact List.mem_cons_of_mem _ this
      · rw [List.mem_singleton] at hd
        subst hd; subst hN
        split
        · assumption
        · exact List.mem_cons_self
    · intro a ha b hb es ep
      rcases List.mem_append.mp ha with ha1 | ha1 <;> rcases List.mem_append.mp hb with hb1 | hb1
      · exact h.hu a ha1 b hb1 es ep
      · rw [List.mem_singleton] at hb1; subst hb1; subst hN
        exact absurd ⟨es, ep⟩ (hf a ha1)
      · rw [List.mem_singleton] at ha1; subst ha1; subst hN
        exact absurd ⟨es.symm, ep.symm⟩ (hf b hb1)
      · rw [List.mem_singleton] at ha1 hb1; rw [ha1, hb1]
    · intro i
      show (s.out ++ [Ev.added N]).filter (Ev.about i) = match (s.known ++ [N])[i]? with
        | none => []
        | some d => .added d :: if d ∈ s.devs ++ [N] then [] else [.removed i]
      rw [List.filter_append]
      show hist s i ++ _ = _
      rw [h.ho i, List.getElem?_append]
      by_cases hlt : i < s.known.length
      · rw [if_pos hlt]
        have : List.filter (Ev.about i) [Ev.added N] = [] := by
          simp [Ev.about, hid]; omega
        rw [this, List.append_nil]
        cases hki : s.known[i]? with
        | none => rfl
        | some x =>
          have hx : x ≠ N := fun e => hNk (e ▸ List.mem_of_getElem? hki)
          simp [hx]
      · rw [if_neg hlt, List.getElem?_eq_none (by omega)]
        cases hj : i - s.known.length with
        | zero =>
          have : i = s.known.length := by omega
          simp [Ev.about, hid, this]
        | succ j =>
          have : ¬ s.known.length = i := by omega
          simp [Ev.about, hid, this]
    · intro d hd
      rcases List.mem_append.mp hd with hd | hd
      · exact h.hq d hd
      · rw [List.mem_singleton] at hd
        subst hd; subst hN
        simp only [canCreate, Bool.and_eq_true] at hc
        exact ⟨he, hc.1, hi, hs⟩

theorem deviceAdded_once {s : State} (h : Inv1 s) (ho : Once s) (path : Path) (n : Node) (name : Option String) : Once (deviceAdded s path n name) := by
  rcases deviceAdded_cases s path n name with ⟨e, -⟩ | ⟨-, -, -, -, e⟩ <;> rw [e]
  · exact ho
  · refine List.pairwise_append.mpr ⟨ho, List.pairwise_singleton _ _, ?_⟩
    intro a ha b hb
    rw [List.mem_singleton] at hb
    subst hb
    intro e
    have := h.known_id (h.hd a ha)
    rw [e, List.getElem?_eq_none (Nat.le_refl _)] at this
    cases this

/-! ### All steps -/

structure Base (s : State) : Prop where
  inv : Inv1 s
  once : Once s

theorem post_same (s : State) (m : Msg) : post s m = s ∨ post s m = { s with queue := s.queue ++ [m] } := by
  unfold post; split
  · exact Or.inr rfl
  · exact Or.inl rfl

theorem Base.of_same {s t : State} (h : Base s) (hk : t.known = s.known) (hd : t.devs = s.devs) (hs : t.seats = s.seats) (hid : s.seatId = none ∨ t.seatId = s.seatId)
    (ho : ∀ i, hist t i = hist s i) (hr : ∀ p n, t.reading = some (p, n) → isEvent p = true) : Base t :=
  ⟨h.inv.of_same hk hd hs hid ho hr, by unfold Once; rw [hd]; exact h.once⟩

theorem Base.post {s : State} (h : Base s) (m : Msg) : Base (post s m) := by
  rcases post_same s m with e | e <;> rw [e]
  · exact h
  · exact h.of_same rfl rfl rfl (Or.inr rfl) (fun _ => rfl) h.inv.hr

theorem Base.sys {s : State} (h : Base s) (l : List Entry) (k : Nat) : Base { s with sys := l, serial := k } :=
  h.of_same rfl rfl rfl (Or.inr rfl) (fun _ => rfl) h.inv.hr

theorem Base.deviceAdded {s : State} (h : Base s) (path : Path) (n : Node) (name : Option String) (he : isEvent path = true) : Base (deviceAdded s path n name) :=
  ⟨deviceAdded_inv1 h.inv path n name he, deviceAdded_once h.inv h.once path n name⟩

theorem Base.deviceRemoved {s : State} (h : Base s) (path : Path) : Base (deviceRemoved s path) :=
  ⟨(deviceRemoved_spec h.inv path).1, foldl_once _ (fun _ _ k => removeOn_once k _ _) _ h.once⟩

theorem Base.result {s : State} (h : Base s) (b : Bool) : Base { s with out := s.out ++ [.result b] } := ⟨h.inv.result b, h.once⟩

theorem Base.enable {s : State} (h : Base s) (f : Option Fault) : Base (enable s f) := by
  unfold Backend.enable
  split
  · exact h.result _
  · split
    · exact h.result _
    · exact h.of_same rfl rfl rfl (Or.inr rfl) (fun i => hist_result s false i _ rfl) h.inv.hr
    · exact h.result _
    · exact h.result _
    · exact h.of_same rfl rfl rfl (Or.inr rfl) (fun _ => rfl) h.inv.hr

theorem Base.assign {s : State} (h : Base s) (id : Option String) (f : Option Fault) : Base (assign s id f) := by
  unfold Backend.assign
  split
  · exact h.result _
  · rename_i i
    split
    · exact h.result _
    · split
      · exact h.result _
      · rename_i hsn
        have h' : Base { s with seatId := some i } := h.of_same rfl rfl rfl (Or.inl (by simpa using hsn)) (fun _ => rfl) h.inv.hr
        exact h'.enable _

theorem Base.changeSeat {s : State} (h : Base s) (id : Nat) (name : Option String) : Base (changeSeat s id name) := by
  unfold Backend.changeSeat
  split
  · exact h
  · exact h.result _
  · rename_i d name hd
    exact Base.result (Base.deviceAdded (h.deviceRemoved _) _ _ _ (h.inv.hq d (List.mem_of_getElem? hd)).1) _

theorem Base.step {s t : State} (h : Base s) (op : Op) (hs : step s op = some t) : Base t := by
  unfold Backend.step at hs
  split at hs
  · simp only [Option.some.injEq] at hs; subst hs
    unfold appear
    split
    · exact h
    · exact h.sys _ _
  · simp only [Option.some.injEq] at hs; subst hs
    unfold getReady
    split
    · split
      · exact h
      · exact (h.sys _ s.serial).post _
    · exact h
  · simp only [Option.some.injEq] at hs; subst hs
    unfold vanish
    split
    · exact (h.sys _ s.serial).post _
    · exact h
  · simp only [Option.some.injEq] at hs; subst hs
    unfold notify
    split
    · exact h.post _
    · exact h
  · simp only [Option.some.injEq] at hs; subst hs
    unfold scanStep
    split
    · exact h
    · split
      · rename_i p n hr
        have h' : Base { s with reading := none } := h.of_same rfl rfl rfl (Or.inr rfl) (fun _ => rfl) (by simp)
        exact h'.deviceAdded p n none (h.inv.hr p n hr)
      · split
        · exact h.of_same rfl rfl rfl (Or.inr rfl) (fun i => hist_result s true i _ rfl) h.inv.hr
        · split
          · exact h.of_same rfl rfl rfl (Or.inr rfl) (fun _ => rfl) h.inv.hr
          · split
            · exact h.of_same rfl rfl rfl (Or.inr rfl) (fun _ => rfl) h.inv.hr
            · split
              · exact h.of_same rfl rfl rfl (Or.inr rfl) (fun _ => rfl) h.inv.hr
              · rename_i he _
                refine h.of_same rfl rfl rfl (Or.inr rfl) (fun _ => rfl) ?_
                intro p n hpn
                simp only [Option.some.injEq, Prod.mk.injEq] at hpn
                rw [← hpn.1]; simpa using he
  · split at hs
    · simp only [Option.some.injEq] at hs; subst hs; exact h
    · split at hs
      · simp only [Option.some.injEq] at hs; subst hs
        split
        · unfold handler
          split
          · exact h
          · rename_i m q hq
            have h' : Base { s with queue := q } := h.of_same rfl rfl rfl (Or.inr rfl) (fun _ => rfl) h.inv.hr
            simp only
            split
            · exact h'
            · rename_i he
              split
              · exact h'.deviceAdded _ _ _ (by simpa using he)
              · exact h'.deviceRemoved _
              · exact h'
        · exact h
      · simp only [Option.some.injEq] at hs; subst hs
        exact h.assign _ _
      · unfold disable at hs
        split at hs
        · simp only [Option.some.injEq] at hs; subst hs; exact h
        · split at hs
          · cases hs
          · simp only [Option.some.injEq] at hs; subst hs
            have h' : Base { s with monitor := false, source := false, queue := [] } := h.of_same rfl rfl rfl (Or.inr rfl) (fun _ => rfl) h.inv.hr
            obtain ⟨a, -, -, b⟩ := removeDevices_spec h'.inv h'.once
            exact ⟨a, b⟩
      · simp only [Option.some.injEq] at hs; subst hs
        exact h.enable _
      · simp only [Option.some.injEq] at hs; subst hs
        exact h.changeSeat _ _
      · simp only [Option.some.injEq] at hs; subst hs; exact h

theorem base_init : Base {} := by
  refine ⟨⟨?_, ?_, ?_, ?_, ?_, ?_, ?_⟩, List.Pairwise.nil⟩ <;> simp [hist]

theorem Base.run {s t : State} (h : Base s) (ops : List Op) (hr : run s ops = some t) : Base t := by
  induction ops generalizing s with
  | nil => simp only [Backend.run, Option.some.injEq] at hr; exact hr ▸ h
  | cons op ops ih =>
    simp only [Backend.run, Option.bind_eq_some_iff] at hr
    obtain ⟨u, h1, h2⟩ := hr
    exact ih (h.step op h1) h2

end Libinput.Backend
