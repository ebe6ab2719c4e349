import Verif.Refs.Steps
/-
C30: an object lives exactly as long as something holds it.
-/
namespace Libinput.Refs
open Spec

/-! ### A check for examples: is a history one of a careful caller? -/

def there (s : State) (i : Nat) : Bool :=
  match s.heap[i]? with
  | some o => o.alive
  | none => false

def careful (s : State) (c : Client) : Op → Bool
  | .remove d _ => there s d && (match s.heap[d]? with | some o => rank o.kind == 1 | none => false)
  | .post d _ => match s.heap[d]? with | some o => o.linked | none => false
  | .destroyEvent e => c.held.contains e
  | .ref i => there s i && (match s.heap[i]? with | some o => rank o.kind != 2 | none => false)
  | .unref i => decide (0 < c.refs i) && (match s.heap[i]? with
    | some o => (match o.home with | some h => there s h | none => true)
    | none => true)
  | _ => true

def allCareful (s : State) (c : Client) : List Op → Bool
  | [] => true
  | op :: ops => careful s c op && (match step s op with | .ok s' => allCareful s' (c.after s op) ops | .error _ => false)

theorem there_reach {s c} (h : Inv (fun _ => 0) [] s c) {i : Nat} (hi : there s i = true) : Reach s c i := by
  unfold there at hi
  split at hi
  · exact (reach_iff h i).mpr ⟨_, ‹_›, hi⟩
  · cases hi

theorem careful_allowed {s c} {op : Op} (h : Inv (fun _ => 0) [] s c) (ho : careful s c op = true) : Allowed s c op := by
  cases op with
  | remove d notes =>
    simp only [careful, Bool.and_eq_true] at ho
    obtain ⟨h1, h2⟩ := ho
    refine ⟨there_reach h h1, ?_⟩
    split at h2
    · obtain ⟨sys, st, hk⟩ := rank_one (by simpa using h2)
      exact ⟨_, sys, st, ‹_›, hk⟩
    · cases h2
  | post d n =>
    simp only [careful] at ho
    split at ho
    · exact ⟨_, ‹_›, ho⟩
    · cases ho
  | destroyEvent e => simpa [careful, Allowed] using ho
  | ref i =>
    simp only [careful, Bool.and_eq_true] at ho
    obtain ⟨h1, h2⟩ := ho
    refine ⟨there_reach h h1, ?_⟩
    split at h2
    · refine ⟨_, ‹_›, ?_⟩
      intro d hd
      rw [hd] at h2
      simp [rank] at h2
    · cases h2
  | unref i =>
    simp only [careful, Bool.and_eq_true, decide_eq_true_eq] at ho
    obtain ⟨h1, h2⟩ := ho
    refine ⟨h1, ?_⟩
    intro o x hx hh
    rw [hx] at h2
    simp only [hh] at h2
    exact there_reach h h2
  | _ => trivial

theorem allCareful_history (ops : List Op) : ∀ {s c}, Inv (fun _ => 0) [] s c → Seated none s → allCareful s c ops = true →
    History s c ops := by
  induction ops with
  | nil => intro s c _ _ _; trivial
  | cons op ops ih =>
    intro s c h hse ho
    simp only [allCareful, Bool.and_eq_true] at ho
    obtain ⟨h1, h2⟩ := ho
    have ha := careful_allowed h h1
    refine ⟨ha, fun s' hs' => ?_⟩
    obtain ⟨s1, e1, i1, se1⟩ := step_ok h hse ha
    rw [hs'] at e1
    cases e1
    rw [hs'] at h2
    exact ih i1 se1 h2

theorem careful_history {udev : Bool} {ops : List Op} (h : allCareful (init udev) Client.nothing ops = true) :
    History (init udev) Client.nothing ops :=
  allCareful_history ops (init_inv udev) (init_seated udev) h

/-- A tablet sends a tool event; the caller keeps the tablet and the tool, destroys the events, the tablet is removed,
the caller gives up the tool and then the tablet.  Meanwhile a pad comes. -/
def sample : List Op :=
  [.add 0 1 none (.device 0), .post 1 (.tool 7 0), .getEvent, .getEvent, .ref 1, .ref 4, .destroyEvent 3, .destroyEvent 5,
   .remove 1 [.tool 7 0, .plain], .getEvent, .destroyEvent 6, .unref 4, .add 1 2 (some 3) (.device 2), .getEvent, .destroyEvent 7,
   .getEvent, .destroyEvent 8, .unref 1]

/-! ### C30 -/

/-- For every history of a careful caller: no assertion fails and nothing is used after it was freed, and the objects
which are there are the ones that can be reached from the context's lists, the unread events, and what the caller has. -/
theorem alive_iff_reachable (udev : Bool) (ops : List Op) (h : History (init udev) Client.nothing ops) :
    ∃ s, run (init udev) ops = .ok s ∧
      ∀ i, (∃ o, s.heap[i]? = some o ∧ o.alive = true) ↔ Reach s (Client.nothing.over (init udev) ops) i := by
  obtain ⟨s, e, i, _⟩ := run_ok ops (init_inv udev) (init_seated udev) h
  exact ⟨s, e, fun j => (reach_iff i j).symm⟩

example (udev : Bool) : History (init udev) Client.nothing sample := careful_history (by cases udev <;> decide +kernel)

/-- In that history the tablet is there until the caller gives it up, after the last event about it. -/
example : ((run (init true) (sample.take 17)).map (fun s => there s 1) = .ok true) ∧
    ((run (init true) sample).map (fun s => there s 1) = .ok false) := ⟨rfl, rfl⟩

/-- A device is there as long as it is in its seat's list, an unread event or one the caller has is about it, or the caller
has a reference, and not longer. -/
theorem device_alive_iff (udev : Bool) (ops : List Op) (h : History (init udev) Client.nothing ops) {s : State}
    (hs : run (init udev) ops = .ok s) {d : Nat} {o : Obj} {sys seat : Nat} (hd : s.heap[d]? = some o) (hk : o.kind = .dev sys seat) :
    o.alive = true ↔
      o.linked = true ∨
      (∃ e oe, (e ∈ s.queue ∨ e ∈ (Client.nothing.over (init udev) ops).held) ∧ s.heap[e]? = some oe ∧ oe.kind = .event d) ∨
      0 < (Client.nothing.over (init udev) ops).refs d := by
  obtain ⟨s', e, inv, _⟩ := run_ok ops (init_inv udev) (init_seated udev) h
  rw [hs] at e
  cases e
  generalize Client.nothing.over (init udev) ops = c at inv ⊢
  have ev : ∀ {x : Nat} {ox : Obj}, Reach s c x → s.heap[x]? = some ox → rank ox.kind = 2 → x ∈ s.queue ∨ x ∈ c.held := by
    intro x ox hr hx hrk
    cases hr with
    | device a b =>
      rw [hx] at a
      cases a
      obtain ⟨_, _, hk⟩ := inv.wf.linked x ox hx b
      rw [hk] at hrk
      cases hrk
    | seat a b _ =>
      rw [hx] at a
      cases a
      rw [b] at hrk
      cases hrk
    | tool a b _ =>
      rw [hx] at a
      cases a
      rw [b] at hrk
      cases hrk
    | unread a => exact .inl a
    | event a => exact .inr a
    | caller a =>
      obtain ⟨o', a1, a2⟩ := inv.wf.refs x a
      rw [hx] at a1
      cases a1
      cases hkk : ox.kind with
      | event d => exact absurd hkk (a2 d)
      | _ => rw [hkk] at hrk; cases hrk
    | @via _ oy _ a b m =>
      obtain ⟨ox', a1, a2, _⟩ := inv.wf.out _ _ b x m
      rw [hx] at a1
      cases a1
      have : rank oy.kind ≤ 2 := by cases oy.kind <;> simp [rank]
      omega
  constructor
  · intro ha
    have hr := (reach_iff inv d).mpr ⟨o, hd, ha⟩
    cases hr with
    | device a b =>
      rw [hd] at a
      cases a
      exact .inl b
    | seat a b _ =>
      rw [hd] at a
      cases a
      rw [hk] at b
      cases b
    | tool a b _ =>
      rw [hd] at a
      cases a
      rw [hk] at b
      cases b
    | unread a =>
      obtain ⟨o', d', a1, a2⟩ := inv.wf.events d (.inl a)
      rw [hd] at a1
      cases a1
      rw [hk] at a2
      cases a2
    | event a =>
      obtain ⟨o', d', a1, a2⟩ := inv.wf.events d (.inr a)
      rw [hd] at a1
      cases a1
      rw [hk] at a2
      cases a2
    | caller a => exact .inr (.inr a)
    | @via x ox _ a b m =>
      obtain ⟨od, a1, a2, _⟩ := inv.wf.out x ox b d m
      rw [hd] at a1
      cases a1
      rw [hk] at a2
      have hx : ∃ e, ox.kind = .event e := by
        cases hkk : ox.kind with
        | event e => exact ⟨e, rfl⟩
        | _ => rw [hkk] at a2; simp [rank] at a2
      obtain ⟨e, he⟩ := hx
      obtain ⟨⟨l, hl, hlr⟩, _⟩ := inv.wf.last x ox e b he
      rw [hl] at m
      simp only [List.mem_append, List.mem_singleton] at m
      rcases m with m | m
      · have := hlr d o m hd
        rw [hk] at this
        cases this
      · subst m
        exact .inr (.inl ⟨x, ox, ev a b (by rw [he]; rfl), b, he⟩)
  · rintro (hl | ⟨e, oe, he, hoe, hke⟩ | hc)
    · exact (linked_alive inv hd hl).1
    · have hr : Reach s c d := by
        obtain ⟨⟨l, hl, _⟩, _⟩ := inv.wf.last e oe d hoe hke
        exact .via (he.elim .unread .event) hoe (by rw [hl]; simp)
      obtain ⟨o', a1, a2⟩ := hr.alive inv
      rw [hd] at a1
      cases a1
      exact a2
    · obtain ⟨o', a1, a2⟩ := (Reach.caller (s := s) hc).alive inv
      rw [hd] at a1
      cases a1
      exact a2

example : ∃ s o, run (init false) (sample.take 17) = .ok s ∧ s.heap[1]? = some o ∧ o.kind = .dev 1 0 ∧ o.alive = true ∧ o.linked = false :=
  ⟨_, _, rfl, rfl, rfl, rfl, rfl⟩

/-! ### The references of an event -/

/-- An event takes one reference to its device and one to its tool or mode group, if any. -/
theorem event_takes {s s' : State} {d : Nat} {ptrs : List Nat} (h : emit s d ptrs = .ok s') :
    s'.queue = s.queue ++ [s.heap.length] ∧
    (∃ oe, s'.heap[s.heap.length]? = some oe ∧ oe.kind = .event d ∧ oe.out = ptrs ++ [d]) ∧
    ∀ (i : Nat) (o : Obj), s.heap[i]? = some o → s'.heap[i]? = some { o with refs := o.refs + (ptrs ++ [d]).count i } := by
  have one : ∀ {s s' : State} {j : Nat}, ref s j = .ok s' → s'.queue = s.queue ∧ s'.heap.length = s.heap.length ∧
      ∀ (i : Nat) (o : Obj), s.heap[i]? = some o → s'.heap[i]? = some { o with refs := o.refs + [j].count i } := by
    intro s s' j h
    obtain ⟨o, h1, h2⟩ := bind_inv h
    obtain ⟨h3, h4⟩ := fetch_inv h1
    cases h2
    refine ⟨rfl, by simp [put], ?_⟩
    intro i oi hi
    by_cases e : j = i
    · subst e
      rw [h3] at hi
      cases hi
      rw [put_get_self h3]
      simp
    · rw [put_get_ne e, hi, List.count_eq_zero.mpr (by simp; exact fun h => e h.symm)]
      rfl
  have many : ∀ (l : List Nat) {s s' : State}, l.foldlM ref s = .ok s' → s'.queue = s.queue ∧ s'.heap.length = s.heap.length ∧
      ∀ (i : Nat) (o : Obj), s.heap[i]? = some o → s'.heap[i]? = some { o with refs := o.refs + l.count i } := by
    intro l
    induction l with
    | nil =>
      intro s s' h
      cases h
      exact ⟨rfl, rfl, fun i o hi => by simpa using hi⟩
    | cons j l ih =>
      intro s s' h
      rw [List.foldlM_cons] at h
      obtain ⟨s1, h1, h2⟩ := bind_inv h
      obtain ⟨a1, a2, a3⟩ := one h1
      obtain ⟨b1, b2, b3⟩ := ih h2
      refine ⟨b1.trans a1, b2.trans a2, fun i o hi => ?_⟩
      rw [b3 i _ (a3 i o hi)]
      simp only [List.count_cons, List.count_nil, Option.some.injEq, Obj.mk.injEq, true_and, and_true]
      omega
  obtain ⟨s1, h1, h2⟩ := bind_inv h
  obtain ⟨s2, h3, h4⟩ := bind_inv h2
  obtain ⟨a1, a2, a3⟩ := many ptrs h1
  obtain ⟨b1, b2, b3⟩ := one h3
  cases h4
  refine ⟨?_, ⟨{ kind := .event d, refs := 1, alive := true, out := ptrs ++ [d], home := none, linked := false }, ?_, rfl, rfl⟩, ?_⟩
  · simp only [alloc, b1, a1, b2, a2]
  · rw [← a2, ← b2]
    exact alloc_new _ _
  · intro i o hi
    have := b3 i _ (a3 i o hi)
    rw [show ∀ q, ({ alloc s2 q with queue := s2.queue ++ [s2.heap.length] } : State).heap[i]? = s2.heap[i]? from
      fun q => alloc_old (lt_of_some this)]
    rw [this]
    simp only [List.count_append, Option.some.injEq, Obj.mk.injEq, true_and, and_true]
    omega

example : ∃ s s', run (init false) (sample.take 1) = .ok s ∧ emit s 1 [] = .ok s' := ⟨_, _, rfl, rfl⟩

/-- Destroying an event whose device stays gives back what the event took, and nothing else. -/
theorem destroyEvent_releases {s s' : State} {e d : Nat} {oe od : Obj} (h : destroyEvent s e = .ok s') (he : s.heap[e]? = some oe)
    (hk : oe.kind = .event d) (hout : ∃ l, oe.out = l ++ [d]) (hd : s'.heap[d]? = some od) (ha : od.alive = true) :
    (∀ (i : Nat) (o : Obj), s.heap[i]? = some o → ∃ o', s'.heap[i]? = some o' ∧ o'.refs + oe.out.count i = o.refs ∧
      o'.out = o.out ∧ o'.linked = o.linked) ∧
    ∃ oe', s'.heap[e]? = some oe' ∧ oe'.alive = false := by
  have many : ∀ (l : List Nat) {s s' : State}, l.foldlM unrefLeaf s = .ok s' →
      ∀ (i : Nat) (o : Obj), s.heap[i]? = some o → ∃ o', s'.heap[i]? = some o' ∧ o'.refs + l.count i = o.refs ∧
      o'.out = o.out ∧ o'.linked = o.linked := by
    intro l
    induction l with
    | nil =>
      intro s s' h
      cases h
      exact fun i o hi => ⟨o, hi, by simp, rfl, rfl⟩
    | cons j l ih =>
      intro s s' h i o hi
      rw [List.foldlM_cons] at h
      obtain ⟨s1, h1, h2⟩ := bind_inv h
      obtain ⟨oj, a1, a2, a3, a4⟩ := unrefLeaf_inv h1
      by_cases e : j = i
      · subst e
        rw [a1, Option.some.injEq] at hi
        subst hi
        have hg : s1.heap[j]? = some { oj with refs := oj.refs - 1, alive := !(oj.refs == 1) } := by rw [a4]; exact put_get_self a1
        obtain ⟨o', b1, b2, b3, b4⟩ := ih h2 j _ hg
        refine ⟨o', b1, ?_, b3, b4⟩
        simp only [List.count_cons_self]
        simp only at b2
        omega
      · have hg : s1.heap[i]? = some o := by rw [a4, put_get_ne e]; exact hi
        obtain ⟨o', b1, b2, b3, b4⟩ := ih h2 i o hg
        refine ⟨o', b1, ?_, b3, b4⟩
        rw [List.count_cons_of_ne (by simpa using e)]
        exact b2
  obtain ⟨o0, h1, h2⟩ := bind_inv h
  obtain ⟨h3, h4⟩ := fetch_inv h1
  rw [he] at h3
  cases h3
  rw [hk] at h2
  simp only at h2
  obtain ⟨s1, h5, h6⟩ := bind_inv h2
  obtain ⟨s2, h7, h8⟩ := bind_inv h6
  obtain ⟨o2, c1, c2, c3⟩ := free_inv h8
  obtain ⟨⟨s3, g⟩, h9, h10⟩ := bind_inv h7
  obtain ⟨o3, d1, d2, d3, d4, d5⟩ := drop_inv h9
  have hne : e ≠ d := by
    intro x
    subst x
    rw [c3, put_get_self c1] at hd
    cases hd
    cases ha
  have hg : g = false := by
    cases hg : g with
    | false => rfl
    | true =>
      simp only [hg, if_true] at h10
      obtain ⟨_, _, q2⟩ := bind_inv h10
      obtain ⟨s4, _, q4⟩ := bind_inv q2
      obtain ⟨o4, r1, r2, r3⟩ := free_inv q4
      rw [c3, put_get_ne hne, r3, put_get_self r1] at hd
      cases hd
      cases ha
  simp only [hg, Bool.false_eq_true, if_false] at h10
  cases h10
  obtain ⟨l, hl⟩ := hout
  rw [hl, List.dropLast_concat] at h5
  refine ⟨?_, ⟨_, by rw [c3]; exact put_get_self c1, rfl⟩⟩
  intro i o hi
  obtain ⟨o1, e1, e2, e3, e4⟩ := many l h5 i o hi
  have hd2 : ∃ o', s2.heap[i]? = some o' ∧ o'.refs + [d].count i = o1.refs ∧ o'.out = o1.out ∧ o'.linked = o1.linked := by
    by_cases x : d = i
    · subst x
      rw [d1, Option.some.injEq] at e1
      subst e1
      refine ⟨{ o3 with refs := o3.refs - 1 }, by rw [d4]; exact put_get_self d1, ?_, rfl, rfl⟩
      simp
      omega
    · refine ⟨o1, by rw [d4, put_get_ne x]; exact e1, ?_, rfl, rfl⟩
      rw [List.count_eq_zero.mpr (by simp; exact fun h => x h.symm)]
      rfl
  obtain ⟨o', f1, f2, f3, f4⟩ := hd2
  have hl2 : oe.out.count i = l.count i + [d].count i := by rw [hl, List.count_append]
  by_cases x : e = i
  · subst x
    rw [c1, Option.some.injEq] at f1
    subst f1
    exact ⟨{ o2 with alive := false }, by rw [c3]; exact put_get_self c1, by simp only; omega, f3.trans e3, f4.trans e4⟩
  · exact ⟨o', by rw [c3, put_get_ne x]; exact f1, by omega, f3.trans e3, f4.trans e4⟩

/-- Destroying an event whose device stays gives back what the event took, and nothing else: the counts go down by the
number of pointers in the event, no pointer of anything else is lost, and the event is freed. -/
theorem destroy_releases (udev : Bool) (ops : List Op) (h : History (init udev) Client.nothing ops) {s s' : State}
    (hs : run (init udev) ops = .ok s) {e d : Nat} {oe od : Obj} (hh : e ∈ (Client.nothing.over (init udev) ops).held)
    (he : s.heap[e]? = some oe) (hk : oe.kind = .event d) (hst : step s (.destroyEvent e) = .ok s')
    (hd : s'.heap[d]? = some od) (ha : od.alive = true) :
    (∀ (i : Nat) (o : Obj), s.heap[i]? = some o → ∃ o', s'.heap[i]? = some o' ∧ o'.refs + oe.out.count i = o.refs ∧
      o'.out = o.out ∧ o'.linked = o.linked) ∧
    ∃ oe', s'.heap[e]? = some oe' ∧ oe'.alive = false := by
  obtain ⟨s1, e1, inv, _⟩ := run_ok ops (init_inv udev) (init_seated udev) h
  rw [hs] at e1
  cases e1
  obtain ⟨⟨l, hl, _⟩, _⟩ := inv.wf.last e oe d he hk
  exact destroyEvent_releases hst he hk ⟨l, hl⟩ hd ha

example : ∃ s s' oe od, run (init false) (sample.take 7) = .ok s ∧ s.heap[5]? = some oe ∧ oe.kind = .event 1 ∧ oe.out = [4, 1] ∧
    5 ∈ (Client.nothing.over (init false) (sample.take 7)).held ∧
    step s (.destroyEvent 5) = .ok s' ∧ s'.heap[1]? = some od ∧ od.alive = true :=
  ⟨_, _, _, _, rfl, rfl, rfl, rfl, by decide +kernel, rfl, rfl, rfl⟩

/-! ### Destroying the context -/

theorem drain_ok (es : List Nat) : ∀ {s : State}, Inv (fun _ => 0) [] s Client.nothing → s.queue = es →
    (∀ (d : Nat) (od : Obj), s.heap[d]? = some od → od.linked = false) →
    ∃ s', drain s es = .ok s' ∧ Inv (fun _ => 0) [] s' Client.nothing ∧ s'.queue = [] ∧ s'.udev = s.udev ∧
      ∀ (d : Nat) (od : Obj), s'.heap[d]? = some od → od.linked = false := by
  induction es with
  | nil =>
    intro s h hq hl
    exact ⟨s, rfl, h, hq, rfl, hl⟩
  | cons e es ih =>
    intro s h hq hl
    have i1 : Inv (fun _ => 0) [] { s with queue := es } ⟨fun _ => 0, [e]⟩ := by
      refine h.requeue es ?_ ?_ (by intro i hi; simp at hi)
      · intro i
        rw [hq]
        simp only [Client.nothing, List.count_cons, List.count_nil]
        omega
      · intro x hx
        apply h.wf.events x
        rw [hq]
        simp only [List.mem_cons, List.not_mem_nil, or_false] at hx ⊢
        exact .inl hx.symm
    obtain ⟨s1, e1, i2, f1⟩ := destroyEvent_ok (e := e) i1 (by simp)
    have hc : ({ refs := fun _ => 0, held := [e].erase e } : Client) = Client.nothing := by simp [Client.nothing]
    rw [hc] at i2
    obtain ⟨s2, e2, i3, q3, u3, l3⟩ := ih i2 f1.queue (by
      intro d od hd
      cases hlk : od.linked with
      | false => rfl
      | true =>
        obtain ⟨o, a1, _, a3⟩ := f1.calm.back hd hlk
        rw [hl d o a1] at a3
        cases a3)
    refine ⟨s2, ?_, i3, q3, u3.trans f1.udev, l3⟩
    simp only [drain, e1, Bind.bind, Except.bind]
    exact e2

theorem sweep_ok (is : List Nat) : ∀ {s : State},
    (∀ (i : Nat) (o : Obj), s.heap[i]? = some o → o.alive = true →
      (∃ n, o.kind = .seat n) ∨ (∃ g, o.kind = .group g) ∨ ((∃ ty ser, o.kind = .tool ty ser) ∧ o.home = none ∧ o.refs = 1)) →
    (∀ i, (∃ o, s.heap[i]? = some o ∧ o.alive = true) → i ∈ is) → is.Nodup →
    ∃ s', sweep s is = .ok s' ∧ s'.heap.length = s.heap.length ∧ ∀ (i : Nat) (o : Obj), s'.heap[i]? = some o → o.alive = false := by
  induction is with
  | nil =>
    intro s _ h2 _
    refine ⟨s, rfl, rfl, ?_⟩
    intro i o hi
    cases ha : o.alive with
    | false => rfl
    | true => exact absurd (h2 i ⟨o, hi, ha⟩) (by simp)
  | cons i is ih =>
    intro s h1 h2 hn
    rw [List.nodup_cons] at hn
    -- nothing there: go on
    have skip : (∀ o, s.heap[i]? = some o → o.alive = false) → ∃ s', sweep s is = .ok s' ∧ s'.heap.length = s.heap.length ∧
        ∀ (i : Nat) (o : Obj), s'.heap[i]? = some o → o.alive = false := by
      intro hd
      refine ih h1 ?_ hn.2
      intro j hj
      have := h2 j hj
      simp only [List.mem_cons] at this
      rcases this with rfl | this
      · obtain ⟨o, a, b⟩ := hj
        rw [hd o a] at b
        cases b
      · exact this
    -- freed: go on
    have gone : ∀ {o o' : Obj}, s.heap[i]? = some o → o'.alive = false → ∃ s', sweep (put s i o') is = .ok s' ∧
        s'.heap.length = s.heap.length ∧ ∀ (i : Nat) (o : Obj), s'.heap[i]? = some o → o.alive = false := by
      intro o o' ho ha'
      have back : ∀ (j : Nat) (oj : Obj), (put s i o').heap[j]? = some oj → oj.alive = true → j ≠ i ∧ s.heap[j]? = some oj := by
        intro j oj hj haj
        by_cases e : i = j
        · subst e
          rw [put_get_self ho] at hj
          cases hj
          rw [ha'] at haj
          cases haj
        · rw [put_get_ne e] at hj
          exact ⟨fun x => e x.symm, hj⟩
      obtain ⟨s', a, b, c⟩ := ih (s := put s i o') (fun j oj hj haj => h1 j oj (back j oj hj haj).2 haj) (by
        rintro j ⟨oj, hj, haj⟩
        obtain ⟨x, y⟩ := back j oj hj haj
        have := h2 j ⟨oj, y, haj⟩
        simp only [List.mem_cons] at this
        exact this.resolve_left x) hn.2
      exact ⟨s', a, by rw [b]; simp [put], c⟩
    unfold sweep
    cases hs : s.heap[i]? with
    | none => exact skip (by intro o ho; rw [hs] at ho; cases ho)
    | some o =>
      simp only
      cases ha : o.alive with
      | false =>
        simp only [Bool.false_eq_true, if_false]
        exact skip (by intro o' ho; rw [hs] at ho; cases ho; exact ha)
      | true =>
        simp only [if_true]
        have hfree : free s i = .ok (put s i { o with alive := false }) := by
          simp [free, fetch_ok hs ha, Bind.bind, Except.bind]
        rcases h1 i o hs ha with ⟨n, hk⟩ | ⟨g, hk⟩ | ⟨⟨ty, ser, hk⟩, hh, hr⟩
        · simp only [hk, hfree, Bind.bind, Except.bind]
          exact gone hs rfl
        · simp only [hk, hfree, Bind.bind, Except.bind]
          exact gone hs rfl
        · rw [hk]
          simp only [hh, if_true]
          have hu : unrefLeaf s i = .ok (put s i { o with refs := 0, alive := false }) := by
            obtain ⟨k, r, a, ou, ho, li⟩ := o
            simp only at ha hh hr
            subst ha hh hr
            have hg : (put s i ⟨k, 0, true, ou, none, li⟩).heap[i]? = some ⟨k, 0, true, ou, none, li⟩ := put_get_self hs
            simp [unrefLeaf, drop, fetch_ok hs rfl, Bind.bind, Except.bind, unlink, free, fetch_ok hg rfl, put_put]
          simp only [hu, Bind.bind, Except.bind]
          exact gone hs rfl

/-- When the last reference to the context goes and the caller has nothing left, all memory is freed: devices are
removed, unread events destroyed, and no object is left. -/
theorem context_frees_all (udev : Bool) (ops : List Op) (notes : Nat → List Note) (h : History (init udev) Client.nothing ops)
    (hc : Client.nothing.over (init udev) ops = Client.nothing) :
    ∃ s s', run (init udev) ops = .ok s ∧ contextDestroy s notes = .ok s' ∧
      ∀ (i : Nat) (o : Obj), s'.heap[i]? = some o → o.alive = false := by
  obtain ⟨s, e, inv, se⟩ := run_ok ops (init_inv udev) (init_seated udev) h
  rw [hc] at inv
  obtain ⟨s1, e1, i1, _, u1, l1⟩ := suspend_ok notes inv se
  obtain ⟨s2, e2, i2, q2, u2, l2⟩ := drain_ok s1.queue i1 rfl l1
  have left : ∀ i, Reach s2 Client.nothing i → ∃ o, s2.heap[i]? = some o ∧
      ((∃ n, o.kind = .seat n) ∨ ((∃ ty ser, o.kind = .tool ty ser) ∧ o.home = none)) := by
    intro i hr
    induction hr with
    | device a b => rw [l2 _ _ a] at b; cases b
    | seat a b _ => exact ⟨_, a, .inl ⟨_, b⟩⟩
    | tool a b c => exact ⟨_, a, .inr ⟨⟨_, _, b⟩, c⟩⟩
    | unread a => rw [q2] at a; cases a
    | event a => cases a
    | caller a => simp [Client.nothing] at a
    | @via x o j hx ho hi ih =>
      obtain ⟨o', a1, a2⟩ := ih
      rw [ho] at a1
      cases a1
      obtain ⟨oj, _, b2, _⟩ := i2.wf.out x o ho j hi
      rcases a2 with ⟨n, a2⟩ | ⟨⟨ty, ser, a2⟩, _⟩
      · rw [a2] at b2; simp [rank] at b2
      · rw [a2] at b2; simp [rank] at b2
  obtain ⟨s3, e3, _, d3⟩ := sweep_ok (List.range s2.heap.length) (s := s2) (by
    intro i o hi ha
    obtain ⟨o', a1, a2⟩ := left i ((reach_iff i2 i).mpr ⟨o, hi, ha⟩)
    rw [hi] at a1
    cases a1
    rcases a2 with a2 | ⟨⟨ty, ser, hk⟩, hh⟩
    · exact .inl a2
    · refine .inr (.inr ⟨⟨ty, ser, hk⟩, hh, ?_⟩)
      obtain ⟨h1, _⟩ := i2.live i o hi ha (by simp)
      have hinc : inc s2 [] i = 0 := by
        cases hn : inc s2 [] i with
        | zero => rfl
        | succ n =>
          obtain ⟨x, hx, hw⟩ := pos_of_sum _ _ (show 0 < inc s2 [] i by omega)
          simp only [wtAt] at hw
          split at hw
          · rename_i ox hox
            simp only [wt] at hw
            split at hw
            · rename_i hal
              obtain ⟨ox', b1, b2⟩ := left x ((reach_iff i2 x).mpr ⟨ox, hox, hal.1⟩)
              rw [hox] at b1
              cases b1
              obtain ⟨oi, _, c2, _⟩ := i2.wf.out x ox hox i (List.count_pos_iff.mp hw)
              rcases b2 with ⟨n, b2⟩ | ⟨⟨ty, ser, b2⟩, _⟩
              · rw [b2] at c2; simp [rank] at c2
              · rw [b2] at c2; simp [rank] at c2
            · omega
          · omega
      simp only [total, ctx, hi, ctxOf, hk, hh, q2, hinc, Client.nothing, List.count_nil] at h1
      simpa using h1) (by
    rintro i ⟨o, hi, _⟩
    exact List.mem_range.mpr (lt_of_some hi)) List.nodup_range
  exact ⟨s, s3, e, by simp only [contextDestroy, e1, Bind.bind, Except.bind, e2]; exact e3, d3⟩

example (udev : Bool) : ∃ ops, ops.length = 6 ∧ History (init udev) Client.nothing ops ∧
    Client.nothing.over (init udev) ops = Client.nothing := by
  refine ⟨[.add 0 1 none (.device 0), .add 0 2 (some 1) (.device 2), .post 1 (.tool 7 5), .post 1 (.tool 8 0), .getEvent,
    .destroyEvent 3], rfl, ?_⟩
  cases udev
  · exact ⟨careful_history (by decide +kernel), rfl⟩
  · exact ⟨careful_history (by decide +kernel), rfl⟩

/-! ### The exception -/

/-- A tablet's tool which has no serial number, and a pad's mode group, are in a list which is freed with the device: a
caller who keeps one of them until the device is gone and then gives it up writes to freed memory. -/
theorem tool_outlives_tablet (udev : Bool) :
    ∃ ops s, History (init udev) Client.nothing ops ∧ run (init udev) ops = .ok s ∧
      0 < (Client.nothing.over (init udev) ops).refs 4 ∧ step s (.unref 4) = .error .useAfterFree := by
  refine ⟨[.add 0 1 none (.device 0), .post 1 (.tool 7 0), .getEvent, .getEvent, .ref 4, .destroyEvent 3, .destroyEvent 5,
    .remove 1 [], .getEvent, .destroyEvent 6], ?_⟩
  cases udev
  · exact ⟨_, careful_history (by decide +kernel), rfl, by decide +kernel, rfl⟩
  · exact ⟨_, careful_history (by decide +kernel), rfl, by decide +kernel, rfl⟩

theorem mode_group_outlives_pad (udev : Bool) :
    ∃ ops s, History (init udev) Client.nothing ops ∧ run (init udev) ops = .ok s ∧
      0 < (Client.nothing.over (init udev) ops).refs 2 ∧ step s (.unref 2) = .error .useAfterFree := by
  refine ⟨[.add 0 1 none (.device 1), .getEvent, .ref 2, .destroyEvent 4, .remove 1 [], .getEvent, .destroyEvent 5], ?_⟩
  cases udev
  · exact ⟨_, careful_history (by decide +kernel), rfl, by decide +kernel, rfl⟩
  · exact ⟨_, careful_history (by decide +kernel), rfl, by decide +kernel, rfl⟩

end Libinput.Refs
