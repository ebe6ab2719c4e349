import Verif.Backend.Count

/-! Invariants of runs where the client moves only devices that are there and about which no message waits: the devices follow udev. -/
namespace Libinput.Backend

/-- What is ready under a path. -/
def cur (s : State) (p : Path) : Option Node := (lookup s.sys p).bind fun e => if e.ready then some e.node else none

/-- The messages about a path, as far as they matter. -/
def msgs (s : State) (p : Path) : List Msg := s.queue.filter fun m => decide (m.path = p) && decide (m.action ≠ .other)

/-- What matters for one path. -/
structure View where
  M : List Msg
  cur : Option Node
  unread : Prop
  rd : Option Node
  L : Dev → Prop

def view (s : State) (p : Path) : View where
  M := msgs s p
  cur := cur s p
  unread := ∃ l, s.scan = some l ∧ p ∈ l
  rd := s.reading.bind fun x => if x.1 = p then some x.2 else none
  L := fun d => d ∈ s.devs ∧ d.path = p

/-- No messages: the device is there, unless enumeration gets to it. -/
def B0 (fits : Node → Prop) (v : View) : Prop :=
  (¬ v.unread → v.rd = none → (∀ n, (∃ d, v.L d ∧ d.node = n) ↔ v.cur = some n ∧ fits n) ∧ ∀ a b, v.L a → v.L b → a = b) ∧
  ∀ n, v.rd = some n → v.cur = some n

/-- A message about a new device: the device is there already, or not. -/
def B1 (v : View) (n : Node) : Prop :=
  (∀ d, v.L d → d.node = n ∧ d.seat = n.wlSeat.getD "default") ∧ ∀ m, v.rd = some m → m = n

structure Good (fits : Node → Prop) (p : Path) (v : View) : Prop where
  pend : v.unread ∨ v.rd ≠ none → ∀ d, ¬ v.L d
  main : ∃ M1 T, v.M = M1 ++ T ∧ (M1 = [] ∨ ∃ M0 r, M1 = M0 ++ [r] ∧ r.action = .remove) ∧
    ((T = [] ∧ (M1 ≠ [] → v.cur = none) ∧ (M1 = [] → B0 fits v)) ∨
     ∃ n, T = [⟨.add, p, n⟩] ∧ v.cur = some n ∧ (M1 = [] → B1 v n))

structure Inv2 (s : State) : Prop where
  base : Base s
  hsys : (s.sys.map Entry.path).Nodup
  hscan : ∀ l, s.scan = some l → l.Nodup ∧ ∀ p n, s.reading = some (p, n) → p ∉ l
  hidle : s.scan = none → s.reading = none
  hon : s.source = true → s.monitor = true ∧ s.seatId ≠ none
  hoff : s.source = false → s.devs = [] ∧ s.queue = [] ∧ s.scan = none
  hgood : s.source = true → ∀ p, isEvent p = true → Good (Fits s p) p (view s p)

/-! ### Messages -/

theorem Good.ready {fits : Node → Prop} {p : Path} {v : View} (h : Good fits p v) (hc : v.cur = none) (n : Node) :
    Good fits p { v with M := v.M ++ [⟨.add, p, n⟩], cur := some n } := by
  refine ⟨h.pend, ?_⟩
  obtain ⟨M1, T, e, h1, h2⟩ := h.main
  rcases h2 with ⟨rfl, -, hb⟩ | ⟨m, -, hcm, -⟩
  · refine ⟨M1, [⟨.add, p, n⟩], by simp [e], h1, Or.inr ⟨n, rfl, rfl, ?_⟩⟩
    intro hM
    obtain ⟨b1, b2⟩ := hb hM
    constructor
    · intro d hd
      exfalso
      by_cases hp : v.unread ∨ v.rd ≠ none
      · exact h.pend hp d hd
      · have hp1 : ¬ v.unread := fun h => hp (Or.inl h)
        have hp2 : v.rd = none := Classical.byContradiction fun h => hp (Or.inr h)
        have := ((b1 hp1 hp2).1 d.node).mp ⟨d, hd, rfl⟩
        rw [hc] at this
        exact absurd this.1 (by simp)
    · intro m hm
      have := b2 m hm
      rw [hc] at this
      cases this
  · rw [hc] at hcm; cases hcm

theorem Good.vanish {fits : Node → Prop} {p : Path} {v : View} (h : Good fits p v) (n : Node) :
    Good fits p { v with M := v.M ++ [⟨.remove, p, n⟩], cur := none } := by
  refine ⟨h.pend, v.M ++ [⟨.remove, p, n⟩], [], by simp, Or.inr ⟨_, _, rfl, rfl⟩, Or.inl ⟨rfl, fun _ => rfl, ?_⟩⟩
  intro e; simp at e

/-! ### Enumeration -/

theorem Good.read {fits : Node → Prop} {p : Path} {v : View} (h : Good fits p v) (hu : v.unread) (hr : v.rd = none) :
    Good fits p { v with unread := False, rd := v.cur } := by
  have hL := h.pend (Or.inl hu)
  refine ⟨fun _ => hL, ?_⟩
  obtain ⟨M1, T, e, h1, h2⟩ := h.main
  refine ⟨M1, T, e, h1, ?_⟩
  rcases h2 with ⟨hT, hc, hb⟩ | ⟨n, hT, hc, hb⟩
  · refine Or.inl ⟨hT, hc, fun hM => ⟨?_, fun n hn => hn⟩⟩
    intro _ hr
    have hr : v.cur = none := hr
    refine ⟨?_, fun a _ ha => absurd ha (hL a)⟩
    intro n
    constructor
    · rintro ⟨d, hd, -⟩; exact absurd hd (hL d)
    · rintro ⟨hcur, -⟩
      have hcur : v.cur = some n := hcur
      rw [hr] at hcur; cases hcur
  · refine Or.inr ⟨n, hT, hc, fun hM => ⟨fun d hd => absurd hd (hL d), ?_⟩⟩
    intro m hm
    have hm : v.cur = some m := hm
    rw [hc] at hm
    exact (Option.some.inj hm).symm

/-- The device that was looked up is created, or not. -/
theorem Good.create {fits : Node → Prop} {p : Path} {v : View} (h : Good fits p v) (hu : ¬ v.unread) {n : Node} (hr : v.rd = some n) (L' : Dev → Prop)
    (hL : (∃ d, d.node = n ∧ d.seat = n.wlSeat.getD "default" ∧ fits n ∧ ∀ x, L' x ↔ x = d) ∨ ((∀ x, ¬ L' x) ∧ (v.cur = some n → ¬ fits n))) :
    Good fits p { v with rd := none, L := L' } := by
  refine ⟨fun hp => absurd hp (by simp [hu]), ?_⟩
  obtain ⟨M1, T, e, h1, h2⟩ := h.main
  refine ⟨M1, T, e, h1, ?_⟩
  rcases h2 with ⟨hT, hc, hb⟩ | ⟨m, hT, hc, hb⟩
  · refine Or.inl ⟨hT, hc, fun hM => ⟨?_, fun n hn => by cases hn⟩⟩
    have hcur := (hb hM).2 n hr
    intro _ _
    show (∀ m, (∃ d, L' d ∧ d.node = m) ↔ v.cur = some m ∧ fits m) ∧ ∀ a b, L' a → L' b → a = b
    rw [hcur]
    rcases hL with ⟨d, hd, -, hf, hL⟩ | ⟨hL, hf⟩
    · refine ⟨?_, fun a b ha hb => ((hL a).mp ha).trans ((hL b).mp hb).symm⟩
      intro m
      constructor
      · rintro ⟨x, hx, rfl⟩
        rw [(hL x).mp hx, hd]; exact ⟨rfl, hf⟩
      · rintro ⟨e, -⟩
        exact ⟨d, (hL d).mpr rfl, by rw [hd]; exact Option.some.inj e⟩
    · refine ⟨?_, fun a _ ha => absurd ha (hL a)⟩
      intro m
      constructor
      · rintro ⟨x, hx, -⟩; exact absurd hx (hL x)
      · rintro ⟨e, hm⟩
        rw [← Option.some.inj e] at hm
        exact absurd hm (hf hcur)
  · refine Or.inr ⟨m, hT, hc, fun hM => ⟨?_, fun n hn => by cases hn⟩⟩
    have hnm := (hb hM).2 n hr
    intro x hx
    have hx : L' x := hx
    rcases hL with ⟨d, hd, hs, -, hL⟩ | ⟨hL, -⟩
    · rw [(hL x).mp hx, hd, hs, hnm]; exact ⟨rfl, rfl⟩
    · exact absurd hx (hL x)

/-! ### Dispatch -/

theorem Good.addMsg {fits : Node → Prop} {p : Path} {v : View} (h : Good fits p v) (hu : ¬ v.unread) (hr : v.rd = none) {n : Node} {M : List Msg}
    (hM : v.M = ⟨.add, p, n⟩ :: M) (L' : Dev → Prop)
    (hu' : ∀ a b, v.L a → v.L b → a.seat = b.seat → a = b) (hf' : ∀ d, v.L d → fits d.node)
    (hL : ((∀ x, L' x ↔ v.L x) ∧ ((v.cur = some n → ¬ fits n) ∨ ∃ d, v.L d ∧ d.seat = n.wlSeat.getD "default")) ∨
      (∃ d, d.node = n ∧ fits n ∧ (∀ x, v.L x → x.seat ≠ n.wlSeat.getD "default") ∧ ∀ x, L' x ↔ v.L x ∨ x = d)) :
    Good fits p { v with M := M, L := L' } := by
  refine ⟨fun hp => absurd hp (by simp [hu, hr]), ?_⟩
  obtain ⟨M1, T, e, h1, h2⟩ := h.main
  rw [hM] at e
  rcases h1 with rfl | ⟨M0, r, rfl, hrm⟩
  · rcases h2 with ⟨rfl, -, -⟩ | ⟨m, rfl, hc, hb⟩
    · cases e
    · simp only [List.nil_append, List.cons.injEq, Msg.mk.injEq, true_and] at e
      obtain ⟨rfl, rfl⟩ := e
      refine ⟨[], [], rfl, Or.inl rfl, Or.inl ⟨rfl, fun h => absurd rfl h, fun _ => ⟨?_, fun m hm => by rw [show v.rd = some m from hm] at hr; cases hr⟩⟩⟩
      intro _ _
      show (∀ m, (∃ d, L' d ∧ d.node = m) ↔ v.cur = some m ∧ fits m) ∧ ∀ a b, L' a → L' b → a = b
      rw [hc]
      have hb1 := (hb rfl).1
      rcases hL with ⟨hL, hno⟩ | ⟨d, hd, hf, hno, hL⟩
      · refine ⟨?_, ?_⟩
        · intro m
          constructor
          · rintro ⟨x, hx, rfl⟩
            have hx := (hL x).mp hx
            exact ⟨by rw [(hb1 x hx).1], hf' x hx⟩
          · rintro ⟨e, hm⟩
            obtain rfl := Option.some.inj e
            rcases hno with hno | ⟨d, hd, -⟩
            · exact absurd hm (hno hc)
            · exact ⟨d, (hL d).mpr hd, (hb1 d hd).1⟩
        · intro a b ha hb
          have ha := (hL a).mp ha
          have hb := (hL b).mp hb
          exact hu' a b ha hb (by rw [(hb1 a ha).2, (hb1 b hb).2])
      · have hno' : ∀ x, ¬ v.L x := fun x hx => hno x hx (hb1 x hx).2
        have hL : ∀ x, L' x ↔ x = d := fun x => by rw [hL]; constructor
                                                   · rintro (h | h)
                                                     · exact absurd h (hno' x)
                                                     · exact h
                                                   · exact Or.inr
        refine ⟨?_, fun a b ha hb => ((hL a).mp ha).trans ((hL b).mp hb).symm⟩
        intro m
        constructor
        · rintro ⟨x, hx, rfl⟩
          rw [(hL x).mp hx, hd]; exact ⟨rfl, hf⟩
        · rintro ⟨e, -⟩
          exact ⟨d, (hL d).mpr rfl, by rw [hd]; exact Option.some.inj e⟩
  · cases M0 with
    | nil =>
      simp only [List.nil_append, List.cons_append, List.cons.injEq] at e
      rw [← e.1] at hrm; cases hrm
    | cons x M0 =>
      simp only [List.cons_append, List.cons.injEq] at e
      obtain ⟨-, e⟩ := e
      refine ⟨M0 ++ [r], T, by simpa using e, Or.inr ⟨M0, r, rfl, hrm⟩, ?_⟩
      rcases h2 with ⟨hT, hc, -⟩ | ⟨m, hT, hc, -⟩
      · exact Or.inl ⟨hT, fun _ => hc (by simp), fun h => by simp at h⟩
      · exact Or.inr ⟨m, hT, hc, fun h => by simp at h⟩

theorem Good.removeMsg {fits : Node → Prop} {p : Path} {v : View} (h : Good fits p v) (hr : v.rd = none) {n : Node} {M : List Msg}
    (hM : v.M = ⟨.remove, p, n⟩ :: M) : Good fits p { v with M := M, L := fun _ => False } := by
  refine ⟨fun _ _ h => h, ?_⟩
  obtain ⟨M1, T, e, h1, h2⟩ := h.main
  rw [hM] at e
  rcases h1 with rfl | ⟨M0, r, rfl, hrm⟩
  · rcases h2 with ⟨rfl, -, -⟩ | ⟨m, rfl, -, -⟩
    · cases e
    · simp at e
  · cases M0 with
    | nil =>
      simp only [List.nil_append, List.cons_append, List.cons.injEq] at e
      refine ⟨[], T, by simpa using e.2, Or.inl rfl, ?_⟩
      rcases h2 with ⟨hT, hc, -⟩ | ⟨m, hT, hc, -⟩
      · refine Or.inl ⟨hT, fun h => absurd rfl h, fun _ => ⟨?_, fun m hm => by rw [show v.rd = some m from hm] at hr; cases hr⟩⟩
        intro _ _
        show (∀ m, (∃ d : Dev, False ∧ d.node = m) ↔ v.cur = some m ∧ fits m) ∧ ∀ a b : Dev, False → False → a = b
        rw [hc (by simp)]
        simp
      · exact Or.inr ⟨m, hT, hc, fun _ => ⟨fun _ h => h.elim, fun m hm => by rw [show v.rd = some m from hm] at hr; cases hr⟩⟩
    | cons x M0 =>
      simp only [List.cons_append, List.cons.injEq] at e
      obtain ⟨-, e⟩ := e
      refine ⟨M0 ++ [r], T, by simpa using e, Or.inr ⟨M0, r, rfl, hrm⟩, ?_⟩
      rcases h2 with ⟨hT, hc, -⟩ | ⟨m, hT, hc, -⟩
      · exact Or.inl ⟨hT, fun _ => hc (by simp), fun h => by simp at h⟩
      · exact Or.inr ⟨m, hT, hc, fun h => by simp at h⟩

/-! ### Views of the states -/

theorem lookup_append (l : List Entry) (e : Entry) (p : Path) : lookup (l ++ [e]) p = (lookup l p).or (if e.path = p then some e else none) := by
  unfold lookup
  rw [List.find?_append]
  simp only [List.find?_cons, List.find?_nil]
  split <;> simp_all

theorem lookup_path {l : List Entry} {p : Path} {e : Entry} (h : lookup l p = some e) : e ∈ l ∧ e.path = p :=
  ⟨List.mem_of_find?_eq_some h, by simpa using List.find?_some h⟩

theorem lookup_none {l : List Entry} {p : Path} : lookup l p = none ↔ p ∉ l.map Entry.path := by
  simp [lookup, List.find?_eq_none]

theorem lookup_map {l : List Entry} (f : Entry → Entry) (hf : ∀ x, (f x).path = x.path) (p : Path) : lookup (l.map f) p = (lookup l p).map f := by
  unfold lookup
  rw [List.find?_map]
  congr 2
  funext x
  simp [hf]

theorem lookup_filter {l : List Entry} (p q : Path) : lookup (l.filter fun x => decide (x.path ≠ q)) p = if p = q then none else lookup l p := by
  unfold lookup
  rw [List.find?_filter]
  split
  · rename_i h
    subst h
    rw [List.find?_eq_none]
    intro x _; simp
  · rename_i h
    congr 1
    funext x
    by_cases hx : x.path = p
    · simp [hx, h]
    · simp [hx]

theorem canCreate_of_cur {s : State} {p : Path} {n : Node} (hc : cur s p = some n) (hu : n.usable = true) : canCreate s p n = true := by
  unfold cur at hc
  unfold canCreate
  cases hl : lookup s.sys p with
  | none => rw [hl] at hc; cases hc
  | some e =>
    rw [hl] at hc
    simp only [Option.bind_some] at hc
    split at hc
    · simp [Option.some.inj hc, hu]
    · cases hc

theorem msgs_post {s : State} (hs : s.source = true) (m : Msg) (p : Path) :
    msgs (post s m) p = msgs s p ++ if m.path = p ∧ m.action ≠ .other then [m] else [] := by
  unfold post msgs
  rw [if_pos hs]
  simp only [List.filter_append]
  congr 1
  by_cases h : m.path = p ∧ m.action ≠ .other
  · simp [h]
  · rw [if_neg h]
    by_cases h1 : m.path = p
    · have h2 : m.action = .other := Classical.byContradiction fun h2 => h ⟨h1, h2⟩
      simp [h2]
    · simp [h1]


theorem fits_eq {s t : State} (h : t.seatId = s.seatId) (p : Path) : Fits t p = Fits s p := by
  funext n; unfold Fits; rw [h]

theorem good_congr {s t : State} {p : Path} (h : Good (Fits s p) p (view s p)) (hid : t.seatId = s.seatId) (hv : view t p = view s p) :
    Good (Fits t p) p (view t p) := by
  rw [fits_eq hid, hv]; exact h

theorem good_of {s t : State} {p : Path} {v : View} (h : Good (Fits s p) p v) (hid : t.seatId = s.seatId) (hv : view t p = v) :
    Good (Fits t p) p (view t p) := by
  rw [fits_eq hid, hv]; exact h

theorem view_ext {v w : View} (h1 : v.M = w.M) (h2 : v.cur = w.cur) (h3 : v.unread ↔ w.unread) (h4 : v.rd = w.rd) (h5 : ∀ d, v.L d ↔ w.L d) : v = w := by
  obtain ⟨a, b, c, d, e⟩ := v
  obtain ⟨a', b', c', d', e'⟩ := w
  simp only at h1 h2 h3 h4 h5
  subst h1; subst h2; subst h4
  have h3 := propext h3
  have h5 : e = e' := funext fun d => propext (h5 d)
  subst h3; subst h5; rfl

/-! ### Steps of udev -/

theorem Inv2.appear {s : State} (h : Inv2 s) (p : Path) (n : Node) : Inv2 (appear s p n) := by
  have hb : Base (Backend.appear s p n) := h.base.step (.appear p n) rfl
  unfold Backend.appear at hb ⊢
  cases hl : lookup s.sys p with
  | some e => rw [hl] at hb; exact h
  | none =>
    rw [hl] at hb
    refine ⟨hb, ?_, h.hscan, h.hidle, h.hon, h.hoff, ?_⟩
    · simp only [List.map_append, List.map_cons, List.map_nil]
      rw [List.nodup_append]
      refine ⟨h.hsys, by simp, ?_⟩
      intro a ha b hb
      rw [List.mem_singleton] at hb
      subst hb
      rintro rfl
      exact lookup_none.mp hl ha
    · intro hs q hq
      refine good_congr (h.hgood hs q hq) rfl (view_ext rfl ?_ Iff.rfl rfl fun _ => Iff.rfl)
      show (lookup (s.sys ++ _) q).bind _ = (lookup s.sys q).bind _
      rw [lookup_append]
      by_cases e : p = q
      · subst e; rw [hl]; simp
      · simp [e]

theorem post_source (s : State) (m : Msg) : (post s m).source = s.source ∧ (post s m).seatId = s.seatId ∧ (post s m).sys = s.sys ∧ (post s m).scan = s.scan ∧
    (post s m).reading = s.reading ∧ (post s m).devs = s.devs ∧ (post s m).monitor = s.monitor ∧ (s.source = false → (post s m).queue = s.queue) := by
  unfold post
  split
  · rename_i h; exact ⟨rfl, rfl, rfl, rfl, rfl, rfl, rfl, fun h' => by rw [h] at h'; cases h'⟩
  · exact ⟨rfl, rfl, rfl, rfl, rfl, rfl, rfl, fun _ => rfl⟩

/-- A change of udev about one path, with a message. -/
theorem Inv2.change {s : State} (h : Inv2 s) (sys' : List Entry) (m : Msg) (hb : Base (post { s with sys := sys' } m))
    (hsys : (sys'.map Entry.path).Nodup)
    (hother : ∀ q, q ≠ m.path → lookup sys' q = lookup s.sys q)
    (hgood : ∀ v, Good (Fits s m.path) m.path v → v = view s m.path →
      Good (Fits s m.path) m.path { v with M := v.M ++ if m.action ≠ .other then [m] else [], cur := cur { s with sys := sys' } m.path }) :
    Inv2 (post { s with sys := sys' } m) := by
  obtain ⟨e1, e2, e3, e4, e5, e6, e7, e8⟩ := post_source { s with sys := sys' } m
  refine ⟨hb, by rw [e3]; exact hsys, by rw [e4, e5]; exact h.hscan, by rw [e4, e5]; exact h.hidle, by rw [e1, e2, e7]; exact h.hon, ?_, ?_⟩
  · intro hs
    rw [e1] at hs
    rw [e6, e4, e8 hs]; exact h.hoff hs
  · intro hs q hq
    rw [e1] at hs
    by_cases e : q = m.path
    · subst e
      refine good_of (hgood _ (h.hgood hs _ hq) rfl) e2 (view_ext ?_ ?_ ?_ ?_ ?_)
      · show msgs (post _ m) m.path = _
        rw [msgs_post hs]; simp [view, msgs]
      · show cur (post _ m) m.path = cur _ m.path
        unfold cur; rw [e3]
      · show (∃ l, (post _ m).scan = some l ∧ _) ↔ _
        rw [e4]; rfl
      · show (post _ m).reading.bind _ = _
        rw [e5]; rfl
      · intro d
        show d ∈ (post _ m).devs ∧ _ ↔ _
        rw [e6]; rfl
    · refine good_congr (h.hgood hs q hq) e2 (view_ext ?_ ?_ ?_ ?_ ?_)
      · show msgs (post _ m) q = _
        rw [msgs_post hs, if_neg (fun h => e h.1.symm), List.append_nil]; rfl
      · show cur (post _ m) q = cur s q
        unfold cur; rw [e3]; show (lookup sys' q).bind _ = _
        rw [hother q e]
      · show (∃ l, (post _ m).scan = some l ∧ _) ↔ _
        rw [e4]; rfl
      · show (post _ m).reading.bind _ = _
        rw [e5]; rfl
      · intro d
        show d ∈ (post _ m).devs ∧ _ ↔ _
        rw [e6]; rfl

theorem Inv2.getReady {s : State} (h : Inv2 s) (p : Path) : Inv2 (getReady s p) := by
  have hb : Base (Backend.getReady s p) := h.base.step (.getReady p) rfl
  unfold Backend.getReady at hb ⊢
  cases hl : lookup s.sys p with
  | none => exact h
  | some e =>
    rw [hl] at hb
    simp only at hb ⊢
    by_cases hr : e.ready = true
    · rw [if_pos hr]; exact h
    · rw [if_neg hr] at hb ⊢
      have hmap : ∀ q, lookup (s.sys.map fun x => if x.path = p then { x with ready := true } else x) q =
          (lookup s.sys q).map fun x => if x.path = p then { x with ready := true } else x := by
        intro q
        exact lookup_map _ (fun x => by split <;> rfl) q
      refine h.change _ _ hb ?_ ?_ ?_
      · rw [List.map_map]
        have : (Entry.path ∘ fun x : Entry => if x.path = p then { x with ready := true } else x) = Entry.path := by
          funext x; simp only [Function.comp]; split <;> rfl
        rw [this]; exact h.hsys
      · intro q hq
        rw [hmap]
        cases hlq : lookup s.sys q with
        | none => rfl
        | some x =>
          have hx := (lookup_path hlq).2
          have hne : x.path ≠ p := by rw [hx]; exact hq
          rw [Option.map_some, if_neg hne]
      · intro v hv hvv
        have hc : v.cur = none := by
          rw [hvv]
          show cur s p = none
          unfold cur; rw [hl]; simp [hr]
        have hc' : cur { s with sys := s.sys.map fun x => if x.path = p then { x with ready := true } else x } p = some e.node := by
          unfold cur
          show (lookup (s.sys.map _) p).bind _ = _
          rw [hmap, hl, Option.map_some, if_pos (lookup_path hl).2]; rfl
        show Good _ _ { v with M := v.M ++ _, cur := cur _ p }
        rw [hc']
        exact hv.ready hc e.node

theorem Inv2.vanish {s : State} (h : Inv2 s) (p : Path) : Inv2 (vanish s p) := by
  have hb : Base (Backend.vanish s p) := h.base.step (.vanish p) rfl
  unfold Backend.vanish at hb ⊢
  cases hl : lookup s.sys p with
  | none => exact h
  | some e =>
    rw [hl] at hb
    simp only at hb ⊢
    refine h.change _ _ hb ?_ ?_ ?_
    · exact h.hsys.sublist (List.Sublist.map _ List.filter_sublist)
    · intro q hq
      rw [lookup_filter, if_neg hq]
    · intro v hv hvv
      have hc' : cur { s with sys := s.sys.filter fun x => decide (x.path ≠ p) } p = none := by
        unfold cur
        show (lookup (s.sys.filter _) p).bind _ = _
        rw [lookup_filter, if_pos rfl]; rfl
      show Good _ _ { v with M := v.M ++ _, cur := cur _ p }
      rw [hc']
      exact hv.vanish e.node

theorem Inv2.notify {s : State} (h : Inv2 s) (p : Path) : Inv2 (notify s p) := by
  have hb : Base (Backend.notify s p) := h.base.step (.notify p) rfl
  unfold Backend.notify at hb ⊢
  cases hl : lookup s.sys p with
  | none => exact h
  | some e =>
    rw [hl] at hb
    refine h.change s.sys _ hb h.hsys (fun _ _ => rfl) ?_
    intro v hv hvv
    have hc : v.cur = cur s p := by rw [hvv]; rfl
    show Good _ _ { v with M := v.M ++ [], cur := cur s p }
    rw [List.append_nil, ← hc]
    exact hv

end Libinput.Backend
