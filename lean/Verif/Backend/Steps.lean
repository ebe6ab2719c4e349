import Verif.Backend.Follow

/-! The steps of libinput keep the invariant. -/
namespace Libinput.Backend

theorem added_other (s : State) (path : Path) (n : Node) (name : Option String) (q : Path) (hq : q ≠ path) : view (deviceAdded s path n name) q = view s q := by
  rcases deviceAdded_cases s path n name with ⟨e, -⟩ | ⟨-, -, -, -, e⟩ <;> rw [e]
  refine view_ext rfl rfl Iff.rfl rfl ?_
  intro d
  show d ∈ s.devs ++ _ ∧ _ ↔ d ∈ s.devs ∧ _
  simp only [List.mem_append, List.mem_singleton]
  constructor
  · rintro ⟨h | rfl, h2⟩
    · exact ⟨h, h2⟩
    · exact absurd h2.symm hq
  · exact fun h => ⟨Or.inl h.1, h.2⟩

theorem added_self (s : State) (path : Path) (n : Node) (name : Option String) :
    view (deviceAdded s path n name) path = { view s path with L := fun d => d ∈ (deviceAdded s path n name).devs ∧ d.path = path } := by
  have h := deviceAdded_same s path n name
  refine view_ext ?_ ?_ ?_ ?_ fun _ => Iff.rfl
  · show msgs _ _ = msgs _ _
    unfold msgs; rw [h.queue]
  · show cur _ _ = cur _ _
    unfold cur; rw [h.sys]
  · show (∃ l, _ ∧ _) ↔ (∃ l, _ ∧ _)
    rw [h.scan]
  · show Option.bind _ _ = Option.bind _ _
    rw [h.reading]

/-- Devices that came by `device_added`. -/
theorem added_cases {s : State} (h : Inv1 s) (path : Path) (n : Node) (name : Option String) (he : isEvent path = true) :
    ((∀ d, d ∈ (deviceAdded s path n name).devs ↔ d ∈ s.devs) ∧
      ((cur s path = some n → ¬ Fits s path n) ∨ ∃ d ∈ s.devs, d.path = path ∧ d.seat = (name.or n.wlSeat).getD "default")) ∨
    (∃ d : Dev, d.path = path ∧ d.node = n ∧ d.seat = (name.or n.wlSeat).getD "default" ∧ Fits s path n ∧
      (∀ x ∈ s.devs, x.path = path → x.seat ≠ (name.or n.wlSeat).getD "default") ∧ ∀ x, x ∈ (deviceAdded s path n name).devs ↔ x ∈ s.devs ∨ x = d) := by
  rcases deviceAdded_cases s path n name with ⟨e, hr⟩ | ⟨h1, h2, h3, h4, e⟩
  · refine Or.inl ⟨fun d => by rw [e], ?_⟩
    rcases hr with hr | hr | ⟨d, hd, a, b⟩ | hr
    · exact Or.inl fun _ hf => hr hf.2.2.2
    · exact Or.inl fun _ hf => by rw [hf.2.2.1] at hr; cases hr
    · exact Or.inr ⟨d, hd, b, a⟩
    · refine Or.inl fun hc hf => ?_
      rw [canCreate_of_cur hc hf.2.1] at hr; cases hr
  · refine Or.inr ⟨⟨s.known.length, path, n, (name.or n.wlSeat).getD "default"⟩, rfl, rfl, rfl, ?_, ?_, ?_⟩
    · simp only [canCreate, Bool.and_eq_true] at h4
      exact ⟨he, h4.1, h2, h1⟩
    · intro x hx hp hs; exact h3 x hx ⟨hs, hp⟩
    · intro x; rw [e]; simp

theorem rd_of {s : State} {p : Path} {n : Node} (h : s.reading = some (p, n)) (q : Path) : (view s q).rd = if p = q then some n else none := by
  simp [view, h]

theorem rd_none {s : State} (h : s.reading = none) (q : Path) : (view s q).rd = none := by
  simp [view, h]

theorem scanStep_create {s : State} {l : List Path} {p : Path} {n : Node} (hl : s.scan = some l) (hr : s.reading = some (p, n)) :
    scanStep s = deviceAdded { s with reading := none } p n none := by
  unfold scanStep; simp only [hl, hr]

theorem scanStep_end {s : State} (hl : s.scan = some []) (hr : s.reading = none) : scanStep s = { s with scan := none, out := s.out ++ [.result true] } := by
  unfold scanStep; simp only [hl, hr]

theorem scanStep_next {s : State} {l : List Path} {p : Path} (hl : s.scan = some (p :: l)) (hr : s.reading = none) :
    scanStep s = match lookup s.sys p with
        | none => { s with scan := some l }
        | some e =>
          if isEvent p = false then { s with scan := some l }
          else if e.ready = false then { s with scan := some l }
          else { s with scan := some l, reading := some (p, e.node) } := by
  unfold scanStep; simp only [hl, hr]; rfl

theorem Inv2.scan {s : State} (h : Inv2 s) : Inv2 (scanStep s) := by
  have hb : Base (scanStep s) := h.base.step .scan rfl
  have hsrc : ∀ l, s.scan = some l → s.source = true := by
    intro l hl
    cases hs : s.source with
    | true => rfl
    | false => have := (h.hoff hs).2.2; rw [this] at hl; cases hl
  cases hl : s.scan with
  | none =>
    have : scanStep s = s := by unfold scanStep; rw [hl]
    rw [this]; exact h
  | some l =>
    have hs := hsrc l hl
    cases hrd : s.reading with
    | some pn =>
      obtain ⟨p, n⟩ := pn
      rw [scanStep_create hl hrd] at hb ⊢
      have hev := h.base.inv.hr p n hrd
      have hsame := deviceAdded_same { s with reading := none } p n none
      have hpl := (h.hscan l hl).2 p n hrd
      refine ⟨hb, by rw [hsame.sys]; exact h.hsys, ?_, ?_, ?_, ?_, ?_⟩
      · intro l' hl'
        rw [hsame.scan] at hl'
        refine ⟨(h.hscan l' hl').1, ?_⟩
        intro p' n' hr'
        rw [hsame.reading] at hr'; cases hr'
      · intro _; rw [hsame.reading]
      · rw [hsame.source, hsame.monitor, hsame.seatId]; exact h.hon
      · intro hf; rw [hsame.source] at hf; rw [show s.source = true from hs] at hf; cases hf
      · intro _ q hq
        by_cases e : q = p
        · subst e
          have hg := h.hgood hs q hq
          have hnoL := hg.pend (Or.inr (by rw [rd_of hrd]; simp))
          have hu : ¬ (view s q).unread := by
            rintro ⟨l', hl', hm⟩
            rw [hl] at hl'
            obtain rfl := Option.some.inj hl'
            exact hpl hm
          have hi : Inv1 { s with reading := none } := h.base.inv.of_same rfl rfl rfl (Or.inr rfl) (fun _ => rfl) (by simp)
          refine good_of (hg.create hu (n := n) (by rw [rd_of hrd]; simp) (fun d => d ∈ (deviceAdded { s with reading := none } q n none).devs ∧ d.path = q) ?_)
            hsame.seatId ?_
          · rcases added_cases hi q n none hev with ⟨hd, hr⟩ | ⟨d, h1, h2, h3, h4, -, hd⟩
            · refine Or.inr ⟨fun x hx => hnoL x ⟨(hd x).mp hx.1, hx.2⟩, ?_⟩
              intro hc hf
              rcases hr with hr | ⟨d, hd, hp, -⟩
              · exact hr hc hf
              · exact hnoL d ⟨hd, hp⟩
            · refine Or.inl ⟨d, h2, h3, h4, ?_⟩
              intro x
              rw [hd x]
              constructor
              · rintro ⟨hx | hx, hp⟩
                · exact absurd ⟨hx, hp⟩ (hnoL x)
                · exact hx
              · rintro rfl; exact ⟨Or.inr rfl, h1⟩
          · rw [added_self]; rfl
        · refine good_congr (h.hgood hs q hq) hsame.seatId ?_
          rw [added_other _ _ _ _ q e]
          refine view_ext rfl rfl Iff.rfl ?_ fun _ => Iff.rfl
          rw [rd_of hrd, if_neg (fun h => e h.symm)]; rfl
    | none =>
      cases l with
      | nil =>
        rw [scanStep_end hl hrd] at hb ⊢
        refine ⟨hb, h.hsys, by simp, fun _ => hrd, h.hon, ?_, ?_⟩
        · intro hf; rw [show s.source = true from hs] at hf; cases hf
        · intro _ q hq
          refine good_congr (h.hgood hs q hq) rfl (view_ext rfl rfl ?_ rfl fun _ => Iff.rfl)
          simp [view, hl]
      | cons p l =>
        rw [scanStep_next hl hrd] at hb ⊢
        have hnd := (h.hscan _ hl).1
        rw [List.nodup_cons] at hnd
        -- the path is left, with or without something to create
        have key : ∀ r : Option (Path × Node), (isEvent p = true → r = (cur s p).map fun n => (p, n)) → (∀ q n, r = some (q, n) → q = p) →
            Base { s with scan := some l, reading := r } → Inv2 { s with scan := some l, reading := r } := by
          intro r hr hr' hb
          refine ⟨hb, h.hsys, ?_, by simp, h.hon, ?_, ?_⟩
          · intro l' hl'
            obtain rfl := Option.some.inj hl'
            refine ⟨hnd.2, ?_⟩
            intro q n hq
            rw [hr' q n hq]; exact hnd.1
          · intro hf; rw [show s.source = true from hs] at hf; cases hf
          · intro _ q hq
            by_cases e : q = p
            · subst e
              have hg := h.hgood hs q hq
              refine good_of (hg.read ⟨_, hl, List.mem_cons_self⟩ (rd_none hrd q)) rfl (view_ext rfl rfl ?_ ?_ fun _ => Iff.rfl)
              · constructor
                · rintro ⟨l', hl', hm⟩
                  obtain rfl := Option.some.inj hl'
                  exact hnd.1 hm
                · exact False.elim
              · show r.bind _ = cur s q
                rw [hr hq]
                cases cur s q <;> simp
            · refine good_congr (h.hgood hs q hq) rfl (view_ext rfl rfl ?_ ?_ fun _ => Iff.rfl)
              · simp only [view, hl, Option.some.injEq, exists_eq_left', List.mem_cons]
                constructor
                · exact Or.inr
                · rintro (hh | hh)
                  · exact absurd hh e
                  · exact hh
              · rw [rd_none hrd]
                show r.bind _ = none
                cases r with
                | none => rfl
                | some x =>
                  have := hr' x.1 x.2 rfl
                  have hne : ¬ p = q := fun h => e h.symm
                  simp only [Option.bind_some, this, if_neg hne]
        have key0 : (isEvent p = true → cur s p = none) → Base { s with scan := some l } → Inv2 { s with scan := some l } := by
          intro hc hb
          have e : { s with scan := some l } = { s with scan := some l, reading := none } := by rw [← hrd]
          rw [e] at hb ⊢
          exact key none (fun he => by rw [hc he]; rfl) (by simp) hb
        cases hlk : lookup s.sys p with
        | none =>
          rw [hlk] at hb
          exact key0 (fun _ => by simp [cur, hlk]) hb
        | some e =>
          rw [hlk] at hb
          simp only at hb ⊢
          by_cases he : isEvent p = false
          · rw [if_pos he] at hb ⊢
            exact key0 (fun h => by rw [he] at h; cases h) hb
          · rw [if_neg he] at hb ⊢
            by_cases hr : e.ready = false
            · rw [if_pos hr] at hb ⊢
              exact key0 (fun _ => by simp [cur, hlk, hr]) hb
            · rw [if_neg hr] at hb ⊢
              refine key (some (p, e.node)) ?_ ?_ hb
              · intro _; simp [cur, hlk, hr]
              · intro q n hq
                simp only [Option.some.injEq, Prod.mk.injEq] at hq
                exact hq.1.symm

/-- The state without its first message, seen from a path. -/
theorem view_pop {s : State} {m : Msg} {q : List Msg} (hq : s.queue = m :: q) (p : Path) :
    view s p = { view { s with queue := q } p with M := if m.path = p ∧ m.action ≠ .other then m :: msgs { s with queue := q } p else msgs { s with queue := q } p } := by
  refine view_ext ?_ rfl Iff.rfl rfl fun _ => Iff.rfl
  show msgs s p = _
  unfold msgs
  rw [hq, List.filter_cons]
  by_cases h : m.path = p ∧ m.action ≠ .other
  · rw [if_pos h]; simp [h]
  · rw [if_neg h]
    by_cases h1 : m.path = p
    · have h2 : m.action = .other := Classical.byContradiction fun h2 => h ⟨h1, h2⟩
      simp [h2]
    · simp [h1]

theorem view_pop_other {s : State} {m : Msg} {q : List Msg} (hq : s.queue = m :: q) (p : Path) (h : ¬ (m.path = p ∧ m.action ≠ .other)) :
    view { s with queue := q } p = view s p := by
  rw [view_pop hq, if_neg h]; rfl

theorem Inv2.dispatch {s : State} (h : Inv2 s) (hs : s.source = true) (hsc : s.scan = none) : Inv2 (handler s) := by
  have hb : Base (handler s) := h.base.step .dispatch (by simp [step, hsc, hs])
  have hrd := h.hidle hsc
  unfold handler at hb ⊢
  cases hq : s.queue with
  | nil => exact h
  | cons m q =>
    rw [hq] at hb
    simp only at hb ⊢
    have hpop : Base { s with queue := q } → (isEvent m.path = false ∨ m.action = .other) → Inv2 { s with queue := q } := by
      intro hb hm
      refine ⟨hb, h.hsys, h.hscan, h.hidle, h.hon, (fun hf => by rw [show s.source = true from hs] at hf; cases hf), ?_⟩
      intro _ p hp
      refine good_congr (h.hgood hs p hp) rfl (view_pop_other hq p ?_)
      rintro ⟨rfl, h2⟩
      rcases hm with hm | hm
      · rw [hm] at hp; cases hp
      · exact h2 hm
    by_cases he : isEvent m.path = false
    · rw [if_pos he] at hb ⊢
      exact hpop hb (Or.inl he)
    · rw [if_neg he] at hb ⊢
      have he : isEvent m.path = true := by simpa using he
      have hi : Inv1 { s with queue := q } := h.base.inv.of_same rfl rfl rfl (Or.inr rfl) (fun _ => rfl) h.base.inv.hr
      cases ha : m.action with
      | other => rw [ha] at hb; exact hpop hb (Or.inr ha)
      | add =>
        rw [ha] at hb
        simp only at hb ⊢
        have hsame := deviceAdded_same { s with queue := q } m.path m.node none
        refine ⟨hb, by rw [hsame.sys]; exact h.hsys, by rw [hsame.scan, hsame.reading]; exact h.hscan, by rw [hsame.scan, hsame.reading]; exact h.hidle,
          by rw [hsame.source, hsame.monitor, hsame.seatId]; exact h.hon, ?_, ?_⟩
        · intro hf; rw [hsame.source] at hf; rw [show s.source = true from hs] at hf; cases hf
        · intro _ p hp
          by_cases e : p = m.path
          · subst e
            have hg := h.hgood hs _ hp
            have hm : m = ⟨.add, m.path, m.node⟩ := by rw [← ha]
            have hM : (view s m.path).M = ⟨.add, m.path, m.node⟩ :: msgs { s with queue := q } m.path := by
              rw [view_pop hq, if_pos ⟨rfl, by rw [ha]; simp⟩]; rw [← hm]
            refine good_of (hg.addMsg (by simp [view, hsc]) (rd_none hrd _) hM (fun d => d ∈ (deviceAdded { s with queue := q } m.path m.node none).devs ∧ d.path = m.path) ?_ ?_ ?_)
              hsame.seatId ?_
            · intro a b ⟨ha, hpa⟩ ⟨hb, hpb⟩ hseat
              exact h.base.inv.hu a ha b hb hseat (hpa.trans hpb.symm)
            · rintro d ⟨hd, hpd⟩
              have := h.base.inv.hq d (h.base.inv.hd d hd)
              rw [hpd] at this; exact this
            · rcases added_cases hi m.path m.node none he with ⟨hd, hr⟩ | ⟨d, h1, h2, h3, h4, h5, hd⟩
              · refine Or.inl ⟨fun x => by rw [hd x]; rfl, ?_⟩
                rcases hr with hr | ⟨d, hd, hp, hse⟩
                · exact Or.inl hr
                · exact Or.inr ⟨d, ⟨hd, hp⟩, hse⟩
              · refine Or.inr ⟨d, h2, h4, fun x hx => h5 x hx.1 hx.2, ?_⟩
                intro x
                rw [hd x]
                constructor
                · rintro ⟨hx | hx, hp⟩
                  · exact Or.inl ⟨hx, hp⟩
                  · exact Or.inr hx
                · rintro (hx | rfl)
                  · exact ⟨Or.inl hx.1, hx.2⟩
                  · exact ⟨Or.inr rfl, h1⟩
            · rw [added_self]; rfl
          · refine good_congr (h.hgood hs p hp) hsame.seatId ?_
            rw [added_other _ _ _ _ p e]
            exact view_pop_other hq p (fun h => e h.1.symm)
      | remove =>
        rw [ha] at hb
        simp only at hb ⊢
        obtain ⟨-, hrem, hd⟩ := deviceRemoved_spec hi m.path
        refine ⟨hb, by rw [hrem.sys]; exact h.hsys, by rw [hrem.scan, hrem.reading]; exact h.hscan, by rw [hrem.scan, hrem.reading]; exact h.hidle,
          by rw [hrem.source, hrem.monitor, hrem.seatId]; exact h.hon, ?_, ?_⟩
        · intro hf; rw [hrem.source] at hf; rw [show s.source = true from hs] at hf; cases hf
        · intro _ p hp
          have hview : ∀ p, view (deviceRemoved { s with queue := q } m.path) p = { view { s with queue := q } p with L := fun d => (d ∈ s.devs ∧ d.path ≠ m.path) ∧ d.path = p } := by
            intro p
            refine view_ext ?_ ?_ ?_ ?_ ?_
            · show msgs _ _ = msgs _ _
              unfold msgs; rw [hrem.queue]
            · show cur _ _ = cur _ _
              unfold cur; rw [hrem.sys]
            · show (∃ l, _ ∧ _) ↔ (∃ l, _ ∧ _)
              rw [hrem.scan]
            · show Option.bind _ _ = Option.bind _ _
              rw [hrem.reading]
            · intro d
              show d ∈ (deviceRemoved { s with queue := q } m.path).devs ∧ _ ↔ _
              rw [hd]
          by_cases e : p = m.path
          · subst e
            have hg := h.hgood hs _ hp
            have hm : m = ⟨.remove, m.path, m.node⟩ := by rw [← ha]
            have hM : (view s m.path).M = ⟨.remove, m.path, m.node⟩ :: msgs { s with queue := q } m.path := by
              rw [view_pop hq, if_pos ⟨rfl, by rw [ha]; simp⟩]; rw [← hm]
            refine good_of (hg.removeMsg (rd_none hrd _) hM) hrem.seatId ?_
            rw [hview]
            refine view_ext rfl rfl Iff.rfl rfl ?_
            intro d
            show (_ ∧ _) ∧ _ ↔ False
            constructor
            · rintro ⟨⟨-, h1⟩, h2⟩; exact h1 h2
            · exact False.elim
          · refine good_congr (h.hgood hs p hp) hrem.seatId ?_
            rw [hview, ← view_pop_other hq p (fun h => e h.1.symm)]
            refine view_ext rfl rfl Iff.rfl rfl ?_
            intro d
            show (_ ∧ _) ∧ _ ↔ _ ∧ _
            constructor
            · rintro ⟨⟨h1, -⟩, h2⟩; exact ⟨h1, h2⟩
            · rintro ⟨h1, h2⟩; exact ⟨⟨h1, by rw [h2]; exact e⟩, h2⟩


/-- Starting: nothing is there, and everything will be looked up. -/
theorem Inv2.enable {s : State} (h : Inv2 s) (f : Option Fault) : Inv2 (enable s f) := by
  have hb := h.base.enable f
  unfold Backend.enable at hb ⊢
  by_cases hm : s.monitor = true ∨ s.seatId = none
  · rw [if_pos hm] at hb ⊢
    exact ⟨hb, h.hsys, h.hscan, h.hidle, h.hon, h.hoff, h.hgood⟩
  · rw [if_neg hm] at hb ⊢
    have hsrc : s.source = false := by
      cases hs : s.source with
      | false => rfl
      | true => exact absurd (Or.inl (h.hon hs).1) hm
    cases f with
    | some f =>
      cases f with
      | filter =>
        exact ⟨hb, h.hsys, h.hscan, h.hidle, fun hs => Bool.noConfusion (hsrc.symm.trans hs), h.hoff, fun hs => Bool.noConfusion (hsrc.symm.trans hs)⟩
      | create => exact ⟨hb, h.hsys, h.hscan, h.hidle, h.hon, h.hoff, h.hgood⟩
      | bind => exact ⟨hb, h.hsys, h.hscan, h.hidle, h.hon, h.hoff, h.hgood⟩
      | addFd => exact ⟨hb, h.hsys, h.hscan, h.hidle, h.hon, h.hoff, h.hgood⟩
    | none =>
      obtain ⟨hd, -, hsc⟩ := h.hoff hsrc
      have hrd := h.hidle hsc
      refine ⟨hb, h.hsys, ?_, by simp, fun _ => ⟨rfl, fun h => hm (Or.inr h)⟩, by simp, ?_⟩
      · intro l hl
        obtain rfl := Option.some.inj hl
        refine ⟨h.hsys, ?_⟩
        intro p n hr
        rw [show s.reading = some (p, n) from hr] at hrd; cases hrd
      · intro _ p hp
        have hL : ∀ d, ¬ (view { s with monitor := true, source := true, queue := [], scan := some (s.sys.map Entry.path) } p).L d := by
          intro d hL
          have : d ∈ s.devs := hL.1
          rw [hd] at this; cases this
        refine ⟨fun _ => hL, [], [], rfl, Or.inl rfl, Or.inl ⟨rfl, fun h => absurd rfl h, fun _ => ⟨?_, ?_⟩⟩⟩
        · intro hu _
          have hu : p ∉ s.sys.map Entry.path := fun hm => hu ⟨_, rfl, hm⟩
          refine ⟨?_, fun a _ ha => absurd ha (hL a)⟩
          intro n
          constructor
          · rintro ⟨d, hd, -⟩; exact absurd hd (hL d)
          · rintro ⟨hc, -⟩
            have hc : cur s p = some n := hc
            unfold cur at hc
            rw [lookup_none.mpr hu] at hc; cases hc
        · intro n hn
          have hn : s.reading.bind _ = some n := hn
          rw [hrd] at hn; cases hn

theorem Inv2.assign {s : State} (h : Inv2 s) (id : Option String) (f : Option Fault) : Inv2 (assign s id f) := by
  have res : ∀ b, Inv2 { s with out := s.out ++ [.result b] } := fun b => ⟨h.base.result b, h.hsys, h.hscan, h.hidle, h.hon, h.hoff, h.hgood⟩
  unfold Backend.assign
  split
  · exact res _
  · rename_i i
    split
    · exact res _
    · split
      · exact res _
      · rename_i hsn
        have hn : s.seatId = none := by simpa using hsn
        have hsrc : s.source = false := by
          cases hs : s.source with
          | false => rfl
          | true => exact absurd hn (h.hon hs).2
        have h' : Inv2 { s with seatId := some i } :=
          ⟨h.base.of_same rfl rfl rfl (Or.inl hn) (fun _ => rfl) h.base.inv.hr, h.hsys, h.hscan, h.hidle,
            fun hs => Bool.noConfusion (hsrc.symm.trans hs), h.hoff, fun hs => Bool.noConfusion (hsrc.symm.trans hs)⟩
        exact h'.enable f

theorem Inv2.suspend {s t : State} (h : Inv2 s) (hsc : s.scan = none) (ht : disable s = some t) : Inv2 t := by
  unfold disable at ht
  split at ht
  · obtain rfl := Option.some.inj ht; exact h
  · split at ht
    · cases ht
    · obtain rfl := Option.some.inj ht
      have h' : Base { s with monitor := false, source := false, queue := [] } := h.base.of_same rfl rfl rfl (Or.inr rfl) (fun _ => rfl) h.base.inv.hr
      obtain ⟨a, r, hd, b⟩ := removeDevices_spec h'.inv h'.once
      refine ⟨⟨a, b⟩, by rw [r.sys]; exact h.hsys, by rw [r.scan, r.reading]; exact h.hscan, by rw [r.scan, r.reading]; exact h.hidle, ?_, ?_, ?_⟩
      · intro hs; rw [r.source] at hs; cases hs
      · intro _; rw [hd, r.queue, r.scan]; exact ⟨rfl, rfl, hsc⟩
      · intro hs; rw [r.source] at hs; cases hs

/-- The client moves a device that is there, and about which no message waits. -/
def CarefulOp (s : State) : Op → Prop
  | .changeSeat id (some _) => s.scan = none → ∃ d ∈ s.devs, d.id = id ∧ ∀ m ∈ s.queue, m.path ≠ d.path
  | _ => True

/-- What a careful change of the seat does. -/
theorem changeSeat_spec {s : State} (h : Inv2 s) (hsc : s.scan = none) {d : Dev} (hd : d ∈ s.devs) (hq : ∀ m ∈ s.queue, m.path ≠ d.path) (name : String) :
    let N : Dev := ⟨s.known.length, d.path, d.node, name⟩
    let t := changeSeat s d.id (some name)
    (∀ x, x ∈ t.devs ↔ x ∈ s.devs ∧ x ≠ d ∨ x = N) ∧ t.known = s.known ++ [N] ∧ Same s t ∧
      t.out = (deviceRemoved s d.path).out ++ [.added N, .result true] ∧ (∀ x ∈ s.devs, x.path = d.path → x = d) := by
  have hs : s.source = true := by
    cases hs : s.source with
    | true => rfl
    | false => rw [(h.hoff hs).1] at hd; cases hd
  have hfit := h.base.inv.hq d (h.base.inv.hd d hd)
  have hg := h.hgood hs d.path hfit.1
  have hM : (view s d.path).M = [] := by
    show msgs s d.path = []
    unfold msgs
    rw [List.filter_eq_nil_iff]
    intro m hm
    simp [hq m hm]
  obtain ⟨M1, T, e, h1, h2⟩ := hg.main
  rw [hM] at e
  obtain ⟨rfl, rfl⟩ := List.append_eq_nil_iff.mp e.symm
  rcases h2 with ⟨-, -, hb⟩ | ⟨n, hT, -⟩
  rotate_left
  · cases hT
  obtain ⟨hB, -⟩ := hb rfl
  obtain ⟨hB1, hB2⟩ := hB (by simp [view, hsc]) (rd_none (h.hidle hsc) _)
  have hcur : cur s d.path = some d.node := ((hB1 d.node).mp ⟨d, ⟨hd, rfl⟩, rfl⟩).1
  obtain ⟨ri, rr, rd⟩ := deviceRemoved_spec h.base.inv d.path
  have hk : s.known[d.id]? = some d := h.base.inv.known_id (h.base.inv.hd d hd)
  have hcan : canCreate (deviceRemoved s d.path) d.path d.node = true := by
    refine canCreate_of_cur ?_ hfit.2.1
    unfold cur; rw [rr.sys]; exact hcur
  have huniq : ∀ x ∈ s.devs, x.path = d.path → x = d := fun x hx hp => hB2 x d ⟨hx, hp⟩ ⟨hd, rfl⟩
  have hadd : deviceAdded (deviceRemoved s d.path) d.path d.node (some name) = { deviceRemoved s d.path with
        seats := if name ∈ (deviceRemoved s d.path).seats then (deviceRemoved s d.path).seats else name :: (deviceRemoved s d.path).seats
        devs := (deviceRemoved s d.path).devs ++ [⟨(deviceRemoved s d.path).known.length, d.path, d.node, name⟩]
        known := (deviceRemoved s d.path).known ++ [⟨(deviceRemoved s d.path).known.length, d.path, d.node, name⟩]
        out := (deviceRemoved s d.path).out ++ [.added ⟨(deviceRemoved s d.path).known.length, d.path, d.node, name⟩] } := by
    rcases deviceAdded_cases (deviceRemoved s d.path) d.path d.node (some name) with ⟨-, hr⟩ | ⟨-, -, -, -, e⟩
    · exfalso
      rcases hr with hr | hr | ⟨x, hx, -, hp⟩ | hr
      · exact hr (by rw [rr.seatId]; exact hfit.2.2.2)
      · rw [hfit.2.2.1] at hr; cases hr
      · exact ((rd x).mp hx).2 hp
      · rw [hcan] at hr; cases hr
    · exact e
  intro N t
  have ht : t = { deviceAdded (deviceRemoved s d.path) d.path d.node (some name) with
      out := (deviceAdded (deviceRemoved s d.path) d.path d.node (some name)).out ++ [.result true] } := by
    show changeSeat s d.id (some name) = _
    unfold changeSeat; rw [hk]
  rw [hadd] at ht
  rw [rr.known] at ht
  refine ⟨?_, ?_, ?_, ?_, huniq⟩
  · intro x
    rw [ht]
    show x ∈ (deviceRemoved s d.path).devs ++ [N] ↔ _
    rw [List.mem_append, rd, List.mem_singleton]
    constructor
    · rintro (⟨hx, hp⟩ | hx)
      · exact Or.inl ⟨hx, fun e => hp (by rw [e])⟩
      · exact Or.inr hx
    · rintro (⟨hx, hne⟩ | hx)
      · exact Or.inl ⟨hx, fun hp => hne (huniq x hx hp)⟩
      · exact Or.inr hx
  · rw [ht]
  · rw [ht]; exact ⟨rr.sys, rr.serial, rr.monitor, rr.source, rr.queue, rr.scan, rr.reading, rr.seatId⟩
  · rw [ht]; show (_ ++ _) ++ _ = _; rw [List.append_assoc]; rfl

theorem Inv2.changeSeat {s : State} (h : Inv2 s) (hsc : s.scan = none) (id : Nat) (name : Option String) (hc : CarefulOp s (.changeSeat id name)) :
    Inv2 (changeSeat s id name) := by
  have hb := h.base.changeSeat id name
  cases name with
  | none =>
    unfold Backend.changeSeat at hb ⊢
    cases hk : s.known[id]? with
    | none => exact h
    | some d => rw [hk] at hb; exact ⟨hb, h.hsys, h.hscan, h.hidle, h.hon, h.hoff, h.hgood⟩
  | some name =>
    obtain ⟨d, hd, rfl, hq⟩ := hc hsc
    have hs : s.source = true := by
      cases hs : s.source with
      | true => rfl
      | false => rw [(h.hoff hs).1] at hd; cases hd
    obtain ⟨hdev, -, hsame, -, huniq⟩ := changeSeat_spec h hsc hd hq name
    have hfit := h.base.inv.hq d (h.base.inv.hd d hd)
    refine ⟨hb, by rw [hsame.sys]; exact h.hsys, by rw [hsame.scan, hsame.reading]; exact h.hscan, by rw [hsame.scan, hsame.reading]; exact h.hidle,
      by rw [hsame.source, hsame.monitor, hsame.seatId]; exact h.hon, ?_, ?_⟩
    · intro hf; rw [hsame.source, hs] at hf; cases hf
    · intro _ p hp
      have hview : view (Backend.changeSeat s d.id (some name)) p = { view s p with L := fun x => (x ∈ s.devs ∧ x ≠ d ∨ x = ⟨s.known.length, d.path, d.node, name⟩) ∧ x.path = p } := by
        refine view_ext ?_ ?_ ?_ ?_ ?_
        · show msgs _ _ = msgs _ _
          unfold msgs; rw [hsame.queue]
        · show cur _ _ = cur _ _
          unfold cur; rw [hsame.sys]
        · show (∃ l, _ ∧ _) ↔ (∃ l, _ ∧ _)
          rw [hsame.scan]
        · show Option.bind _ _ = Option.bind _ _
          rw [hsame.reading]
        · intro x
          show x ∈ (Backend.changeSeat s d.id (some name)).devs ∧ _ ↔ _
          rw [hdev]
      by_cases e : p = d.path
      · subst e
        have hg := h.hgood hs _ hp
        refine good_of (s := s) ?_ hsame.seatId hview
        refine ⟨fun hpend => absurd hpend (by simp [view, hsc, h.hidle hsc]), [], [], ?_, Or.inl rfl, Or.inl ⟨rfl, fun h => absurd rfl h, fun _ => ⟨?_, ?_⟩⟩⟩
        · show msgs s d.path = []
          unfold msgs
          rw [List.filter_eq_nil_iff]
          intro m hm
          simp [hq m hm]
        · intro _ _
          obtain ⟨M1, T, e, h1, h2⟩ := hg.main
          have hM : (view s d.path).M = [] := by
            show msgs s d.path = []
            unfold msgs
            rw [List.filter_eq_nil_iff]
            intro m hm
            simp [hq m hm]
          rw [hM] at e
          obtain ⟨rfl, rfl⟩ := List.append_eq_nil_iff.mp e.symm
          rcases h2 with ⟨-, -, hb⟩ | ⟨n, hT, -⟩
          rotate_left
          · cases hT
          obtain ⟨hB1, -⟩ := (hb rfl).1 (by simp [view, hsc]) (rd_none (h.hidle hsc) _)
          have hcur := (hB1 d.node).mp ⟨d, ⟨hd, rfl⟩, rfl⟩
          have hx : ∀ x : Dev, ((x ∈ s.devs ∧ x ≠ d ∨ x = ⟨s.known.length, d.path, d.node, name⟩) ∧ x.path = d.path) ↔ x = ⟨s.known.length, d.path, d.node, name⟩ := by
            intro x
            constructor
            · rintro ⟨⟨a, b⟩ | a, c⟩
              · exact absurd (huniq x a c) b
              · exact a
            · rintro rfl; exact ⟨Or.inr rfl, rfl⟩
          refine ⟨?_, fun a b ha hb => ((hx a).mp ha).trans ((hx b).mp hb).symm⟩
          intro n
          constructor
          · rintro ⟨x, hxx, rfl⟩
            rw [(hx x).mp hxx]; exact hcur
          · rintro ⟨hc, -⟩
            refine ⟨_, (hx _).mpr rfl, ?_⟩
            have := hcur.1.symm.trans hc
            exact Option.some.inj this
        · intro n hn
          have hn : s.reading.bind _ = some n := hn
          rw [h.hidle hsc] at hn; cases hn
      · refine good_congr (h.hgood hs p hp) hsame.seatId ?_
        rw [hview]
        refine view_ext rfl rfl Iff.rfl rfl ?_
        intro x
        show (_ ∨ _) ∧ _ ↔ _ ∧ _
        constructor
        · rintro ⟨⟨a, -⟩ | rfl, c⟩
          · exact ⟨a, c⟩
          · exact absurd c.symm e
        · rintro ⟨a, c⟩; exact ⟨Or.inl ⟨a, fun h => e (by rw [← c, h])⟩, c⟩

theorem Inv2.step {s t : State} (h : Inv2 s) (op : Op) (hc : CarefulOp s op) (hs : step s op = some t) : Inv2 t := by
  cases op with
  | appear p n => obtain rfl := Option.some.inj hs; exact h.appear p n
  | getReady p => obtain rfl := Option.some.inj hs; exact h.getReady p
  | vanish p => obtain rfl := Option.some.inj hs; exact h.vanish p
  | notify p => obtain rfl := Option.some.inj hs; exact h.notify p
  | scan => obtain rfl := Option.some.inj hs; exact h.scan
  | dispatch =>
    simp only [Backend.step] at hs
    split at hs
    · obtain rfl := Option.some.inj hs; exact h
    · rename_i hsc
      obtain rfl := Option.some.inj hs
      split
      · exact h.dispatch (by assumption) (by simpa using hsc)
      · exact h
  | assign id f =>
    simp only [Backend.step] at hs
    split at hs <;> obtain rfl := Option.some.inj hs
    · exact h
    · exact h.assign id f
  | suspend =>
    simp only [Backend.step] at hs
    split at hs
    · obtain rfl := Option.some.inj hs; exact h
    · exact h.suspend (by simp_all) hs
  | resume f =>
    simp only [Backend.step] at hs
    split at hs <;> obtain rfl := Option.some.inj hs
    · exact h
    · exact h.enable f
  | changeSeat id name =>
    simp only [Backend.step] at hs
    split at hs <;> obtain rfl := Option.some.inj hs
    · exact h
    · exact h.changeSeat (by simp_all) id name hc

theorem inv2_init : Inv2 {} :=
  ⟨base_init, by simp, by simp, by simp, by simp, by simp, by simp⟩

/-- All steps of the client are careful. -/
def Careful (s : State) : List Op → Prop
  | [] => True
  | op :: ops => CarefulOp s op ∧ ∀ t, step s op = some t → Careful t ops

theorem Inv2.run {s t : State} (h : Inv2 s) (ops : List Op) (hc : Careful s ops) (hr : run s ops = some t) : Inv2 t := by
  induction ops generalizing s with
  | nil => exact Option.some.inj hr ▸ h
  | cons op ops ih =>
    simp only [Backend.run, Option.bind_eq_some_iff] at hr
    obtain ⟨u, h1, h2⟩ := hr
    exact ih (h.step op hc.1 h1) (hc.2 u h1) h2

end Libinput.Backend
