import Verif.Tools.Caps
/-
What is true of the lists of tools after any history.
-/
namespace Libinput.Tools

/-- Where a told tool is kept. -/
def Kept (s : State) (e : Told) : Prop :=
  if e.tool.serial ≠ 0 then e.tool ∈ s.shared else ∀ b ∈ s.tablets, b.uid = e.uid → e.tool ∈ b.own

/-- Later frames agree with earlier ones. -/
def Agree (e e' : Told) : Prop :=
  (e.kind = e'.kind → e.serial = e'.serial → e.tool.serial ≠ 0 → e'.tool = e.tool) ∧
  (e.uid = e'.uid → e.kind = e'.kind → e.serial = 0 → e'.serial = 0 → e'.tool = e.tool)

/-- A tool was made from what was known in the first frame that carried it. -/
def Made (db : Nat → Option Stylus) (told : List Told) (e : Told) : Prop :=
  ∃ e0, Spec.FirstUse told e.tool e0 ∧
    ∀ b : Tablet, b.dev = e0.dev → b.caps = e0.dev.hasAxis →
      e.tool = newTool db b e.tool.obj e0.kind e0.id e0.serial

structure Inv (db : Nat → Option Stylus) (s : State) : Prop where
  caps : ∀ b ∈ s.tablets, b.caps = b.dev.hasAxis
  kinds : ∀ b ∈ s.tablets, b.kind ≠ some .totem
  uids : ∀ b ∈ s.tablets, b.uid < s.uids
  uidT : ∀ e ∈ s.told, e.uid < s.uids
  nodup : s.tablets.Pairwise (fun a b => a.uid ≠ b.uid)
  kind : ∀ e ∈ s.told, e.tool.kind = e.kind ∧ e.kind ≠ .totem
  serial : ∀ e ∈ s.told, e.tool.serial = e.serial ∨ e.tool.serial = 0
  obj : ∀ e ∈ s.told, e.tool.obj < s.objs
  shObj : ∀ t ∈ s.shared, t.obj < s.objs
  kept : ∀ e ∈ s.told, Kept s e
  sh : ∀ t ∈ s.shared, t.kind ≠ .totem → t.serial ≠ 0 ∧ ∃ e ∈ s.told, e.tool = t
  own : ∀ b ∈ s.tablets, ∀ t ∈ b.own, t.serial = 0 ∧ ∃ e ∈ s.told, e.tool = t ∧ e.uid = b.uid
  shUni : ∀ t ∈ s.shared, ∀ u ∈ s.shared, t.serial ≠ 0 → t.kind = u.kind → t.serial = u.serial → t = u
  ownUni : ∀ b ∈ s.tablets, ∀ t ∈ b.own, ∀ u ∈ b.own, t.kind = u.kind → t = u
  same : ∀ e ∈ s.told, ∀ e' ∈ s.told, e.tool.obj = e'.tool.obj →
    e.tool = e'.tool ∧ (e.tool.serial = 0 → e.uid = e'.uid)
  agree : s.told.Pairwise Agree
  made : ∀ e ∈ s.told, Made db s.told e
  named : ∀ pre e post, s.told = pre ++ e :: post → e.serial ≠ 0 →
    (∀ x ∈ pre, x.uid = e.uid → x.kind = e.kind → x.tool.serial ≠ 0) → e.tool.serial = e.serial

theorem inv_init (db : Nat → Option Stylus) : Inv db {} := by
  constructor <;> simp

theorem find_some {s : State} {u : Nat} {b : Tablet} (h : s.find u = some b) : b ∈ s.tablets ∧ b.uid = u := by
  unfold State.find at h
  exact ⟨List.mem_of_find?_eq_some h, by simpa using List.find?_some h⟩

theorem mem_update {s : State} {u : Nat} {f : Tablet → Tablet} {b : Tablet} (h : b ∈ (s.update u f).tablets) :
    ∃ c ∈ s.tablets, b = if c.uid = u then f c else c := by
  simp only [State.update, List.mem_map] at h
  obtain ⟨c, hc, rfl⟩ := h
  exact ⟨c, hc, rfl⟩

/-- Changing what the kernel said of the tool on one tablet. -/
theorem inv_update (db : Nat → Option Stylus) (s : State) (u : Nat) (f : Tablet → Tablet)
    (hf : ∀ b, (f b).uid = b.uid ∧ (f b).dev = b.dev ∧ (f b).caps = b.caps ∧ (f b).own = b.own)
    (hk : ∀ b, b.kind ≠ some .totem → (f b).kind ≠ some .totem) (h : Inv db s) : Inv db (s.update u f) := by
  have hg : ∀ b ∈ (s.update u f).tablets, ∃ c ∈ s.tablets, b.uid = c.uid ∧ b.dev = c.dev ∧ b.caps = c.caps ∧
      b.own = c.own ∧ (c.kind ≠ some .totem → b.kind ≠ some .totem) := by
    intro b hb
    obtain ⟨c, hc, rfl⟩ := mem_update hb
    refine ⟨c, hc, ?_⟩
    split
    · exact ⟨(hf c).1, (hf c).2.1, (hf c).2.2.1, (hf c).2.2.2, hk c⟩
    · exact ⟨rfl, rfl, rfl, rfl, id⟩
  exact {
    caps := fun b hb => by obtain ⟨c, hc, -, h2, h3, -⟩ := hg b hb; rw [h2, h3]; exact h.caps c hc
    kinds := fun b hb => by obtain ⟨c, hc, -, -, -, -, h5⟩ := hg b hb; exact h5 (h.kinds c hc)
    uids := fun b hb => by obtain ⟨c, hc, h1, -⟩ := hg b hb; rw [h1]; exact h.uids c hc
    uidT := h.uidT
    nodup := by
      show ((s.tablets.map _)).Pairwise _
      rw [List.pairwise_map]
      refine h.nodup.imp ?_
      intro a b hab
      have e : ∀ c : Tablet, (if c.uid = u then f c else c).uid = c.uid := by
        intro c; split
        · exact (hf c).1
        · rfl
      rw [e a, e b]; exact hab
    kind := h.kind
    serial := h.serial
    obj := h.obj
    shObj := h.shObj
    kept := fun e he => by
      have := h.kept e he
      unfold Kept at this ⊢
      split at this
      · exact (if_pos ‹_›).mpr this
      · rw [if_neg ‹_›]
        intro b hb hu
        obtain ⟨c, hc, h1, -, -, h4, -⟩ := hg b hb
        rw [h4]; exact this c hc (h1 ▸ hu)
    sh := h.sh
    own := fun b hb t ht => by
      obtain ⟨c, hc, h1, -, -, h4, -⟩ := hg b hb
      rw [h4] at ht; rw [h1]; exact h.own c hc t ht
    shUni := h.shUni
    ownUni := fun b hb => by
      obtain ⟨c, hc, h1, -, -, h4, -⟩ := hg b hb
      rw [h4]; exact h.ownUni c hc
    same := h.same
    agree := h.agree
    made := h.made
    named := h.named }

theorem find_own {b : Tablet} {k : Kind} {t : Tool} (h : findOwn b k = some t) : t ∈ b.own ∧ t.kind = k := by
  unfold findOwn at h
  exact ⟨List.mem_of_find?_eq_some h, by simpa using List.find?_some h⟩

theorem find_own_none {b : Tablet} {k : Kind} (h : findOwn b k = none) : ∀ t ∈ b.own, t.kind ≠ k := by
  unfold findOwn at h
  simpa using h

theorem find_shared {s : State} {k : Kind} {n : Nat} {t : Tool} (h : findShared s k n = some t) :
    t ∈ s.shared ∧ t.kind = k ∧ t.serial = n ∧ n ≠ 0 := by
  unfold findShared at h
  split at h
  · have := List.find?_some h
    simp only [Bool.and_eq_true, decide_eq_true_eq] at this
    exact ⟨List.mem_of_find?_eq_some h, this.1, this.2, ‹_›⟩
  · exact absurd h (by simp)

theorem find_shared_none {s : State} {k : Kind} {n : Nat} (h : findShared s k n = none) :
    ∀ t ∈ s.shared, n ≠ 0 → t.kind = k → t.serial ≠ n := by
  unfold findShared at h
  intro t ht hn hk he
  rw [if_pos hn] at h
  have := List.find?_eq_none.mp h t ht
  simp [hk, he] at this

theorem firstUse_append {told : List Told} {t : Tool} {e0 e : Told} (h : Spec.FirstUse told t e0) :
    Spec.FirstUse (told ++ [e]) t e0 := by
  obtain ⟨pre, post, rfl, h2, h3⟩ := h
  exact ⟨pre, post ++ [e], by simp, h2, h3⟩

theorem split_last {α : Type} {l pre post : List α} {a e : α} (h : l ++ [a] = pre ++ e :: post) :
    (post = [] ∧ pre = l ∧ e = a) ∨ ∃ post', post = post' ++ [a] ∧ l = pre ++ e :: post' := by
  rcases List.eq_nil_or_concat post with rfl | ⟨p, x, rfl⟩
  · obtain ⟨h1, h2⟩ := List.append_inj' h rfl
    exact .inl ⟨rfl, h1.symm, by simpa using h2.symm⟩
  · right
    have h' : l ++ [a] = (pre ++ e :: p) ++ [x] := by simpa [List.concat_eq_append] using h
    obtain ⟨h1, h2⟩ := List.append_inj' h' rfl
    exact ⟨p, by simp [List.concat_eq_append] at h2 ⊢; exact h2.symm, h1⟩

/-- A frame that is about a tool known already. -/
theorem inv_reuse (db : Nat → Option Stylus) (s : State) (b : Tablet) (hb : b ∈ s.tablets) (k : Kind)
    (hk : b.kind = some k) (t : Tool)
    (ht : findShared s k b.serial = some t ∨ (findShared s k b.serial = none ∧ findOwn b k = some t)) (h : Inv db s) :
    Inv db { s with told := s.told ++ [⟨b.uid, b.dev, k, b.id, b.serial, t⟩] } := by
  have hkt : k ≠ .totem := fun e => h.kinds b hb (e ▸ hk)
  -- an earlier frame carried it
  have hex : ∃ e ∈ s.told, e.tool = t ∧ (t.serial = 0 → e.uid = b.uid) := by
    rcases ht with ht | ⟨-, ht⟩
    · obtain ⟨h1, h2, h3, h4⟩ := find_shared ht
      obtain ⟨g, e, he, hee⟩ := h.sh t h1 (by rw [h2]; exact hkt)
      exact ⟨e, he, hee, fun h0 => absurd h0 g⟩
    · obtain ⟨h1, h2⟩ := find_own ht
      obtain ⟨g, e, he, hee, hu⟩ := h.own b hb t h1
      exact ⟨e, he, hee, fun _ => hu⟩
  obtain ⟨e0, he0, het, heu⟩ := hex
  have htk : t.kind = k := by
    rcases ht with ht | ⟨-, ht⟩
    · exact (find_shared ht).2.1
    · exact (find_own ht).2
  have hts : t.serial = b.serial ∨ t.serial = 0 := by
    rcases ht with ht | ⟨-, ht⟩
    · exact .inl (find_shared ht).2.2.1
    · exact .inr (h.own b hb t (find_own ht).1).1
  have hmem : ∀ {P : Told → Prop}, (∀ e ∈ s.told, P e) → P ⟨b.uid, b.dev, k, b.id, b.serial, t⟩ →
      ∀ e ∈ s.told ++ [⟨b.uid, b.dev, k, b.id, b.serial, t⟩], P e := by
    intro P h1 h2 e he
    simp only [List.mem_append, List.mem_singleton] at he
    rcases he with he | rfl
    · exact h1 e he
    · exact h2
  exact {
    caps := h.caps
    kinds := h.kinds
    uids := h.uids
    uidT := hmem h.uidT (h.uids b hb)
    nodup := h.nodup
    kind := hmem h.kind ⟨htk, hkt⟩
    serial := hmem h.serial hts
    obj := hmem h.obj (by have := h.obj e0 he0; rw [het] at this; exact this)
    shObj := h.shObj
    kept := hmem (fun e he => h.kept e he) (by
      have := h.kept e0 he0
      unfold Kept at this ⊢
      rw [het] at this
      show if t.serial ≠ 0 then _ else _
      split at this
      · rw [if_pos ‹_›]; exact this
      · rw [if_neg ‹_›]
        have h0 : t.serial = 0 := by omega
        intro c hc hu
        exact this c hc (hu.trans (heu h0).symm))
    sh := fun u hu hn => by
      obtain ⟨g, e, he, hee⟩ := h.sh u hu hn
      exact ⟨g, e, by simp [he], hee⟩
    own := fun c hc u hu => by
      obtain ⟨g, e, he, hee⟩ := h.own c hc u hu
      exact ⟨g, e, by simp [he], hee⟩
    shUni := h.shUni
    ownUni := h.ownUni
    same := by
      have key : ∀ e ∈ s.told, e.tool.obj = t.obj → e.tool = t ∧ (t.serial = 0 → e.uid = b.uid) := by
        intro e he heq
        obtain ⟨g1, g2⟩ := h.same e he e0 he0 (by rw [het]; exact heq)
        rw [het] at g1
        exact ⟨g1, fun h0 => (g2 (by rw [g1]; exact h0)).trans (heu h0)⟩
      refine hmem (fun e he => hmem (fun e' he' => h.same e he e' he') ?_) (hmem (fun e' he' => ?_) ?_)
      · intro heq
        obtain ⟨g1, g2⟩ := key e he heq
        exact ⟨g1, fun h0 => g2 (g1 ▸ h0)⟩
      · intro heq
        obtain ⟨g1, g2⟩ := key e' he' heq.symm
        exact ⟨g1.symm, fun h0 => (g2 h0).symm⟩
      · intro _; exact ⟨rfl, fun _ => rfl⟩
    agree := by
      rw [List.pairwise_append]
      refine ⟨h.agree, List.pairwise_singleton _ _, ?_⟩
      intro e he e' he'
      rw [List.mem_singleton] at he'
      subst he'
      refine ⟨fun h1 h2 h3 => ?_, fun h1 h2 h3 h4 => ?_⟩
      · -- unique: it is in the shared list
        have hkp := h.kept e he
        unfold Kept at hkp
        rw [if_pos h3] at hkp
        have hes : e.tool.serial = e.serial := by
          rcases h.serial e he with g | g
          · exact g
          · exact absurd g h3
        have hek := (h.kind e he).1
        rcases ht with ht | ⟨ht, -⟩
        · obtain ⟨g1, g2, g3, -⟩ := find_shared ht
          exact (h.shUni _ hkp _ g1 h3 (by rw [g2, hek]; exact h1) (by rw [g3, hes]; exact h2)).symm
        · exact absurd (hes.trans h2) (find_shared_none ht _ hkp
            (by have h2' : e.serial = b.serial := h2
                rw [← h2', ← hes]; exact h3) (by rw [hek]; exact h1))
      · have h4' : b.serial = 0 := h4
        have hs0 : e.tool.serial = 0 := by rcases h.serial e he with g | g <;> omega
        have hkp := h.kept e he
        unfold Kept at hkp
        rw [if_neg (by simpa using hs0)] at hkp
        have hin := hkp b hb h1.symm
        rcases ht with ht | ⟨-, ht⟩
        · exact absurd h4' (find_shared ht).2.2.2
        · obtain ⟨g1, g2⟩ := find_own ht
          exact h.ownUni b hb _ g1 _ hin (by rw [g2, (h.kind e he).1]; exact h2.symm)
    made := by
      refine hmem (fun e he => ?_) ?_
      · obtain ⟨x, hx, hy⟩ := h.made e he
        exact ⟨x, firstUse_append hx, hy⟩
      · obtain ⟨x, hx, hy⟩ := h.made e0 he0
        rw [het] at hx hy
        exact ⟨x, firstUse_append hx, hy⟩
    named := by
      intro pre e post heq hn hpre
      rcases split_last heq with ⟨-, rfl, rfl⟩ | ⟨post', -, hl⟩
      · rcases ht with ht | ⟨-, ht⟩
        · exact (find_shared ht).2.2.1
        · exfalso
          obtain ⟨g1, g2⟩ := find_own ht
          have h0 := (h.own b hb t g1).1
          refine hpre e0 he0 (heu h0) ?_ (by rw [het]; exact h0)
          rw [← (h.kind e0 he0).1, het]; exact htk
      · exact h.named pre e post' hl hn hpre }

/-- A frame that is about a new tool. -/
theorem inv_new (db : Nat → Option Stylus) (s : State) (b : Tablet) (hb : b ∈ s.tablets) (k : Kind)
    (hk : b.kind = some k) (hs : findShared s k b.serial = none) (ho : findOwn b k = none) (h : Inv db s) :
    Inv db { addTool s b (newTool db b s.objs k b.id b.serial) with
      told := s.told ++ [⟨b.uid, b.dev, k, b.id, b.serial, newTool db b s.objs k b.id b.serial⟩] } := by
  have hkt : k ≠ .totem := fun e => h.kinds b hb (e ▸ hk)
  obtain ⟨t, htd⟩ : ∃ t, newTool db b s.objs k b.id b.serial = t := ⟨_, rfl⟩
  obtain ⟨t1, t2, t3, t4⟩ := newTool_basic db b s.objs k b.id b.serial
  rw [htd] at t1 t2 t3 t4
  have hmade : ∀ c : Tablet, c.dev = b.dev → c.caps = b.dev.hasAxis → t = newTool db c t.obj k b.id b.serial := by
    intro c h1 h2
    rw [t1, ← htd]
    exact newTool_dev db b c (by rw [h2, h.caps b hb]) h1.symm _ _ _ _
  rw [htd]
  have hmem : ∀ {P : Told → Prop}, (∀ e ∈ s.told, P e) → P ⟨b.uid, b.dev, k, b.id, b.serial, t⟩ →
      ∀ e ∈ s.told ++ [⟨b.uid, b.dev, k, b.id, b.serial, t⟩], P e := by
    intro P h1 h2 e he
    simp only [List.mem_append, List.mem_singleton] at he
    rcases he with he | rfl
    · exact h1 e he
    · exact h2
  obtain ⟨s', hs'⟩ : ∃ s' : State, ({ addTool s b t with
      told := s.told ++ [⟨b.uid, b.dev, k, b.id, b.serial, t⟩] } : State) = s' := ⟨_, rfl⟩
  rw [hs']
  have e_told : s'.told = s.told ++ [⟨b.uid, b.dev, k, b.id, b.serial, t⟩] := by rw [← hs']
  have e_objs : s'.objs = s.objs + 1 := by
    rw [← hs']; unfold addTool; simp only; split <;> rfl
  have e_uids : s'.uids = s.uids := by
    rw [← hs']; unfold addTool; simp only; split <;> rfl
  have e_sh : s'.shared = if b.serial ≠ 0 then t :: s.shared else s.shared := by
    rw [← hs']; unfold addTool; simp only [t3]; split <;> rfl
  have e_tab : ∀ c ∈ s'.tablets, ∃ c0 ∈ s.tablets, c.uid = c0.uid ∧ c.dev = c0.dev ∧ c.caps = c0.caps ∧
      c.kind = c0.kind ∧ c.own = if b.serial = 0 ∧ c0.uid = b.uid then t :: c0.own else c0.own := by
    intro c hc
    rw [← hs'] at hc
    unfold addTool at hc
    simp only [t3] at hc
    split at hc
    · have hz : ¬ (b.serial = 0) := ‹_›
      exact ⟨c, hc, rfl, rfl, rfl, rfl, by simp [hz]⟩
    · have hz : b.serial = 0 := by have := ‹¬ b.serial ≠ 0›; omega
      obtain ⟨c0, h0, rfl⟩ := mem_update hc
      refine ⟨c0, h0, ?_⟩
      by_cases hu : c0.uid = b.uid <;> simp [hu, hz]
  have e_nodup : s'.tablets.Pairwise (fun a b => a.uid ≠ b.uid) := by
    rw [← hs']
    unfold addTool
    simp only
    split
    · exact h.nodup
    · show (s.tablets.map _).Pairwise _
      rw [List.pairwise_map]
      refine h.nodup.imp ?_
      intro x y hxy
      have e : ∀ c : Tablet, (if c.uid = b.uid then { c with own := t :: c.own } else c).uid = c.uid := by
        intro c; split <;> rfl
      rw [e x, e y]; exact hxy
  have huniq : ∀ c ∈ s.tablets, c.uid = b.uid → c = b := by
    intro c hc hu
    by_cases hcb : c = b
    · exact hcb
    · exfalso
      have : ∀ {l : List Tablet}, l.Pairwise (fun a b => a.uid ≠ b.uid) → c ∈ l → b ∈ l → False := by
        intro l
        induction l with
        | nil => intro _ h1; cases h1
        | cons x xs ih =>
          intro hp h1 h2
          rw [List.pairwise_cons] at hp
          rcases List.mem_cons.mp h1 with rfl | h1' <;> rcases List.mem_cons.mp h2 with rfl | h2'
          · exact hcb rfl
          · exact hp.1 _ h2' hu
          · exact hp.1 _ h1' hu.symm
          · exact ih hp.2 h1' h2'
      exact this h.nodup hc hb
  have hfresh : ∀ e ∈ s.told, e.tool.obj ≠ t.obj := by
    intro e he; have := h.obj e he; rw [t1]; omega
  have hnewKept : Kept s' ⟨b.uid, b.dev, k, b.id, b.serial, t⟩ := by
    show if t.serial ≠ 0 then t ∈ s'.shared else ∀ c ∈ s'.tablets, c.uid = b.uid → t ∈ c.own
    rw [t3]
    split
    · rw [e_sh, if_pos ‹_›]; exact List.mem_cons_self ..
    · have hz : b.serial = 0 := by have := ‹¬ b.serial ≠ 0›; omega
      intro c hc hu
      obtain ⟨c0, h0, g1, -, -, -, g5⟩ := e_tab c hc
      rw [g5, if_pos ⟨hz, by rw [← g1]; exact hu⟩]; exact List.mem_cons_self ..
  exact {
    caps := fun c hc => by
      obtain ⟨c0, h0, -, g2, g3, -⟩ := e_tab c hc; rw [g2, g3]; exact h.caps c0 h0
    kinds := fun c hc => by
      obtain ⟨c0, h0, -, -, -, g4, -⟩ := e_tab c hc; rw [g4]; exact h.kinds c0 h0
    uids := fun c hc => by
      obtain ⟨c0, h0, g1, -⟩ := e_tab c hc; rw [g1, e_uids]; exact h.uids c0 h0
    uidT := by rw [e_told, e_uids]; exact hmem h.uidT (h.uids b hb)
    nodup := e_nodup
    kind := by rw [e_told]; exact hmem h.kind ⟨t2, hkt⟩
    serial := by rw [e_told]; exact hmem h.serial (.inl t3)
    obj := by
      rw [e_told, e_objs]
      refine hmem (fun e he => Nat.lt_succ_of_lt (h.obj e he)) ?_
      show t.obj < _; rw [t1]; exact Nat.lt_succ_self _
    shObj := by
      rw [e_sh, e_objs]
      have := fun u hu => Nat.lt_succ_of_lt (h.shObj u hu)
      split
      · intro u hu
        rcases List.mem_cons.mp hu with rfl | hu
        · rw [t1]; exact Nat.lt_succ_self _
        · exact this u hu
      · exact this
    kept := by
      rw [e_told]
      refine hmem (fun e he => ?_) hnewKept
      have := h.kept e he
      unfold Kept at this ⊢
      split at this
      · rw [if_pos ‹_›, e_sh]
        split
        · exact List.mem_cons_of_mem _ this
        · exact this
      · rw [if_neg ‹_›]
        intro c hc hu
        obtain ⟨c0, h0, g1, -, -, -, g5⟩ := e_tab c hc
        have := this c0 h0 (by rw [← g1]; exact hu)
        rw [g5]
        split
        · exact List.mem_cons_of_mem _ this
        · exact this
    sh := by
      rw [e_sh, e_told]
      have old : ∀ u ∈ s.shared, u.kind ≠ .totem → u.serial ≠ 0 ∧
          ∃ e ∈ s.told ++ [⟨b.uid, b.dev, k, b.id, b.serial, t⟩], e.tool = u := by
        intro u hu hn
        obtain ⟨g, e, he, hee⟩ := h.sh u hu hn
        exact ⟨g, e, by simp [he], hee⟩
      split
      · intro u hu hn
        rcases List.mem_cons.mp hu with rfl | hu
        · exact ⟨by rw [t3]; assumption, ⟨b.uid, b.dev, k, b.id, b.serial, u⟩, by simp, rfl⟩
        · exact old u hu hn
      · exact old
    own := by
      intro c hc u hu
      rw [e_told]
      obtain ⟨c0, h0, g1, -, -, -, g5⟩ := e_tab c hc
      have old : u ∈ c0.own → u.serial = 0 ∧ ∃ e ∈ s.told ++ [⟨b.uid, b.dev, k, b.id, b.serial, t⟩],
          e.tool = u ∧ e.uid = c.uid := by
        intro hu
        obtain ⟨g, e, he, hee, heu⟩ := h.own c0 h0 u hu
        exact ⟨g, e, by simp [he], hee, by rw [g1]; exact heu⟩
      rw [g5] at hu
      split at hu
      · rename_i hcond
        rcases List.mem_cons.mp hu with rfl | hu
        · exact ⟨by rw [t3]; exact hcond.1, ⟨b.uid, b.dev, k, b.id, b.serial, u⟩, by simp, rfl,
            by rw [g1]; exact hcond.2.symm⟩
        · exact old hu
      · exact old hu
    shUni := by
      rw [e_sh]
      split
      · rename_i hn
        intro u hu v hv h0 h1 h2
        rcases List.mem_cons.mp hu with rfl | hu' <;> rcases List.mem_cons.mp hv with rfl | hv'
        · rfl
        · exact absurd (h2.symm.trans t3) (find_shared_none hs v hv' hn (h1.symm.trans t2))
        · exact absurd (h2.trans t3) (find_shared_none hs u hu' hn (h1.trans t2))
        · exact h.shUni u hu' v hv' h0 h1 h2
      · exact h.shUni
    ownUni := by
      intro c hc
      obtain ⟨c0, h0, g1, -, -, -, g5⟩ := e_tab c hc
      rw [g5]
      split
      · rename_i hcond
        have hcb := huniq c0 h0 hcond.2
        intro u hu v hv h1
        rcases List.mem_cons.mp hu with rfl | hu' <;> rcases List.mem_cons.mp hv with rfl | hv'
        · rfl
        · exact absurd (h1.symm.trans t2) (find_own_none ho v (hcb ▸ hv'))
        · exact absurd (h1.trans t2) (find_own_none ho u (hcb ▸ hu'))
        · exact h.ownUni c0 h0 u hu' v hv' h1
      · exact h.ownUni c0 h0
    same := by
      rw [e_told]
      refine hmem (fun e he => hmem (fun e' he' => h.same e he e' he') ?_) (hmem (fun e' he' => ?_) ?_)
      · intro heq; exact absurd heq (hfresh e he)
      · intro heq; exact absurd heq.symm (hfresh e' he')
      · intro _; exact ⟨rfl, fun _ => rfl⟩
    agree := by
      rw [e_told, List.pairwise_append]
      refine ⟨h.agree, List.pairwise_singleton _ _, ?_⟩
      intro e he e' he'
      rw [List.mem_singleton] at he'
      subst he'
      refine ⟨fun h1 h2 h3 => ?_, fun h1 h2 h3 h4 => ?_⟩
      · exfalso
        have hkp := h.kept e he
        unfold Kept at hkp
        rw [if_pos h3] at hkp
        have hes : e.tool.serial = e.serial := by
          rcases h.serial e he with g | g
          · exact g
          · exact absurd g h3
        have h2' : e.serial = b.serial := h2
        exact find_shared_none hs _ hkp (by rw [← h2', ← hes]; exact h3)
          ((h.kind e he).1.trans h1) (hes.trans h2')
      · exfalso
        have hs0 : e.tool.serial = 0 := by rcases h.serial e he with g | g <;> omega
        have hkp := h.kept e he
        unfold Kept at hkp
        rw [if_neg (by simpa using hs0)] at hkp
        exact find_own_none ho _ (hkp b hb h1.symm) ((h.kind e he).1.trans h2)
    made := by
      rw [e_told]
      refine hmem (fun e he => ?_) ?_
      · obtain ⟨x, hx, hy⟩ := h.made e he
        exact ⟨x, firstUse_append hx, hy⟩
      · exact ⟨⟨b.uid, b.dev, k, b.id, b.serial, t⟩, ⟨s.told, [], rfl, rfl, hfresh⟩, hmade⟩
    named := by
      rw [e_told]
      intro pre e post heq hn hpre
      rcases split_last heq with ⟨-, rfl, rfl⟩ | ⟨post', -, hl⟩
      · exact t3
      · exact h.named pre e post' hl hn hpre }

theorem inv_step (db : Nat → Option Stylus) (s : State) (o : Op) (h : Inv db s) : Inv db (step db s o) := by
  cases o with
  | add d =>
    simp only [step]
    split
    · exact h
    · exact {
        caps := fun b hb => by
          rcases List.mem_cons.mp hb with rfl | hb
          · rfl
          · exact h.caps b hb
        kinds := fun b hb => by
          rcases List.mem_cons.mp hb with rfl | hb
          · simp [Tablet.init]
          · exact h.kinds b hb
        uids := fun b hb => by
          rcases List.mem_cons.mp hb with rfl | hb
          · simp [Tablet.init]
          · exact Nat.lt_succ_of_lt (h.uids b hb)
        uidT := fun e he => Nat.lt_succ_of_lt (h.uidT e he)
        nodup := List.pairwise_cons.mpr ⟨fun b hb => by
          have := h.uids b hb
          simp only [Tablet.init]; omega, h.nodup⟩
        kind := h.kind
        serial := h.serial
        obj := h.obj
        shObj := h.shObj
        kept := fun e he => by
          have := h.kept e he
          unfold Kept at this ⊢
          split at this
          · exact (if_pos ‹_›).mpr this
          · rw [if_neg ‹_›]
            intro b hb hu
            rcases List.mem_cons.mp hb with rfl | hb
            · have := h.uidT e he
              simp only [Tablet.init] at hu; omega
            · exact this b hb hu
        sh := h.sh
        own := fun b hb t ht => by
          rcases List.mem_cons.mp hb with rfl | hb
          · simp [Tablet.init] at ht
          · exact h.own b hb t ht
        shUni := h.shUni
        ownUni := fun b hb => by
          rcases List.mem_cons.mp hb with rfl | hb
          · simp [Tablet.init]
          · exact h.ownUni b hb
        same := h.same
        agree := h.agree
        made := h.made
        named := h.named }
  | remove u =>
    simp only [step]
    have hm : ∀ b ∈ s.tablets.filter (fun b => decide (b.uid ≠ u)), b ∈ s.tablets :=
      fun b hb => (List.mem_filter.mp hb).1
    exact {
      caps := fun b hb => h.caps b (hm b hb)
      kinds := fun b hb => h.kinds b (hm b hb)
      uids := fun b hb => h.uids b (hm b hb)
      uidT := h.uidT
      nodup := h.nodup.filter _
      kind := h.kind
      serial := h.serial
      obj := h.obj
      shObj := h.shObj
      kept := fun e he => by
        have := h.kept e he
        unfold Kept at this ⊢
        split at this
        · exact (if_pos ‹_›).mpr this
        · rw [if_neg ‹_›]
          exact fun b hb hu => this b (hm b hb) hu
      sh := h.sh
      own := fun b hb => h.own b (hm b hb)
      shUni := h.shUni
      ownUni := fun b hb => h.ownUni b (hm b hb)
      same := h.same
      agree := h.agree
      made := h.made
      named := h.named }
  | serial u v =>
    simp only [step]
    split
    · exact h
    · exact inv_update db s u _ (fun b => ⟨rfl, rfl, rfl, rfl⟩) (fun b hb => hb) h
  | toolId u v => exact inv_update db s u _ (fun b => ⟨rfl, rfl, rfl, rfl⟩) (fun b hb => hb) h
  | tool u k =>
    simp only [step]
    split
    · exact h
    · exact inv_update db s u _ (fun b => ⟨rfl, rfl, rfl, rfl⟩) (fun b _ => by simpa) h
  | already u k v =>
    simp only [step]
    split
    · exact h
    · exact inv_update db s u _ (fun b => ⟨rfl, rfl, rfl, rfl⟩) (fun b _ => by simpa) h
  | frame u =>
    simp only [step, flush]
    split
    · exact h
    · rename_i b hf
      obtain ⟨hb, rfl⟩ := find_some hf
      split
      · exact h
      · rename_i k hk
        unfold getTool
        cases hs : findShared s k b.serial with
        | some t => exact inv_reuse db s b hb k hk t (.inl hs) h
        | none =>
          cases ho : findOwn b k with
          | some t => exact inv_reuse db s b hb k hk t (.inr ⟨hs, ho⟩) h
          | none => exact inv_new db s b hb k hk hs ho h
  | totem =>
    have hk : (totemTool s.objs).kind = .totem := rfl
    have hz : (totemTool s.objs).serial = 0 := rfl
    exact {
      caps := h.caps
      kinds := h.kinds
      uids := h.uids
      uidT := h.uidT
      nodup := h.nodup
      kind := h.kind
      serial := h.serial
      obj := fun e he => Nat.lt_succ_of_lt (h.obj e he)
      shObj := fun t ht => by
        rcases List.mem_cons.mp ht with rfl | ht
        · exact Nat.lt_succ_self _
        · exact Nat.lt_succ_of_lt (h.shObj t ht)
      kept := fun e he => by
        have := h.kept e he
        unfold Kept at this ⊢
        split at this
        · rw [if_pos ‹_›]; exact List.mem_cons_of_mem _ this
        · rw [if_neg ‹_›]; exact this
      sh := fun t ht hn => by
        rcases List.mem_cons.mp ht with rfl | ht
        · exact absurd hk hn
        · exact h.sh t ht hn
      own := h.own
      shUni := fun t ht u hu h0 h1 h2 => by
        rcases List.mem_cons.mp ht with rfl | ht
        · exact absurd hz h0
        · rcases List.mem_cons.mp hu with rfl | hu
          · exact absurd (h2.trans hz) h0
          · exact h.shUni t ht u hu h0 h1 h2
      ownUni := h.ownUni
      same := h.same
      agree := h.agree
      made := h.made
      named := h.named }

theorem inv_run (db : Nat → Option Stylus) (s : State) (ops : List Op) (h : Inv db s) : Inv db (run db s ops) := by
  induction ops generalizing s with
  | nil => exact h
  | cons o ops ih => exact ih _ (inv_step db s o h)

end Libinput.Tools
