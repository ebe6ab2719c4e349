import Verif.Quirks.Device
/-! Quirks: the data directory, and the values for a device. -/
namespace Libinput.Quirks
open Libinput.Strings Libinput.Strings.Spec Libinput.Parsers Libinput.Parsers.Spec Spec

variable {F : Type}

/-! ### The order of the files -/

theorem perm_sorted_eq {α : Type} {R : α → α → Prop} (l1 : List α) : ∀ l2 : List α, l1.Perm l2 → l1.Pairwise R → l2.Pairwise R →
    (∀ a ∈ l1, ∀ b ∈ l1, R a b → R b a → a = b) → l1 = l2 := by
  induction l1 with
  | nil => intro l2 h _ _ _; exact h.nil_eq
  | cons a l1 ih =>
    intro l2 h h1 h2 ha
    cases l2 with
    | nil => exact absurd h.symm.nil_eq (by simp)
    | cons b l2 =>
      rw [List.pairwise_cons] at h1 h2
      have hab : a = b := by
        have m1 : a ∈ b :: l2 := h.mem_iff.mp (by simp)
        have m2 : b ∈ a :: l1 := h.mem_iff.mpr (by simp)
        rcases List.mem_cons.mp m1 with e | m1
        · exact e
        rcases List.mem_cons.mp m2 with e | m2
        · exact e.symm
        exact ha a (by simp) b (by simp [m2]) (h1.1 b m2) (h2.1 a m1)
      subst hab
      rw [ih l2 h.cons_inv h1.2 h2.2 fun x hx y hy => ha x (by simp [hx]) y (by simp [hy])]

theorem toNat_inj {s t : Str} (h : s.map Char.toNat = t.map Char.toNat) : s = t := by
  induction s generalizing t with
  | nil => cases t with | nil => rfl | cons => cases h
  | cons c s ih =>
    cases t with
    | nil => cases h
    | cons d t =>
      simp only [List.map_cons, List.cons.injEq] at h
      rw [ih h.2, Char.toNat_inj.mp h.1]

theorem distinct_eq {dir : List (Str × File)} (h : (dir.map Prod.fst).Nodup) {a b : Str × File} (ha : a ∈ dir) (hb : b ∈ dir) (e : a.1 = b.1) : a = b := by
  induction dir with
  | nil => cases ha
  | cons d dir ih =>
    simp only [List.map_cons, List.nodup_cons] at h
    rcases List.mem_cons.mp ha with rfl | ha' <;> rcases List.mem_cons.mp hb with rfl | hb'
    · rfl
    · exact absurd (e ▸ List.mem_map_of_mem hb') h.1
    · exact absurd (e ▸ List.mem_map_of_mem ha') h.1
    · exact ih h.2 ha' hb'

theorem dataFile_iff (name : Str) : isDataFile name = ".quirks".toList.isSuffixOf name := by
  unfold isDataFile
  rw [Bool.eq_iff_iff, endswith_iff, List.isSuffixOf_iff_suffix]
  constructor
  · rintro ⟨_, a, rfl⟩; exact List.suffix_append _ _
  · rintro ⟨a, rfl⟩; exact ⟨by decide, a, rfl⟩

theorem dataFiles_eq (dir : List (Str × File)) : dir.filter (fun f => isDataFile f.1) = dir.filter (fun f => ".quirks".toList.isSuffixOf f.1) :=
  List.filter_congr fun f _ => dataFile_iff f.1

theorem scandir_unique (dir l1 l2 : List (Str × File)) (hd : Directory dir)
    (p1 : l1.Perm (dir.filter fun f => isDataFile f.1)) (s1 : l1.Pairwise fun a b => Versionsort.strverscmp (a.1.map Char.toNat) (b.1.map Char.toNat) ≤ 0)
    (p2 : l2.Perm (dir.filter fun f => isDataFile f.1)) (s2 : l2.Pairwise fun a b => Versionsort.strverscmp (a.1.map Char.toNat) (b.1.map Char.toNat) ≤ 0) : l1 = l2 := by
  refine perm_sorted_eq l1 l2 (p1.trans p2.symm) s1 s2 ?_
  intro a ha b hb h1 h2
  have ma : a ∈ dir := (List.mem_filter.mp (p1.mem_iff.mp ha)).1
  have mb : b ∈ dir := (List.mem_filter.mp (p1.mem_iff.mp hb)).1
  have ok : ∀ f ∈ dir, Versionsort.Ok (f.1.map Char.toNat) := by
    intro f hf c hc
    obtain ⟨d, hd', rfl⟩ := List.mem_map.mp hc
    exact hd.bytes f hf d hd'
  have h3 := Versionsort.cmp_antisymm _ _ (ok a ma) (ok b mb)
  have h0 : Versionsort.strverscmp (a.1.map Char.toNat) (b.1.map Char.toNat) = 0 := by
    by_cases hlt : Versionsort.strverscmp (a.1.map Char.toNat) (b.1.map Char.toNat) < 0
    · have := h3.mp hlt; omega
    · omega
  exact distinct_eq hd.distinct ma mb (toNat_inj ((Versionsort.cmp_zero_iff _ _ (ok a ma) (ok b mb)).mp h0))

/-! ### The sections of all files -/

theorem part_iff (E : Env F) (f : File) (hf : FileReadable f) :
    (∀ secs, parseFile E f = .ok secs → ∃ ss, IsPart E f ss ∧ Each Sec secs ss) ∧
    (∀ ss, IsPart E f ss → ∃ secs, parseFile E f = .ok secs ∧ Each Sec secs ss) := by
  cases f with
  | missing =>
    constructor
    · intro secs h
      simp only [parseFile, Res.ok.injEq] at h
      exact ⟨[], rfl, h ▸ trivial⟩
    · intro ss h
      exact ⟨[], rfl, (show ss = [] from h) ▸ trivial⟩
  | unreadable =>
    constructor
    · intro secs h; cases h
    · intro ss h; cases h
  | content s => exact parseFile_iff E s hf

theorem parseEach_iff (E : Env F) (files : List (Str × File)) (hf : ∀ f ∈ files, FileReadable f.2) :
    (∀ secs, parseEach E files = .ok secs → ∃ parts, Each (fun f ss => IsPart E f.2 ss) files parts ∧ Each Sec secs parts.flatten) ∧
    (∀ parts, Each (fun (f : Str × File) ss => IsPart E f.2 ss) files parts → ∃ secs, parseEach E files = .ok secs ∧ Each Sec secs parts.flatten) := by
  induction files with
  | nil =>
    constructor
    · intro secs h
      simp only [parseEach, Res.ok.injEq] at h
      exact ⟨[], trivial, h ▸ trivial⟩
    · intro parts h
      cases parts with
      | nil => exact ⟨[], rfl, trivial⟩
      | cons => cases h
  | cons f files ih =>
    have ih := ih fun x hx => hf x (by simp [hx])
    have hp := part_iff E f.2 (hf f (by simp))
    constructor
    · intro secs h
      unfold parseEach at h
      cases h1 : parseFile E f.2 with
      | fail => rw [h1] at h; cases h
      | crash => rw [h1] at h; cases h
      | ok a =>
        cases h2 : parseEach E files with
        | fail => rw [h1, h2] at h; cases h
        | crash => rw [h1, h2] at h; cases h
        | ok b =>
          rw [h1, h2] at h
          simp only [Res.bind, Res.ok.injEq] at h
          subst h
          obtain ⟨ss, i1, e1⟩ := hp.1 a h1
          obtain ⟨parts, i2, e2⟩ := ih.1 b h2
          exact ⟨ss :: parts, ⟨i1, i2⟩, each_append e1 e2⟩
    · intro parts h
      cases parts with
      | nil => cases h
      | cons ss parts =>
        obtain ⟨a, h1, e1⟩ := hp.2 ss h.1
        obtain ⟨b, h2, e2⟩ := ih.2 parts h.2
        exact ⟨a ++ b, by rw [parseEach, h1, h2]; rfl, each_append e1 e2⟩

theorem parseFiles_eq (E : Env F) {files : List (Str × File)} (h : files ≠ []) : parseFiles E files = parseEach E files := by
  cases files with
  | nil => exact absurd rfl h
  | cons => rfl

theorem init_iff (E : Env F) (dmi dt : Option Str) (dir files : List (Str × File)) (override : Option File) (hd : Directory dir)
    (ho : ∀ f, override = some f → FileReadable f) (hs : Scandir dir files) :
    (∀ ctx, Context.init E dmi dt files override = .ok ctx → (dmi.isSome ∨ dt.isSome) ∧ ctx.dmi = dmi ∧ ctx.dt = dt ∧ ∃ ss, IsData E dir override ss ∧ Each Sec ctx.sections ss) ∧
    (∀ ss, (dmi.isSome ∨ dt.isSome) → IsData E dir override ss → ∃ secs, Context.init E dmi dt files override = .ok ⟨dmi, dt, secs⟩ ∧ Each Sec secs ss) := by
  have hf : ∀ f ∈ files, FileReadable f.2 := fun f hf => hd.readable f (List.mem_filter.mp (hs.perm.mem_iff.mp hf)).1
  constructor
  · intro ctx h
    unfold Context.init at h
    split at h
    · cases h
    rename_i hm
    have hm' : dmi.isSome = true ∨ dt.isSome = true := by
      cases dmi <;> cases dt <;> simp at hm ⊢
    have hne : files ≠ [] := by rintro rfl; cases h
    rw [parseFiles_eq E hne] at h
    cases h1 : parseEach E files with
    | fail => rw [h1] at h; cases h
    | crash => rw [h1] at h; cases h
    | ok a =>
      rw [h1] at h
      simp only [Res.bind] at h
      obtain ⟨parts, i1, e1⟩ := (parseEach_iff E files hf).1 a h1
      cases override with
      | none =>
        simp only [Res.ok.injEq] at h
        subst h
        exact ⟨hm', rfl, rfl, parts.flatten, ⟨files, parts, [], dataFiles_eq dir ▸ hs.perm, hs.sorted, hne, i1, rfl, by simp⟩, e1⟩
      | some f =>
        simp only at h
        cases h2 : parseFile E f with
        | fail => rw [h2] at h; cases h
        | crash => rw [h2] at h; cases h
        | ok b =>
          rw [h2] at h
          simp only [Res.ok.injEq] at h
          subst h
          obtain ⟨ss, i2, e2⟩ := (part_iff E f (ho f rfl)).1 b h2
          exact ⟨hm', rfl, rfl, parts.flatten ++ ss, ⟨files, parts, ss, dataFiles_eq dir ▸ hs.perm, hs.sorted, hne, i1, i2, rfl⟩, each_append e1 e2⟩
  · rintro ss hm ⟨files', parts, last, hp, hsort, hne, i1, i2, rfl⟩
    obtain rfl : files = files' := scandir_unique dir files files' hd hs.perm hs.sorted (dataFiles_eq dir ▸ hp) hsort
    obtain ⟨a, h1, e1⟩ := (parseEach_iff E files hf).2 parts i1
    unfold Context.init
    rw [if_neg (by cases dmi <;> cases dt <;> simp at hm ⊢), parseFiles_eq E hne, h1]
    cases override with
    | none =>
      simp only at i2
      subst i2
      exact ⟨a, rfl, by simpa using e1⟩
    | some f =>
      obtain ⟨b, h2, e2⟩ := (part_iff E f (ho f rfl)).2 last i2
      exact ⟨a ++ b, by simp only [Res.bind, h2], each_append e1 e2⟩

theorem parseEach_no_crash (E : Env F) (files : List (Str × File)) : parseEach E files ≠ .crash := by
  induction files with
  | nil => intro h; cases h
  | cons f files ih =>
    intro h
    unfold parseEach at h
    cases h1 : parseFile E f.2 with
    | fail => rw [h1] at h; cases h
    | crash => exact parseFile_no_crash E f.2 h1
    | ok a =>
      rw [h1] at h
      simp only [Res.bind] at h
      cases h2 : parseEach E files with
      | fail => rw [h2] at h; cases h
      | crash => exact ih h2
      | ok b => rw [h2] at h; cases h

theorem init_no_crash (E : Env F) (dmi dt : Option Str) (files : List (Str × File)) (override : Option File) : Context.init E dmi dt files override ≠ .crash := by
  intro h
  unfold Context.init at h
  split at h
  · cases h
  cases h1 : parseFiles E files with
  | fail => rw [h1] at h; cases h
  | crash =>
    cases files with
    | nil => cases h1
    | cons f fs => exact parseEach_no_crash E _ h1
  | ok a =>
    rw [h1] at h
    simp only [Res.bind] at h
    cases override with
    | none => cases h
    | some f =>
      simp only at h
      cases h2 : parseFile E f with
      | fail => rw [h2] at h; cases h
      | crash => exact parseFile_no_crash E f h2
      | ok b => rw [h2] at h; cases h

/-! ### What every section is like -/

/-- Conditions with different keys, values of documented kinds. -/
structure WF (E : Env F) (s : Sect F) : Prop where
  nodup : (s.conds.map Cond.key).Nodup
  kinds : ∀ p ∈ s.props, ∃ key text kind, (key, p.id, kind) ∈ keys ∧ ValueText E text kind p.value

theorem each_mem {α β : Type} {R : α → β → Prop} {l : List α} {m : List β} (h : Each R l m) : ∀ b ∈ m, ∃ a ∈ l, R a b := by
  induction l generalizing m with
  | nil => cases m with | nil => simp | cons => cases h
  | cons a l ih =>
    cases m with
    | nil => cases h
    | cons b m =>
      intro x hx
      rcases List.mem_cons.mp hx with rfl | hx
      · exact ⟨a, by simp, h.1⟩
      · obtain ⟨y, hy, hr⟩ := ih h.2 x hx
        exact ⟨y, by simp [hy], hr⟩

theorem section_wf {E : Env F} {ts : List Str} {s : Sect F} (h : IsSection E ts s) : WF E s := by
  obtain ⟨_, _, _, _, _, _, _, _, hn, hv⟩ := h
  refine ⟨hn, fun p hp => ?_⟩
  obtain ⟨t, _, key, value, kind, hk, _, ht⟩ := each_mem hv p hp
  exact ⟨key, value, kind, hk, ht⟩

theorem part_wf {E : Env F} {f : File} {ss : List (Sect F)} (h : IsPart E f ss) : ∀ s ∈ ss, WF E s := by
  cases f with
  | missing => rw [show ss = [] from h]; simp
  | unreadable => cases h
  | content t =>
    obtain ⟨_, _, _, _, _, he⟩ := h
    intro s hs
    obtain ⟨_, _, h⟩ := each_mem he s hs
    exact section_wf h

theorem data_wf {E : Env F} {dir : List (Str × File)} {override : Option File} {ss : List (Sect F)} (h : IsData E dir override ss) : ∀ s ∈ ss, WF E s := by
  obtain ⟨_, parts, last, _, _, _, hp, hl, rfl⟩ := h
  intro s hs
  rcases List.mem_append.mp hs with hs | hs
  · obtain ⟨p, hpm, hs⟩ := List.mem_flatten.mp hs
    obtain ⟨_, _, h⟩ := each_mem hp p hpm
    exact part_wf h s hs
  · cases override with
    | none => rw [show last = [] from hl] at hs; cases hs
    | some f => exact part_wf hl s hs

theorem text_type {E : Env F} {s : Str} {kind : Kind} {v : Value F} (h : ValueText E s kind v) : v.type = kind.type := by
  cases kind <;> cases v <;> first | rfl | cases h

theorem keys_kind : ∀ x ∈ keys, ∀ y ∈ keys, x.2.1 = y.2.1 → x.2.2 = y.2.2 := by decide +kernel

/-! ### The last value -/

theorem findProp_append (a b : List (Property F)) (q : Quirk) : findProp (a ++ b) q = (findProp b q).or (findProp a q) := by
  unfold findProp
  rw [List.reverse_append, List.find?_append]

theorem findProp_iff (l : List (Property F)) (q : Quirk) (p : Property F) :
    findProp l q = some p ↔ p.id = q ∧ ∃ earlier later, l = earlier ++ p :: later ∧ ∀ x ∈ later, x.id ≠ q := by
  unfold findProp
  rw [List.find?_eq_some_iff_append]
  simp only [decide_eq_true_eq, Bool.not_eq_true', decide_eq_false_iff_not]
  constructor
  · rintro ⟨h, as, bs, e, ha⟩
    refine ⟨h, bs.reverse, as.reverse, ?_, by simpa using ha⟩
    have := congrArg List.reverse e
    simpa using this
  · rintro ⟨h, earlier, later, rfl, hl⟩
    exact ⟨h, later.reverse, earlier.reverse, by simp, by simpa using hl⟩

theorem findProp_none (l : List (Property F)) (q : Quirk) : findProp l q = none ↔ ∀ x ∈ l, x.id ≠ q := by
  unfold findProp
  rw [List.find?_eq_none]
  simp

/-- The values of the sections that match. -/
def collected (E : Env F) (m : Match) (secs : List (Section F)) : List (Property F) :=
  secs.flatMap fun s => if fullMatch E s.mtch m then s.properties else []

theorem foldl_collected (E : Env F) (m : Match) (secs : List (Section F)) : ∀ q, secs.foldl (matchSection E m) q = q ++ collected E m secs := by
  induction secs with
  | nil => intro q; simp [collected]
  | cons s secs ih =>
    intro q
    rw [List.foldl_cons, ih]
    unfold matchSection collected
    rw [List.flatMap_cons]
    split <;> simp

theorem collected_last (E : Env F) (dmi dt : Option Str) (dev : Udev) (q : Quirk) : ∀ (secs : List (Section F)) (ss : List (Sect F)), Each Sec secs ss → (∀ s ∈ ss, WF E s) →
    (∀ v, findProp (collected E (Match.new E dev dmi dt) secs) q = some ⟨q, v⟩ ↔ LastValue E dmi dt dev ss q v) ∧
    (findProp (collected E (Match.new E dev dmi dt) secs) q = none ↔ ∀ s ∈ ss, s.Applies E dmi dt dev → ∀ p ∈ s.props, p.id ≠ q) := by
  intro secs
  induction secs with
  | nil =>
    intro ss h _
    cases ss with
    | cons => cases h
    | nil =>
      refine ⟨fun v => ⟨fun h => by (cases h), ?_⟩, by simp [collected, findProp]⟩
      rintro ⟨before, s, after, _, _, e, _⟩
      simp at e
  | cons sec secs ih =>
    intro ss h hw
    cases ss with
    | nil => cases h
    | cons s ss =>
      obtain ⟨hs, h⟩ := h
      obtain ⟨ih1, ih2⟩ := ih ss h fun x hx => hw x (by simp [hx])
      have ha := applies_iff E dmi dt dev sec s hs (hw s (by simp)).nodup
      have e : findProp (collected E (Match.new E dev dmi dt) (sec :: secs)) q =
          (findProp (collected E (Match.new E dev dmi dt) secs) q).or (findProp (if fullMatch E sec.mtch (Match.new E dev dmi dt) then s.props else []) q) := by
        rw [← findProp_append, ← hs.2]
        rfl
      rw [e]
      constructor
      · intro v
        cases hf : findProp (collected E (Match.new E dev dmi dt) secs) q with
        | some p =>
          have hpq : p.id = q := ((findProp_iff _ _ _).mp hf).1
          obtain ⟨pid, pv⟩ := p
          simp only at hpq
          subst hpq
          simp only [Option.some_or, Option.some.injEq, Property.mk.injEq, true_and]
          have hlast := (ih1 pv).mp hf
          constructor
          · rintro rfl
            obtain ⟨before, s', after, e1, e2, rfl, hrest⟩ := hlast
            exact ⟨s :: before, s', after, e1, e2, rfl, hrest⟩
          · rintro ⟨before, s', after, e1, e2, he, hap, hpr, hl, hlater⟩
            cases before with
            | nil =>
              simp only [List.nil_append, List.cons.injEq] at he
              obtain ⟨rfl, rfl⟩ := he
              have := ih2.mpr hlater
              rw [hf] at this
              cases this
            | cons b before =>
              simp only [List.cons_append, List.cons.injEq] at he
              have := (ih1 v).mpr ⟨before, s', after, e1, e2, he.2, hap, hpr, hl, hlater⟩
              rw [hf] at this
              simpa using this
        | none =>
          have hno := ih2.mp hf
          simp only [Option.none_or]
          constructor
          · intro hv
            split at hv
            · rename_i hm
              obtain ⟨_, earlier, later, hpr, hl⟩ := (findProp_iff _ _ _).mp hv
              exact ⟨[], s, ss, earlier, later, rfl, ha.mp hm, hpr, hl, hno⟩
            · cases hv
          · rintro ⟨before, s', after, e1, e2, he, hap, hpr, hl, hlater⟩
            cases before with
            | nil =>
              simp only [List.nil_append, List.cons.injEq] at he
              obtain ⟨rfl, rfl⟩ := he
              rw [if_pos (ha.mpr hap)]
              exact (findProp_iff _ _ _).mpr ⟨rfl, e1, e2, hpr, hl⟩
            | cons b before =>
              simp only [List.cons_append, List.cons.injEq] at he
              have := hno s' (by rw [he.2]; simp) hap ⟨q, v⟩ (by rw [hpr]; simp)
              exact absurd rfl this
      · rw [Option.or_eq_none_iff, ih2]
        constructor
        · rintro ⟨h1, h2⟩ x hx hap
          rcases List.mem_cons.mp hx with rfl | hx
          · rw [if_pos (ha.mpr hap)] at h2
            exact (findProp_none _ _).mp h2
          · exact h1 x hx hap
        · intro hall
          refine ⟨fun x hx => hall x (by simp [hx]), ?_⟩
          split
          · rename_i hm
            exact (findProp_none _ _).mpr (hall s (by simp) (ha.mp hm))
          · rfl

theorem get_fetch (E : Env F) (ctx : Context F) (dev : Udev) (type : PropType) (q : Quirk) :
    get type (Context.fetch E (some ctx) dev) q =
      match findProp (collected E (Match.new E dev ctx.dmi ctx.dt) ctx.sections) q with
      | none => .fail
      | some p => if p.value.type = type then .ok p.value else .crash := by
  unfold Context.fetch
  simp only [foldl_collected, List.nil_append]
  by_cases h : (collected E (Match.new E dev ctx.dmi ctx.dt) ctx.sections).length = 0
  · rw [if_pos h]
    have : collected E (Match.new E dev ctx.dmi ctx.dt) ctx.sections = [] := List.length_eq_zero_iff.mp h
    rw [this]
    rfl
  · rw [if_neg h]
    rfl

theorem get_value (E : Env F) (ctx : Context F) (ss : List (Sect F)) (he : Each Sec ctx.sections ss) (hw : ∀ s ∈ ss, WF E s)
    (dev : Udev) (key : String) (q : Quirk) (kind : Kind) (hk : (key, q, kind) ∈ keys) :
    (∀ v, get kind.type (Context.fetch E (some ctx) dev) q = .ok v ↔ LastValue E ctx.dmi ctx.dt dev ss q v) ∧
    (get kind.type (Context.fetch E (some ctx) dev) q = .fail ↔ ∀ s ∈ ss, s.Applies E ctx.dmi ctx.dt dev → ∀ p ∈ s.props, p.id ≠ q) ∧
    get kind.type (Context.fetch E (some ctx) dev) q ≠ .crash := by
  obtain ⟨h1, h2⟩ := collected_last E ctx.dmi ctx.dt dev q ctx.sections ss he hw
  rw [get_fetch]
  cases hf : findProp (collected E (Match.new E dev ctx.dmi ctx.dt) ctx.sections) q with
  | none =>
    rw [hf] at h2
    refine ⟨fun v => ⟨fun h => by (cases h), fun h => ?_⟩, ⟨fun _ => h2.mp rfl, fun _ => rfl⟩, by simp⟩
    have := (h1 v).mpr h
    rw [hf] at this
    cases this
  | some p =>
    have hpq : p.id = q := ((findProp_iff _ _ _).mp hf).1
    obtain ⟨pid, pv⟩ := p
    simp only at hpq
    subst hpq
    have hlast := (h1 pv).mp hf
    have ht : pv.type = kind.type := by
      obtain ⟨before, s, after, e1, e2, rfl, _, hpr, _⟩ := hlast
      obtain ⟨key', text, kind', hk', ht⟩ := (hw s (by simp)).kinds ⟨pid, pv⟩ (by rw [hpr]; simp)
      rw [text_type ht]
      exact congrArg Kind.type (keys_kind _ hk' _ hk rfl)
    simp only [ht, if_true]
    refine ⟨fun v => ?_, ⟨fun h => by (cases h), fun h => ?_⟩, by simp⟩
    · rw [← h1 v, hf]
      simp
    · have := h2.mpr h
      rw [hf] at this
      cases this

end Libinput.Quirks
