import Verif.Quirks.Entries
/-! Quirks: parsing a file. -/
namespace Libinput.Quirks
open Libinput.Strings Libinput.Strings.Spec Libinput.Parsers Libinput.Parsers.Spec Spec

variable {F : Type}

/-- The fields of the conditions. -/
def matchOf (conds : List Cond) : Match := conds.foldl add {}

theorem add_has (m : Match) (c : Cond) (f : Flag) : (add m c).has f = true ↔ flagOf c = f ∨ m.has f = true := by
  cases c <;> cases f <;> simp [add, Match.has, flagOf]

theorem foldl_add_has (conds : List Cond) (m : Match) (f : Flag) : (conds.foldl add m).has f = true ↔ (∃ c ∈ conds, flagOf c = f) ∨ m.has f = true := by
  induction conds generalizing m with
  | nil => simp
  | cons c conds ih =>
    rw [List.foldl_cons, ih, add_has]
    simp only [List.mem_cons, exists_eq_or_imp]
    constructor
    · rintro (h | h | h)
      · exact Or.inl (Or.inr h)
      · exact Or.inl (Or.inl h)
      · exact Or.inr h
    · rintro ((h | h) | h)
      · exact Or.inr (Or.inl h)
      · exact Or.inl h
      · exact Or.inr (Or.inr h)

theorem matchOf_has (conds : List Cond) (f : Flag) : (matchOf conds).has f = true ↔ ∃ c ∈ conds, flagOf c = f := by
  unfold matchOf
  rw [foldl_add_has]
  constructor
  · rintro (h | h)
    · exact h
    · cases f <;> cases h
  · exact Or.inl

theorem key_flag (c d : Cond) : c.key = d.key ↔ flagOf c = flagOf d := by
  cases c <;> cases d <;> simp [Cond.key, flagOf]

/-- The section holds what the text says. -/
def Sec (sec : Section F) (s : Sect F) : Prop := sec.mtch = matchOf s.conds ∧ sec.properties = s.props

theorem each_append {α β : Type} {R : α → β → Prop} {l1 l2 : List α} {m1 m2 : List β} (h1 : Each R l1 m1) (h2 : Each R l2 m2) : Each R (l1 ++ l2) (m1 ++ m2) := by
  induction l1 generalizing m1 with
  | nil =>
    cases m1 with
    | nil => exact h2
    | cons b m1 => exact absurd h1 (by simp [Each])
  | cons a l1 ih =>
    cases m1 with
    | nil => exact absurd h1 (by simp [Each])
    | cons b m1 => exact ⟨h1.1, ih h1.2⟩

theorem each_single {α β : Type} {R : α → β → Prop} {a : α} {b : β} (h : R a b) : Each R [a] [b] := ⟨h, trivial⟩

theorem parseAll_append (E : Env F) (p : Parser F) (ts us : List Str) : parseAll E p (ts ++ us) = (parseAll E p ts).bind fun p => parseAll E p us := by
  induction ts generalizing p with
  | nil => rfl
  | cons u ts ih =>
    simp only [List.cons_append, parseAll]
    cases parseLine E p u with
    | ok q => exact ih q
    | fail => rfl
    | crash => rfl

/-! ### What has been read -/

/-- The parser holds what the lines so far say. -/
def Inv (E : Env F) (ts : List Str) (p : Parser F) : Prop :=
  (ts = [] ∧ p = ⟨.sect, [], none⟩) ∨
  ∃ parts ss title ms vs sec s, ts = parts.flatten ++ (title :: ms ++ vs) ∧ Each (IsSection E) parts ss ∧ Each Sec p.done ss ∧ Title title ∧
    p.cur = some sec ∧ Sec sec s ∧ Each CondLine ms s.conds ∧ (s.conds.map Cond.key).Nodup ∧ Each (ValueLine E) vs s.props ∧
    sec.hasMatch = !ms.isEmpty ∧ sec.hasProperty = !vs.isEmpty ∧
    (p.st = .mtch ∧ ms = [] ∧ vs = [] ∨ p.st = .matchOrValue ∧ ms ≠ [] ∧ vs = [] ∨ p.st = .valueOrSection ∧ ms ≠ [] ∧ vs ≠ [])

theorem title_of {t : Str} (h1 : t.head? = some '[') (h2 : t.getLast? = some ']') : Title t := by
  cases t with
  | nil => cases h1
  | cons c r =>
    simp only [List.head?_cons, Option.some.injEq] at h1
    subst h1
    cases hr : r.reverse with
    | nil =>
      have : r = [] := by simpa using hr
      subst this
      simp at h2
    | cons d r' =>
      have e : r = r'.reverse ++ [d] := by
        have := congrArg List.reverse hr
        simpa using this
      subst e
      refine ⟨r'.reverse, ?_⟩
      have : ('[' :: (r'.reverse ++ [d])).getLast? = some d := by
        rw [← List.cons_append, List.getLast?_append]; simp
      rw [this] at h2
      simp only [Option.some.injEq] at h2
      subst h2
      simp

theorem upper_of {c : Char} (h : ¬ (c < 'A' ∨ c > 'Z')) : 'A' ≤ c ∧ c ≤ 'Z' := by
  have h1 : ¬ c.toNat < 65 := fun e => h (Or.inl e)
  have h2 : ¬ 90 < c.toNat := fun e => h (Or.inr e)
  exact ⟨show 65 ≤ c.toNat by omega, show c.toNat ≤ 90 by omega⟩

theorem Inv.step {E : Env F} {ts : List Str} {p p' : Parser F} {t : Str} (h : Inv E ts p) (hne : t ≠ []) (hp : parseLine E p t = .ok p') :
    Inv E (ts ++ [t]) p' := by
  unfold parseLine at hp
  obtain ⟨first, hf⟩ : ∃ c, t.head? = some c := by cases t with | nil => exact absurd rfl hne | cons c r => exact ⟨c, rfl⟩
  obtain ⟨last, hl⟩ : ∃ c, t.getLast? = some c := ⟨_, List.getLast?_eq_some_getLast hne⟩
  rw [hf, hl] at hp
  simp only at hp
  split at hp
  · cases hp
  rename_i hblank
  split at hp
  · cases hp
  rename_i hblank1
  have hlast : ∀ c, t.getLast? = some c → ¬ Blank c := by
    intro c hc
    rw [hl] at hc
    simp only [Option.some.injEq] at hc
    subst hc
    exact fun hb => hblank ((isBlank_iff _).mpr hb)
  split at hp
  · -- a title
    rename_i hfirst
    subst hfirst
    split at hp
    · cases hp
    rename_i hb
    have hb : last = ']' := by simpa using hb
    subst hb
    split at hp
    · cases hp
    rename_i hst
    split at hp
    · cases hp
    rename_i hem
    simp only [Res.ok.injEq] at hp
    subst hp
    have ht := title_of hf hl
    rcases h with ⟨rfl, rfl⟩ | ⟨parts, ss, title, ms, vs, sec, s, rfl, hparts, hdone, htit, hcur, hsec, hms, hnd, hvs, hhm, hhp, hcase⟩
    · exact Or.inr ⟨[], [], t, [], [], _, ⟨[], []⟩, by simp, trivial, trivial, ht, rfl, ⟨rfl, rfl⟩, trivial, by simp, trivial, rfl, rfl, Or.inl ⟨rfl, rfl, rfl⟩⟩
    · rcases hcase with ⟨h1, _⟩ | ⟨h1, _⟩ | ⟨h1, h2, h3⟩
      · rw [h1] at hst; simp at hst
      · rw [h1] at hst; simp at hst
      · refine Or.inr ⟨parts ++ [title :: ms ++ vs], ss ++ [s], t, [], [], _, ⟨[], []⟩, by simp, ?_, ?_, ht, rfl, ⟨rfl, rfl⟩, trivial, by simp, trivial, rfl, rfl,
          Or.inl ⟨rfl, rfl, rfl⟩⟩
        · exact each_append hparts (each_single ⟨title, ms, vs, rfl, htit, h2, h3, hms, hnd, hvs⟩)
        · rw [hcur]
          exact each_append hdone (each_single hsec)
  · split at hp
    · cases hp
    rename_i hup
    have hup := upper_of hup
    split at hp
    · cases hp
    rename_i st hst
    split at hp
    · cases hp
    rename_i sec hcur
    cases hv : parseValueLine E sec t with
    | fail => rw [hv] at hp; cases hp
    | crash => rw [hv] at hp; cases hp
    | ok sec' =>
      rw [hv] at hp
      simp only [Res.bind, Res.ok.injEq] at hp
      subst hp
      rcases h with ⟨rfl, rfl⟩ | ⟨parts, ss, title, ms, vs, sec0, s, rfl, hparts, hdone, htit, hcur0, hsec, hms, hnd, hvs, hhm, hhp, hcase⟩
      · cases hcur
      rw [hcur] at hcur0
      simp only [Option.some.injEq] at hcur0
      subst hcur0
      rcases parseValueLine_ok E sec sec' t first hf hup hlast hv with ⟨hm, cond, hcl, hfl, rfl⟩ | ⟨hm, pr, hvl, rfl⟩
      · -- a condition
        have hvs0 : vs = [] := by
          rcases hcase with ⟨_, _, h⟩ | ⟨_, _, h⟩ | ⟨h1, _⟩
          · exact h
          · exact h
          · rw [h1] at hst
            simp [hm] at hst
        subst hvs0
        have hst' : st = .matchOrValue := by
          rcases hcase with ⟨h1, _⟩ | ⟨h1, _⟩ | ⟨h1, _, h3⟩
          · rw [h1] at hst; simpa [hm] using hst.symm
          · rw [h1] at hst; simpa [hm] using hst.symm
          · exact absurd rfl h3
        refine Or.inr ⟨parts, ss, title, ms ++ [t], [], _, ⟨s.conds ++ [cond], s.props⟩, by simp, hparts, hdone, htit, rfl, ⟨?_, hsec.2⟩,
          each_append hms (each_single hcl), ?_, hvs, by simp, hhp, Or.inr (Or.inl ⟨hst', by simp, rfl⟩)⟩
        · simp only [matchOf, List.foldl_append, List.foldl_cons, List.foldl_nil]
          rw [hsec.1]
          rfl
        · simp only [List.map_append, List.map_cons, List.map_nil]
          rw [List.nodup_append]
          refine ⟨hnd, by simp, ?_⟩
          intro a ha b hb
          simp only [List.mem_singleton] at hb
          subst hb
          obtain ⟨d, hd, rfl⟩ := List.mem_map.mp ha
          intro e
          have : (matchOf s.conds).has (flagOf cond) = true := (matchOf_has _ _).mpr ⟨d, hd, (key_flag d cond).mp e⟩
          rw [← hsec.1, hfl] at this
          cases this
      · -- a value
        have hms0 : ms ≠ [] := by
          rcases hcase with ⟨h1, _⟩ | ⟨_, h, _⟩ | ⟨_, h, _⟩
          · rw [h1] at hst
            simp only [hm, decide_false, Bool.false_eq_true, if_false, reduceCtorEq] at hst
          · exact h
          · exact h
        have hst' : st = .valueOrSection := by
          rcases hcase with ⟨h1, _⟩ | ⟨h1, _⟩ | ⟨h1, _, h3⟩
          · rw [h1] at hst; simp only [hm, decide_false, Bool.false_eq_true, if_false, reduceCtorEq] at hst
          · rw [h1] at hst; simp only [hm, decide_false, Bool.false_eq_true, if_false, Option.some.injEq] at hst; exact hst.symm
          · rw [h1] at hst; simp only [hm, decide_false, Bool.false_eq_true, if_false, Option.some.injEq] at hst; exact hst.symm
        refine Or.inr ⟨parts, ss, title, ms, vs ++ [t], _, ⟨s.conds, s.props ++ [pr]⟩, by simp, hparts, hdone, htit, rfl, ⟨hsec.1, ?_⟩,
          hms, hnd, each_append hvs (each_single hvl), hhm, by simp, Or.inr (Or.inr ⟨hst', hms0, by simp⟩)⟩
        simp only
        rw [hsec.2]

theorem inv_run (E : Env F) (ts : List Str) (hne : ∀ t ∈ ts, t ≠ []) : ∀ us p q, Inv E us p → parseAll E p ts = .ok q → Inv E (us ++ ts) q := by
  induction ts with
  | nil =>
    intro us p q hi h
    simp only [parseAll, Res.ok.injEq] at h
    subst h
    simpa using hi
  | cons t ts ih =>
    intro us p q hi h
    rw [parseAll] at h
    cases hq : parseLine E p t with
    | fail => rw [hq] at h; cases h
    | crash => rw [hq] at h; cases h
    | ok r =>
      rw [hq] at h
      have := ih (fun t ht => hne t (by simp [ht])) (us ++ [t]) r q (hi.step (hne t (by simp)) hq) h
      simpa using this

theorem inv_all (E : Env F) (ts : List Str) (hne : ∀ t ∈ ts, t ≠ []) (p : Parser F) (h : parseAll E ⟨.sect, [], none⟩ ts = .ok p) : Inv E ts p := by
  have := inv_run E ts hne [] _ p (Or.inl ⟨rfl, rfl⟩) h
  simpa using this

/-! ### A well-formed file is read -/

theorem title_chars {t : Str} (h : Title t) : t.head? = some '[' ∧ t.getLast? = some ']' := by
  obtain ⟨n, rfl⟩ := h
  refine ⟨rfl, ?_⟩
  rw [List.getLast?_append]; simp

theorem parseLine_title (E : Env F) (p : Parser F) (t : Str) (ht : Title t) (hp : p.st = .sect ∧ p.cur = none ∨ p.st = .valueOrSection ∧ ∃ c, p.cur = some c ∧ isEmpty c = false) :
    parseLine E p t = .ok ⟨.mtch, p.done ++ p.cur.toList, some (Section.new t)⟩ := by
  obtain ⟨h1, h2⟩ := title_chars ht
  unfold parseLine
  rw [h1, h2]
  simp only
  rw [if_neg (by decide), if_neg (by decide), if_pos trivial, if_neg (by simp)]
  rcases hp with ⟨hs, hc⟩ | ⟨hs, c, hc, he⟩
  · rw [hs, hc]
    simp
  · rw [hs, hc]
    simp [he]

theorem parseLine_entry (E : Env F) (p : Parser F) (t : Str) (sec sec' : Section F) (st : PState) {key value : Str} (ha : Assign t key value) (hcur : p.cur = some sec)
    (hv : parseValueLine E sec t = .ok sec')
    (hst : t.take 5 = "Match".toList ∧ (p.st = .mtch ∨ p.st = .matchOrValue) ∧ st = .matchOrValue ∨
      t.take 5 ≠ "Match".toList ∧ (p.st = .matchOrValue ∨ p.st = .valueOrSection) ∧ st = .valueOrSection) :
    parseLine E p t = .ok ⟨st, p.done, some sec'⟩ := by
  obtain ⟨_, c, hc, hA, hZ⟩ := assign_words ha
  obtain ⟨_, _, _, _, _, _, _, _, _, _, hlast, _⟩ := ha
  have hne : t ≠ [] := by rintro rfl; cases hc
  obtain ⟨last, hl⟩ : ∃ c, t.getLast? = some c := ⟨_, List.getLast?_eq_some_getLast hne⟩
  have hA' : 65 ≤ c.toNat := hA
  have hZ' : c.toNat ≤ 90 := hZ
  unfold parseLine
  rw [hc, hl]
  simp only
  have b1 : ¬ isBlank last = true := fun h => hlast last hl ((isBlank_iff _).mp h)
  have b2 : ¬ isBlank c = true := by
    intro h
    rcases (isBlank_iff c).mp h with rfl | rfl <;> exact absurd hA (by decide)
  have b3 : ¬ c = '[' := by rintro rfl; exact absurd hZ (by decide)
  have b4 : ¬ (c < 'A' ∨ c > 'Z') := by
    rintro (h | h)
    · have : c.toNat < 65 := h
      omega
    · have : 90 < c.toNat := h
      omega
  rw [if_neg b1, if_neg b2, if_neg b3, if_neg b4, hcur]
  rcases hst with ⟨hm, hs | hs, rfl⟩ | ⟨hm, hs | hs, rfl⟩ <;> simp only [hs, hm, hv, Res.bind, decide_true, decide_false, if_true, if_false, Bool.false_eq_true]

theorem parse_values (E : Env F) (done : List (Section F)) (vs : List Str) : ∀ (props : List (Property F)) (st : PState) (sec : Section F),
    Each (ValueLine E) vs props → (st = .matchOrValue ∧ vs ≠ [] ∨ st = .valueOrSection) →
    parseAll E ⟨st, done, some sec⟩ vs = .ok ⟨.valueOrSection, done, some { sec with properties := sec.properties ++ props, hasProperty := !vs.isEmpty || sec.hasProperty }⟩ := by
  induction vs with
  | nil =>
    intro props st sec he hst
    cases props with
    | cons p props => exact absurd he (by simp [Each])
    | nil =>
      rcases hst with ⟨_, h⟩ | rfl
      · exact absurd rfl h
      · simp [parseAll]
  | cons t vs ih =>
    intro props st sec he hst
    cases props with
    | nil => exact absurd he (by simp [Each])
    | cons p props =>
      have hst' : st = .matchOrValue ∨ st = .valueOrSection := hst.imp And.left id
      obtain ⟨key, value, kind, hm, ha, htx⟩ := he.1
      have hnm : t.take 5 ≠ "Match".toList := fun e => (keys_prefix _ hm).1 ((assign_take ha).mp e)
      rw [parseAll, parseLine_entry E ⟨st, done, some sec⟩ t sec _ .valueOrSection ha rfl (parseValueLine_value E sec t p he.1) (Or.inr ⟨hnm, hst', rfl⟩)]
      simp only [Res.bind]
      rw [ih props .valueOrSection _ he.2 (Or.inr rfl)]
      simp

theorem parse_conds (E : Env F) (done : List (Section F)) (ms : List Str) : ∀ (conds : List Cond) (st : PState) (sec : Section F),
    Each CondLine ms conds → (st = .mtch ∧ ms ≠ [] ∨ st = .matchOrValue) → (conds.map Cond.key).Nodup → (∀ c ∈ conds, sec.mtch.has (flagOf c) = false) →
    parseAll E ⟨st, done, some sec⟩ ms = .ok ⟨.matchOrValue, done, some { sec with mtch := conds.foldl add sec.mtch, hasMatch := !ms.isEmpty || sec.hasMatch }⟩ := by
  induction ms with
  | nil =>
    intro conds st sec he hst _ _
    cases conds with
    | cons p props => exact absurd he (by simp [Each])
    | nil =>
      rcases hst with ⟨_, h⟩ | rfl
      · exact absurd rfl h
      · simp [parseAll]
  | cons t ms ih =>
    intro conds st sec he hst hnd hfr
    cases conds with
    | nil => exact absurd he (by simp [Each])
    | cons c conds =>
      have hst' : st = .mtch ∨ st = .matchOrValue := hst.imp And.left id
      obtain ⟨value, ha, htx⟩ := he.1
      have hnm : t.take 5 = "Match".toList := (assign_take ha).mpr (cond_prefix c)
      rw [parseAll, parseLine_entry E ⟨st, done, some sec⟩ t sec _ .matchOrValue ha rfl (parseValueLine_cond E sec t c he.1 (hfr c (by simp))) (Or.inl ⟨hnm, hst', rfl⟩)]
      simp only [Res.bind]
      simp only [List.map_cons, List.nodup_cons] at hnd
      rw [ih conds .matchOrValue _ he.2 (Or.inr rfl) hnd.2]
      · simp
      · intro d hd
        refine Bool.eq_false_iff.mpr fun hn => ?_
        rcases (add_has _ _ _).mp hn with h | h
        · exact hnd.1 (((key_flag c d).mpr h) ▸ List.mem_map_of_mem hd)
        · rw [hfr d (by simp [hd])] at h
          cases h

theorem parse_section (E : Env F) (p : Parser F) (ts : List Str) (s : Sect F) (h : IsSection E ts s)
    (hp : p.st = .sect ∧ p.cur = none ∨ p.st = .valueOrSection ∧ ∃ c, p.cur = some c ∧ isEmpty c = false) :
    ∃ sec, Sec sec s ∧ isEmpty sec = false ∧ parseAll E p ts = .ok ⟨.valueOrSection, p.done ++ p.cur.toList, some sec⟩ := by
  obtain ⟨title, ms, vs, rfl, ht, hm, hv, hms, hnd, hvs⟩ := h
  rw [List.cons_append, parseAll, parseLine_title E p title ht hp]
  simp only [Res.bind]
  rw [parseAll_append, parse_conds E _ ms s.conds .mtch _ hms (Or.inl ⟨rfl, hm⟩) hnd (by intro c _; cases c <;> rfl)]
  simp only [Res.bind]
  rw [parse_values E _ vs s.props .matchOrValue _ hvs (Or.inl ⟨rfl, hv⟩)]
  refine ⟨_, ⟨?_, ?_⟩, ?_, rfl⟩
  · rfl
  · simp [Section.new]
  · simp [isEmpty, hm, hv]

theorem parse_sections (E : Env F) (parts : List (List Str)) : ∀ (ss : List (Sect F)) (p : Parser F), Each (IsSection E) parts ss →
    (p.st = .sect ∧ p.cur = none ∨ p.st = .valueOrSection ∧ ∃ c, p.cur = some c ∧ isEmpty c = false) →
    ∃ q secs, parseAll E p parts.flatten = .ok q ∧ q.done ++ q.cur.toList = p.done ++ p.cur.toList ++ secs ∧ Each Sec secs ss ∧
      (q.cur = p.cur ∧ ss = [] ∨ ∃ c, q.cur = some c ∧ isEmpty c = false) := by
  induction parts with
  | nil =>
    intro ss p he hp
    cases ss with
    | cons _ _ => exact absurd he (by simp [Each])
    | nil => exact ⟨p, [], rfl, by simp, trivial, Or.inl ⟨rfl, rfl⟩⟩
  | cons part parts ih =>
    intro ss p he hp
    cases ss with
    | nil => exact absurd he (by simp [Each])
    | cons s ss =>
      obtain ⟨sec, hsec, hne, hpa⟩ := parse_section E p part s he.1 hp
      obtain ⟨q, secs, hq, hsecs, hes, hc⟩ := ih ss ⟨.valueOrSection, p.done ++ p.cur.toList, some sec⟩ he.2 (Or.inr ⟨rfl, sec, rfl, hne⟩)
      refine ⟨q, sec :: secs, ?_, ?_, ⟨hsec, hes⟩, Or.inr ?_⟩
      · rw [List.flatten_cons, parseAll_append, hpa]
        exact hq
      · simpa using hsecs
      · rcases hc with ⟨h, _⟩ | h
        · exact ⟨sec, h, hne⟩
        · exact h

/-! ### Files -/

/-- A readable file is accepted, with the sections its text states, exactly if it is well-formed. -/
theorem parseFile_iff (E : Env F) (s : Str) (hr : Readable s) :
    (∀ secs, parseFile E (.content s) = .ok secs → ∃ ss, IsFile E s ss ∧ Each Sec secs ss) ∧
    (∀ ss, IsFile E s ss → ∃ secs, parseFile E (.content s) = .ok secs ∧ Each Sec secs ss) := by
  have e : parseLines E ⟨.sect, [], none⟩ (chunks s) = parseAll E ⟨.sect, [], none⟩ (contents s) := parseLines_eq E _ _
  unfold parseFile
  simp only [e]
  constructor
  · intro secs h
    cases hp : parseAll E ⟨.sect, [], none⟩ (contents s) with
    | fail => rw [hp] at h; cases h
    | crash => rw [hp] at h; cases h
    | ok p =>
      rw [hp] at h
      simp only [Res.bind] at h
      rcases inv_all E _ (contents_nonempty s) p hp with ⟨_, rfl⟩ | ⟨parts, ss, title, ms, vs, sec, st, hts, hparts, hdone, htit, hcur, hsec, hms, hnd, hvs, hhm, hhp, hcase⟩
      · cases h
      · rw [hcur] at h
        simp only at h
        split at h
        · cases h
        rename_i hem
        simp only [Res.ok.injEq] at h
        subst h
        have h2 : ms ≠ [] ∧ vs ≠ [] := by
          unfold isEmpty at hem
          rw [hhm, hhp] at hem
          constructor <;> rintro rfl <;> simp at hem
        refine ⟨ss ++ [st], ⟨by simp, contents s, parts ++ [title :: ms ++ vs], (content_iff s hr _).mpr rfl, by rw [hts]; simp, ?_⟩, each_append hdone (each_single hsec)⟩
        exact each_append hparts (each_single ⟨title, ms, vs, rfl, htit, h2.1, h2.2, hms, hnd, hvs⟩)
  · rintro ss ⟨hne, ts, parts, hc, rfl, hparts⟩
    obtain ⟨q, secs, hq, hsecs, hes, hcur⟩ := parse_sections E parts ss ⟨.sect, [], none⟩ hparts (Or.inl ⟨rfl, rfl⟩)
    rw [← (content_iff s hr _).mp hc, hq]
    rcases hcur with ⟨_, h⟩ | ⟨c, hc, hem⟩
    · exact absurd h hne
    · refine ⟨secs, ?_, hes⟩
      simp only [Res.bind, hc, hem, Bool.false_eq_true, if_false]
      rw [hc] at hsecs
      simpa using hsecs

/-! ### No crash -/

theorem parseLine_no_crash (E : Env F) (p : Parser F) (t : Str) (h : p.st = .sect ∨ p.cur.isSome = true) :
    parseLine E p t ≠ .crash ∧ ∀ q, parseLine E p t = .ok q → q.st = .sect ∨ q.cur.isSome = true := by
  unfold parseLine
  split
  · rename_i first last hf hl
    split
    · simp
    split
    · simp
    split
    · split
      · simp
      split
      · simp
      split
      · simp
      · refine ⟨by simp, ?_⟩
        intro q hq
        simp only [Res.ok.injEq] at hq
        subst hq
        exact Or.inr rfl
    · split
      · simp
      rename_i hup
      simp only
      split
      · simp
      rename_i st hst
      split
      · rename_i hcur
        exfalso
        rcases h with h | h
        · rw [h] at hst; cases hst
        · rw [hcur] at h; cases h
      · rename_i sec hcur
        have hnc := parseValueLine_no_crash E sec t first hf (upper_of hup)
        cases hv : parseValueLine E sec t with
        | crash => exact absurd hv hnc
        | fail => simp [Res.bind]
        | ok s' =>
          simp only [Res.bind, ne_eq, reduceCtorEq, not_false_eq_true, Res.ok.injEq, true_and]
          rintro q rfl
          exact Or.inr rfl
  · refine ⟨by simp, ?_⟩
    intro q hq
    simp only [Res.ok.injEq] at hq
    exact hq ▸ h

theorem parseLines_no_crash (E : Env F) (ls : List Str) : ∀ p : Parser F, (p.st = .sect ∨ p.cur.isSome = true) → parseLines E p ls ≠ .crash := by
  induction ls with
  | nil => intro p _; simp [parseLines]
  | cons l ls ih =>
    intro p hp
    obtain ⟨h1, h2⟩ := parseLine_no_crash E p (clean l) hp
    rw [parseLines]
    cases hq : parseLine E p (clean l) with
    | crash => exact absurd hq h1
    | fail => simp [Res.bind]
    | ok q => exact ih q (h2 q hq)

theorem parseFile_no_crash (E : Env F) (f : File) : parseFile E f ≠ .crash := by
  cases f with
  | missing => simp [parseFile]
  | unreadable => simp [parseFile]
  | content s =>
    have := parseLines_no_crash E (chunks s) ⟨.sect, [], none⟩ (Or.inl rfl)
    unfold parseFile
    simp only
    cases hq : parseLines E ⟨.sect, [], none⟩ (chunks s) with
    | crash => exact absurd hq this
    | fail => simp [Res.bind]
    | ok q =>
      simp only [Res.bind]
      split
      · simp
      · split <;> simp

end Libinput.Quirks
