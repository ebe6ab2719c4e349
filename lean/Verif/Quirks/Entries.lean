import Verif.Quirks.Values
/-! Quirks: lines with a key and a value. -/
namespace Libinput.Quirks
open Libinput.Strings Libinput.Strings.Spec Libinput.Parsers Libinput.Parsers.Spec Spec

/-! ### Models -/

theorem models_found : ∀ e ∈ keys, e.1.toList.take 5 = "Model".toList → models.find? (fun q => e.1.toList = q.name) = some e.2.1 ∧ e.2.2 = .flag := by
  decide +kernel

theorem models_known : ∀ q ∈ models, ∃ e ∈ keys, q.name = e.1.toList := by
  decide +kernel

theorem keys_prefix : ∀ e ∈ keys, e.1.toList.take 5 ≠ "Match".toList ∧ (e.1.toList.take 5 = "Model".toList ∨ e.1.toList.take 4 = "Attr".toList) := by
  decide +kernel

theorem keys_upper : ∀ e ∈ keys, ∃ c, e.1.toList.head? = some c ∧ 'A' ≤ c ∧ c ≤ 'Z' := by
  intro e he
  have : ∀ e ∈ keys, e.1.toList.head? = some 'M' ∨ e.1.toList.head? = some 'A' := by decide +kernel
  rcases this e he with h | h
  · exact ⟨_, h, by decide, by decide⟩
  · exact ⟨_, h, by decide, by decide⟩

theorem find_model (key : Str) (h : key.take 5 = "Model".toList) : models.find? (fun q => key = q.name) = (entry key).map fun e => e.2.1 := by
  cases he : entry key with
  | some e =>
    obtain ⟨hm, rfl⟩ := (entry_iff key e).mp he
    exact (models_found e hm h).1
  | none =>
    rw [Option.map_none, List.find?_eq_none]
    intro q hq hk
    simp only [decide_eq_true_eq] at hk
    obtain ⟨e, hm, hn⟩ := models_known q hq
    rw [(entry_iff key e).mpr ⟨hm, hk.trans hn⟩] at he
    cases he

theorem parseModel_eq {F : Type} (E : Env F) (s : Section F) (key value : Str) (h : key.take 5 = "Model".toList) :
    parseModel s key value = Res.ofOption (((entry key).bind fun e => (valueOf E value e.2.2).map fun v => (⟨e.2.1, v⟩ : Property F)).map fun p =>
      { s with properties := s.properties ++ [p], hasProperty := true }) := by
  unfold parseModel
  rw [if_neg (fun hn => hn h), find_model key h]
  cases he : entry key with
  | none =>
    cases parseFlag value <;> rfl
  | some e =>
    obtain ⟨hm, rfl⟩ := (entry_iff key e).mp he
    rw [Option.bind_some, (models_found e hm h).2]
    simp only [valueOf]
    cases parseFlag value <;> rfl

theorem parseAttr_eq {F : Type} (E : Env F) (s : Section F) (key value : Str) (h : key.take 4 = "Attr".toList) :
    parseAttr E s key value = Res.ofOption (((entry key).bind fun e => (valueOf E value e.2.2).map fun v => (⟨e.2.1, v⟩ : Property F)).map fun p =>
      { s with properties := s.properties ++ [p], hasProperty := true }) := by
  unfold parseAttr
  rw [attr_eq E key value h]
  generalize (entry key).bind (fun e => (valueOf E value e.2.2).map fun v => (⟨e.2.1, v⟩ : Property F)) = o
  cases o <;> rfl

/-! ### The key and the value -/

theorem splits_nil {sep : Char → Bool} {s : Str} (h : Splits sep s []) : ∀ c ∈ s, sep c = true := by
  cases h with
  | nil _ hg => exact hg

/-- The two words of a line. -/
theorem two_words (t key value : Str) (c : Char) (ht : t.head? = some c) (hc : c ≠ '=') :
    strvFromString t "=".toList = some [key, value] ↔
      ∃ eq1 eq2, t = key ++ eq1 ++ value ++ eq2 ∧ eq1 ≠ [] ∧ (∀ c ∈ eq1, c = '=') ∧ (∀ c ∈ eq2, c = '=') ∧
        value ≠ [] ∧ '=' ∉ key ∧ '=' ∉ value ∧ key ≠ [] := by
  have e0 : "=".toList = ['='] := by decide
  rw [e0]
  have hsep : ∀ x : Char, ['='].contains x = true ↔ x = '=' := by intro x; simp
  have hsep' : ∀ x : Char, ['='].contains x = false ↔ x ≠ '=' := by intro x; simp
  rw [(split_returns_exactly_words t ['=']).1 [key, value]]
  constructor
  · rintro ⟨_, h⟩
    cases h with
    | cons gap w rest ws hg hne hw hmax hr =>
      cases hr with
      | cons gap2 w2 rest2 ws2 hg2 hne2 hw2 hmax2 hr2 =>
        have hr2 := splits_nil hr2
        have hgap : gap = [] := by
          cases gap with
          | nil => rfl
          | cons x gap =>
            have := (hsep x).mp (hg x (by simp))
            simp only [List.cons_append, List.head?_cons, Option.some.injEq] at ht
            exact absurd (ht ▸ this) hc
        subst hgap
        have h1 : gap2 ≠ [] := by
          rintro rfl
          rcases hmax with h | ⟨x, r, h, hx⟩
          · simp [hne2] at h
          · obtain ⟨y, w2', rfl⟩ : ∃ y w', value = y :: w' := by
              cases value with
              | nil => exact absurd rfl hne2
              | cons y w' => exact ⟨y, w', rfl⟩
            simp only [List.nil_append, List.cons_append, List.cons.injEq] at h
            have := hw2 y (by simp)
            rw [h.1, hx] at this
            cases this
        exact ⟨gap2, rest2, by simp, h1, fun x hx => (hsep x).mp (hg2 x hx), fun x hx => (hsep x).mp (hr2 x hx), hne2,
          fun hx => absurd ((hsep' _).mp (hw _ hx)) (by simp), fun hx => absurd ((hsep' _).mp (hw2 _ hx)) (by simp), hne⟩
  · rintro ⟨eq1, eq2, rfl, h1, hq1, hq2, hv, hk, hv', hne⟩
    refine ⟨by simp, ?_⟩
    have := Splits.cons (sep := fun c => ['='].contains c) [] key (eq1 ++ value ++ eq2) [value] (by simp) hne
      (fun x hx => (hsep' x).mpr fun e => hk (e ▸ hx)) ?_ ?_
    · simpa [List.append_assoc] using this
    · obtain ⟨x, r, rfl⟩ : ∃ x r, eq1 = x :: r := by
        cases eq1 with
        | nil => exact absurd rfl h1
        | cons x r => exact ⟨x, r, rfl⟩
      exact Or.inr ⟨x, r ++ value ++ eq2, by simp, (hsep x).mpr (hq1 x (by simp))⟩
    · refine Splits.cons eq1 value eq2 [] (fun x hx => (hsep x).mpr (hq1 x hx)) hv (fun x hx => (hsep' x).mpr fun e => hv' (e ▸ hx)) ?_
        (Splits.nil eq2 fun x hx => (hsep x).mpr (hq2 x hx))
      cases eq2 with
      | nil => exact Or.inl rfl
      | cons x r => exact Or.inr ⟨x, r, rfl, (hsep x).mpr (hq2 x (by simp))⟩

/-- A prefix without `=` is one of the key. -/
theorem take_key (key eq1 r w : Str) (h1 : eq1 ≠ []) (hq : ∀ c ∈ eq1, c = '=') (hw : '=' ∉ w) :
    (key ++ eq1 ++ r).take w.length = w ↔ key.take w.length = w := by
  obtain ⟨x, e, rfl⟩ : ∃ x e, eq1 = x :: e := by
    cases eq1 with
    | nil => exact absurd rfl h1
    | cons x e => exact ⟨x, e, rfl⟩
  obtain rfl := hq x (by simp)
  by_cases hl : w.length ≤ key.length
  · rw [List.append_assoc, List.take_append_of_le_length hl]
  · constructor
    · intro h
      exfalso
      apply hw
      rw [← h]
      rw [List.append_assoc, List.take_append, List.mem_append]
      right
      obtain ⟨n, hn⟩ : ∃ n, w.length - key.length = n + 1 := ⟨w.length - key.length - 1, by omega⟩
      rw [hn]
      simp
    · intro h
      have := congrArg List.length h
      rw [List.length_take] at this
      omega

/-- The outcome of a line with a key and a value. -/
theorem parseValueLine_ok {F : Type} (E : Env F) (s s' : Section F) (t : Str) (c : Char) (ht : t.head? = some c) (hc : 'A' ≤ c ∧ c ≤ 'Z')
    (hl : ∀ c, t.getLast? = some c → ¬ Blank c) (h : parseValueLine E s t = .ok s') :
    (t.take 5 = "Match".toList ∧ ∃ cond, CondLine t cond ∧ s.mtch.has (flagOf cond) = false ∧ s' = { s with mtch := add s.mtch cond, hasMatch := true }) ∨
    (t.take 5 ≠ "Match".toList ∧ ∃ p, ValueLine E t p ∧ s' = { s with properties := s.properties ++ [p], hasProperty := true }) := by
  have hne : c ≠ '=' := by
    rintro rfl
    exact absurd hc.1 (by decide)
  unfold parseValueLine at h
  split at h
  · cases h
  · rename_i key value hs
    obtain ⟨eq1, eq2, e, h1, hq1, hq2, hv, hk, hv', hkn⟩ := (two_words t key value c ht hne).mp hs
    have hhead : key.head? = some c := by
      cases key with
      | nil => exact absurd rfl hkn
      | cons x r => rw [e] at ht; simpa using ht
    split at h
    · cases h
    split at h
    · cases h
    rename_i hquote
    have ha : Assign t key value := ⟨eq1, eq2, e, h1, hq1, hq2, hv, hk, hv', ⟨c, hhead, hc⟩, hl, fun q => hquote (Or.inl q), fun q => hquote (Or.inr q)⟩
    have htake : t.take 5 = "Match".toList ↔ key.take 5 = "Match".toList := by
      rw [e, List.append_assoc]
      exact take_key key eq1 (value ++ eq2) "Match".toList h1 hq1 (by decide)
    have props : ∀ (o : Option (Property F)), (o = (entry key).bind fun e => (valueOf E value e.2.2).map fun v => (⟨e.2.1, v⟩ : Property F)) →
        Res.ofOption (o.map fun p => ({ s with properties := s.properties ++ [p], hasProperty := true } : Section F)) = .ok s' →
        ∃ p, ValueLine E t p ∧ s' = { s with properties := s.properties ++ [p], hasProperty := true } := by
      intro o ho hok
      cases o with
      | none => cases hok
      | some p =>
        simp only [Option.map_some, Res.ofOption, Res.ok.injEq] at hok
        obtain ⟨en, he, hp⟩ := Option.bind_eq_some_iff.mp ho.symm
        obtain ⟨v, hv, rfl⟩ := Option.map_eq_some_iff.mp hp
        obtain ⟨hm, rfl⟩ := (entry_iff key en).mp he
        exact ⟨_, ⟨en.1, value, en.2.2, hm, ha, (valueOf_iff E value _ v).mp hv⟩, hok.symm⟩
    split at h
    · rename_i hm
      refine Or.inl ⟨htake.mpr hm, ?_⟩
      unfold parseMatch at h
      split at h
      · cases h
      cases hp : parseMatchKey s.mtch key value with
      | none => rw [hp] at h; cases h
      | some m =>
        rw [hp] at h
        simp only [Res.ok.injEq] at h
        obtain ⟨cond, rfl, htx, hf, rfl⟩ := parseMatchKey_some hp
        exact ⟨cond, ⟨value, ha, htx⟩, hf, h.symm⟩
    · rename_i hm
      refine Or.inr ⟨fun e => hm (htake.mp e), ?_⟩
      split at h
      · rename_i hmod
        rw [parseModel_eq E s key value hmod] at h
        exact props _ rfl h
      split at h
      · rename_i hat
        rw [parseAttr_eq E s key value hat] at h
        exact props _ rfl h
      · cases h
  · cases h

theorem parseValueLine_no_crash {F : Type} (E : Env F) (s : Section F) (t : Str) (c : Char) (ht : t.head? = some c) (hc : 'A' ≤ c ∧ c ≤ 'Z') :
    parseValueLine E s t ≠ .crash := by
  intro h
  unfold parseValueLine at h
  split at h
  · rename_i hs
    have := (split_returns_exactly_words t "=".toList).2.mp hs c (by cases t <;> simp_all)
    have e0 : "=".toList = ['='] := by decide
    rw [e0] at this
    have : c = '=' := by simpa using this
    subst this
    exact absurd hc.1 (by decide)
  · rename_i key value hs
    split at h
    · cases h
    rename_i hlen
    split at h
    · cases h
    split at h
    · unfold parseMatch at h
      rw [if_neg (by omega)] at h
      split at h <;> cases h
    split at h
    · rename_i hmod
      unfold parseModel at h
      rw [if_neg (fun hn => hn hmod)] at h
      split at h
      · cases h
      · split at h <;> cases h
    split at h
    · unfold parseAttr at h
      split at h <;> cases h
    · cases h
  · cases h

theorem assign_words {t key value : Str} (h : Assign t key value) : strvFromString t "=".toList = some [key, value] ∧ (∃ c, t.head? = some c ∧ 'A' ≤ c ∧ c ≤ 'Z') := by
  obtain ⟨eq1, eq2, e, h1, hq1, hq2, hv, hk, hv', ⟨c, hc, hA, hZ⟩, _⟩ := h
  have hkn : key ≠ [] := by rintro rfl; cases hc
  have ht : t.head? = some c := by
    cases key with
    | nil => exact absurd rfl hkn
    | cons x r => rw [e]; simpa using hc
  refine ⟨(two_words t key value c ht ?_).mpr ⟨eq1, eq2, e, h1, hq1, hq2, hv, hk, hv', hkn⟩, c, ht, hA, hZ⟩
  rintro rfl
  exact absurd hA (by decide)

theorem assign_take {t key value : Str} (h : Assign t key value) : t.take 5 = "Match".toList ↔ key.take 5 = "Match".toList := by
  obtain ⟨eq1, eq2, e, h1, hq1, _⟩ := h
  rw [e, List.append_assoc]
  exact take_key key eq1 (value ++ eq2) "Match".toList h1 hq1 (by decide)

theorem cond_prefix (c : Cond) : c.key.toList.take 5 = "Match".toList := by cases c <;> (simp only [Cond.key]; decide)

theorem parseValueLine_cond {F : Type} (E : Env F) (s : Section F) (t : Str) (cond : Cond) (h : CondLine t cond) (hf : s.mtch.has (flagOf cond) = false) :
    parseValueLine E s t = .ok { s with mtch := add s.mtch cond, hasMatch := true } := by
  obtain ⟨value, ha, htx⟩ := h
  have hw := (assign_words ha).1
  obtain ⟨eq1, eq2, e, h1, hq1, hq2, hv, hk, hv', ⟨c, hc, _⟩, _, q1, q2⟩ := ha
  unfold parseValueLine
  rw [hw]
  have hlen : ¬ (cond.key.toList.length = 0 ∨ value.length = 0) := by
    rintro (h | h)
    · rw [List.length_eq_zero_iff.mp h] at hc; cases hc
    · exact hv (List.length_eq_zero_iff.mp h)
  simp only
  rw [if_neg hlen, if_neg (fun h => h.elim q1 q2), if_pos (cond_prefix cond)]
  unfold parseMatch
  rw [if_neg (by omega), parseMatchKey_add s.mtch cond value htx hf]

theorem parseValueLine_value {F : Type} (E : Env F) (s : Section F) (t : Str) (p : Property F) (h : ValueLine E t p) :
    parseValueLine E s t = .ok { s with properties := s.properties ++ [p], hasProperty := true } := by
  obtain ⟨key, value, kind, hm, ha, htx⟩ := h
  have hw := (assign_words ha).1
  obtain ⟨eq1, eq2, e, h1, hq1, hq2, hv, hk, hv', ⟨c, hc, _⟩, _, q1, q2⟩ := ha
  unfold parseValueLine
  rw [hw]
  have hlen : ¬ (key.toList.length = 0 ∨ value.length = 0) := by
    rintro (h | h)
    · rw [List.length_eq_zero_iff.mp h] at hc; cases hc
    · exact hv (List.length_eq_zero_iff.mp h)
  have he := (entry_iff key.toList (key, p.id, kind)).mpr ⟨hm, rfl⟩
  obtain ⟨hpm, hpp⟩ := keys_prefix _ hm
  simp only at hpm hpp ⊢
  rw [if_neg hlen, if_neg (fun h => h.elim q1 q2), if_neg hpm]
  have hval := (valueOf_iff E value kind p.value).mpr htx
  by_cases hmod : key.toList.take 5 = "Model".toList
  · rw [if_pos hmod, parseModel_eq E s _ value hmod, he, Option.bind_some]
    simp only [hval, Option.map_some, Res.ofOption]
  · rw [if_neg hmod, if_pos (hpp.resolve_left hmod), parseAttr_eq E s _ value (hpp.resolve_left hmod), he, Option.bind_some]
    simp only [hval, Option.map_some, Res.ofOption]

end Libinput.Quirks
