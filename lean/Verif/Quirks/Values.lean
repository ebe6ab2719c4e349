import Verif.Quirks.Lines
import Verif.Parsers.Props
/-! Quirks: the lines of a section. -/
namespace Libinput.Quirks
open Libinput.Strings Libinput.Strings.Spec Libinput.Parsers Libinput.Parsers.Spec Spec

/-! ### Words -/

theorem any_words (l : List String) (s : Str) : l.any (fun w => s = w.toList) = true ↔ ∃ x ∈ l, s = x.toList := by simp

theorem parseWord_iff (l : List String) (s w : Str) : parseWord l s = some w ↔ w = s ∧ ∃ x ∈ l, s = x.toList := by
  unfold parseWord
  by_cases h : l.any (fun w => s = w.toList) = true
  · rw [if_pos h]
    have := (any_words l s).mp h
    simp only [Option.some.injEq]
    exact ⟨fun e => ⟨e.symm, this⟩, fun e => e.1.symm⟩
  · rw [if_neg h]
    simp only [reduceCtorEq, false_iff]
    exact fun e => h ((any_words l s).mpr e.2)

theorem parseFlag_iff (s : Str) (b : Bool) : parseFlag s = some b ↔ s = "1".toList ∧ b = true ∨ s = "0".toList ∧ b = false := by
  unfold parseFlag
  by_cases h1 : s = "1".toList
  · subst h1
    cases b <;> simp
  · rw [if_neg h1]
    by_cases h0 : s = "0".toList
    · subst h0
      cases b <;> simp
    · rw [if_neg h0]
      simp only [reduceCtorEq, false_iff]
      rintro (⟨h, _⟩ | ⟨h, _⟩)
      · exact h1 h
      · exact h0 h

theorem busOf_iff (s : Str) (b : Bus) : busOf s = some b ↔ ∃ n, (n, b) ∈ buses ∧ s = n.toList := by
  constructor
  · intro h
    unfold busOf at h
    repeat' split at h
    all_goals first
      | (simp only [Option.some.injEq] at h; subst h; refine ⟨_, ?_, by assumption⟩; simp [buses])
      | cases h
  · rintro ⟨n, hn, rfl⟩
    simp only [buses, List.mem_cons, Prod.mk.injEq, List.not_mem_nil, or_false] at hn
    rcases hn with ⟨rfl, rfl⟩ | ⟨rfl, rfl⟩ | ⟨rfl, rfl⟩ | ⟨rfl, rfl⟩ | ⟨rfl, rfl⟩ | ⟨rfl, rfl⟩ <;> decide

theorem udevTypeOf_iff (s : Str) (t : UdevType) : udevTypeOf s = some t ↔ ∃ n, (n, t) ∈ types ∧ s = n.toList := by
  constructor
  · intro h
    unfold udevTypeOf at h
    repeat' split at h
    all_goals first
      | (simp only [Option.some.injEq] at h; subst h; refine ⟨_, ?_, by assumption⟩; simp [types])
      | cases h
  · rintro ⟨n, hn, rfl⟩
    simp only [types, List.mem_cons, Prod.mk.injEq, List.not_mem_nil, or_false] at hn
    rcases hn with ⟨rfl, rfl⟩ | ⟨rfl, rfl⟩ | ⟨rfl, rfl⟩ | ⟨rfl, rfl⟩ | ⟨rfl, rfl⟩ | ⟨rfl, rfl⟩ | ⟨rfl, rfl⟩ <;> decide

/-! ### Hexadecimal numbers -/

theorem hexChar (c : Char) (h : sepOf "0123456789xABCDEF".toList c = true) :
    ('0' ≤ c ∧ c ≤ '9' ∨ 'A' ≤ c ∧ c ≤ 'F') ∨ c = 'x' := by
  unfold sepOf at h
  have : c ∈ "0123456789xABCDEF".toList := by simpa using h
  have e : "0123456789xABCDEF".toList = ['0','1','2','3','4','5','6','7','8','9','x','A','B','C','D','E','F'] := by decide
  rw [e] at this
  simp only [List.mem_cons, List.not_mem_nil, or_false] at this
  rcases this with rfl | rfl | rfl | rfl | rfl | rfl | rfl | rfl | rfl | rfl | rfl | rfl | rfl | rfl | rfl | rfl | rfl <;> decide

theorem char_cases (P : Char → Prop) (lo : Nat) (n : Nat) (h : ∀ i, i < n → P (Char.ofNat (lo + i))) (c : Char) (h1 : lo ≤ c.toNat) (h2 : c.toNat < lo + n) : P c := by
  have := h (c.toNat - lo) (by omega)
  rwa [show lo + (c.toNat - lo) = c.toNat by omega, Char.ofNat_toNat] at this

theorem charHex (c : Char) (h : '0' ≤ c ∧ c ≤ '9' ∨ 'A' ≤ c ∧ c ≤ 'F') : sepOf "0123456789xABCDEF".toList c = true := by
  rcases h with ⟨h1, h2⟩ | ⟨h1, h2⟩
  · have h1' : 48 ≤ c.toNat := h1
    have h2' : c.toNat ≤ 57 := h2
    exact char_cases (fun c => sepOf "0123456789xABCDEF".toList c = true) 48 10 (by decide) c h1' (by omega)
  · have h1' : 65 ≤ c.toNat := h1
    have h2' : c.toNat ≤ 70 := h2
    exact char_cases (fun c => sepOf "0123456789xABCDEF".toList c = true) 65 6 (by decide) c h1' (by omega)

theorem x_noDigit : digitVal 16 'x' = none := by decide

theorem digits_mem {ds : Str} {xs : List Nat} (h : ds.map (digitVal 16) = xs.map some) : ∀ c ∈ ds, (digitVal 16 c).isSome = true := by
  induction ds generalizing xs with
  | nil => simp
  | cons c ds ih =>
    cases xs with
    | nil => simp at h
    | cons x xs =>
      simp only [List.map_cons, List.cons.injEq] at h
      intro d hd
      rcases List.mem_cons.mp hd with rfl | hd
      · simp [h.1]
      · exact ih h.2 d hd

/-- A numeral of base 16 that begins with `0x` has its digits after that. -/
theorem numeral_0x {s : Str} {neg : Bool} {m : Nat} (h : Numeral 16 ('0' :: 'x' :: s) neg m) :
    neg = false ∧ s ≠ [] ∧ ∃ ds : List Nat, s.map (digitVal 16) = ds.map some ∧ m = value 16 ds := by
  obtain ⟨ws, sign, pre, digits, ds, e, hws, hsign, hpre, hne, hd, rfl⟩ := h
  have hw : ws = [] := by
    cases ws with
    | nil => rfl
    | cons c ws =>
      simp only [List.cons_append, List.cons.injEq] at e
      have := hws c (by simp)
      rw [← e.1] at this
      exact absurd this (by decide)
  subst hw
  have hs : sign = [] ∧ neg = false := by
    rcases hsign with ⟨rfl, rfl⟩ | ⟨rfl, rfl⟩ | ⟨rfl, rfl⟩
    · simp at e
    · simp at e
    · exact ⟨rfl, rfl⟩
  obtain ⟨rfl, rfl⟩ := hs
  simp only [List.nil_append] at e
  rcases hpre with rfl | ⟨_, rfl | rfl⟩
  · simp only [List.nil_append] at e
    have := digits_mem hd 'x' (by rw [← e]; simp)
    rw [x_noDigit] at this
    cases this
  · simp only [List.cons_append, List.nil_append, List.cons.injEq, true_and] at e
    subst e
    exact ⟨rfl, hne, ds, hd, rfl⟩
  · simp at e

theorem parseHex_iff (s : Str) (v : Nat) : parseHex s = some v ↔ HexId s v := by
  unfold parseHex HexId
  have e0 : "0x".toList = ['0', 'x'] := by decide
  constructor
  · intro h
    split at h
    · rename_i hp
      rw [e0] at hp
      cases hv : safeAtouBase 16 s with
      | none => rw [hv] at h; cases h
      | some w =>
        rw [hv] at h
        simp only at h
        split at h
        · rename_i hc
          simp only [Option.some.injEq] at h
          subst h
          obtain ⟨neg, m, hn, hm, hlt, hw⟩ := (atou_exact 16 (by simp) s w).mp hv
          obtain ⟨t, rfl⟩ : ∃ t, s = '0' :: 'x' :: t := by
            match s, hp with
            | a :: b :: t, hp =>
              simp only [List.take_succ_cons, List.take_zero, List.cons.injEq, and_true] at hp
              exact ⟨t, by rw [hp.1, hp.2]⟩
            | [_], hp => simp at hp
            | [], hp => simp at hp
          obtain ⟨rfl, hne, ds, hd, rfl⟩ := numeral_0x hn
          refine ⟨t, ds, rfl, hne, ?_, hd, ?_, ?_, hc.2⟩
          · intro c hcm
            have h1 := List.all_eq_true.mp hc.1 c (by simp [hcm])
            rcases hexChar c h1 with h | rfl
            · exact h
            · have := digits_mem hd 'x' hcm
              rw [x_noDigit] at this
              cases this
          · simp only [signed, Bool.false_eq_true, if_false] at hlt
            omega
          · simp only [signed, Bool.false_eq_true, if_false] at hw
            omega
        · cases h
    · cases h
  · rintro ⟨digits, ds, rfl, hne, hc, hd, hlt, rfl, hle⟩
    rw [if_pos (by rw [e0]; rfl)]
    have hn : Numeral 16 ('0' :: 'x' :: digits) false (value 16 ds) :=
      ⟨[], [], ['0', 'x'], digits, ds, rfl, by simp, by simp, Or.inr ⟨rfl, Or.inl rfl⟩, hne, hd, rfl⟩
    have hv := (atou_exact 16 (by simp) _ (value 16 ds % 4294967296)).mpr
      ⟨false, _, hn, by omega, by simp only [signed, Bool.false_eq_true, if_false]; omega, by simp only [signed, Bool.false_eq_true, if_false]; omega⟩
    rw [hv]
    simp only
    rw [if_pos]
    refine ⟨List.all_eq_true.mpr ?_, hle⟩
    intro c hcm
    simp only [List.mem_cons] at hcm
    rcases hcm with rfl | rfl | hcm
    · decide
    · decide
    · exact charHex c (hc c hcm)

/-! ### Conditions -/

/-- The bit of a condition. -/
def flagOf : Cond → Flag
  | .name _ => .name
  | .bus _ => .bus
  | .vendor _ => .vid
  | .product _ => .pid
  | .version _ => .version
  | .dmi _ => .dmi
  | .udevType _ => .udevType
  | .deviceTree _ => .dt

/-- Sets the field of a condition. -/
def add (m : Match) : Cond → Match
  | .name p => { m with name := some p }
  | .bus b => { m with bus := some b }
  | .vendor v => { m with vendor := some v }
  | .product v => { m with product := some v }
  | .version v => { m with version := some v }
  | .dmi p => { m with dmi := some p }
  | .udevType t => { m with udevType := some [t] }
  | .deviceTree p => { m with dt := some p }

theorem dmi_prefix (s : Str) : s.take 4 = "dmi:".toList ↔ ∃ r, s = 'd' :: 'm' :: 'i' :: ':' :: r := by
  have e : "dmi:".toList = ['d', 'm', 'i', ':'] := by decide
  rw [e]
  constructor
  · intro h
    have := List.take_append_drop 4 s
    rw [h] at this
    exact ⟨s.drop 4, this.symm⟩
  · rintro ⟨r, rfl⟩; rfl

theorem parseMatchKey_some {m m' : Match} {key value : Str} (h : parseMatchKey m key value = some m') :
    ∃ c : Cond, key = c.key.toList ∧ c.text value ∧ m.has (flagOf c) = false ∧ m' = add m c := by
  unfold parseMatchKey at h
  have fin : ∀ {o : Bool} (_ : ¬ o = true), o = false := fun h => by simpa using h
  split at h
  · split at h
    · cases h
    · rename_i hk hs
      simp only [Option.some.injEq] at h
      exact ⟨.name value, hk, rfl, fin hs, h.symm⟩
  split at h
  · split at h
    · cases h
    · rename_i hk hs
      obtain ⟨b, hb, rfl⟩ := Option.map_eq_some_iff.mp h
      exact ⟨.bus b, hk, (busOf_iff value b).mp hb, fin hs, rfl⟩
  split at h
  · split at h
    · cases h
    · rename_i hk hs
      obtain ⟨b, hb, rfl⟩ := Option.map_eq_some_iff.mp h
      exact ⟨.vendor b, hk, (parseHex_iff value b).mp hb, fin hs, rfl⟩
  split at h
  · split at h
    · cases h
    · rename_i hk hs
      obtain ⟨b, hb, rfl⟩ := Option.map_eq_some_iff.mp h
      exact ⟨.product b, hk, (parseHex_iff value b).mp hb, fin hs, rfl⟩
  split at h
  · split at h
    · cases h
    · rename_i hk hs
      obtain ⟨b, hb, rfl⟩ := Option.map_eq_some_iff.mp h
      exact ⟨.version b, hk, (parseHex_iff value b).mp hb, fin hs, rfl⟩
  split at h
  · split at h
    · cases h
    · rename_i hk hs
      split at h
      · cases h
      · rename_i hd
        simp only [Option.some.injEq] at h
        exact ⟨.dmi value, hk, ⟨rfl, (dmi_prefix value).mp (by simpa using hd)⟩, fin hs, h.symm⟩
  split at h
  · split at h
    · cases h
    · rename_i hk hs
      obtain ⟨b, hb, rfl⟩ := Option.map_eq_some_iff.mp h
      exact ⟨.udevType b, hk, (udevTypeOf_iff value b).mp hb, fin hs, rfl⟩
  split at h
  · split at h
    · cases h
    · rename_i hk hs
      simp only [Option.some.injEq] at h
      exact ⟨.deviceTree value, hk, rfl, fin hs, h.symm⟩
  cases h

theorem toList_ne {a b : String} (h : a ≠ b) : ¬ a.toList = b.toList := fun e => h (String.toList_inj.mp e)

theorem parseMatchKey_add (m : Match) (c : Cond) (value : Str) (ht : c.text value) (hf : m.has (flagOf c) = false) :
    parseMatchKey m c.key.toList value = some (add m c) := by
  unfold parseMatchKey
  cases c with
  | name x =>
    rw [Cond.key, if_pos rfl]
    cases ht; rw [if_neg (by simp [show m.name.isSome = false from hf])]; rfl
  | bus x =>
    rw [Cond.key, if_neg (toList_ne (by decide)), if_pos rfl]
    rw [if_neg (by simp [show m.bus.isSome = false from hf]), (busOf_iff value _).mpr ht]; rfl
  | vendor x =>
    rw [Cond.key, if_neg (toList_ne (by decide)), if_neg (toList_ne (by decide)), if_pos rfl]
    rw [if_neg (by simp [show m.vendor.isSome = false from hf]), (parseHex_iff value _).mpr ht]; rfl
  | product x =>
    rw [Cond.key, if_neg (toList_ne (by decide)), if_neg (toList_ne (by decide)), if_neg (toList_ne (by decide)), if_pos rfl]
    rw [if_neg (by simp [show m.product.isSome = false from hf]), (parseHex_iff value _).mpr ht]; rfl
  | version x =>
    rw [Cond.key, if_neg (toList_ne (by decide)), if_neg (toList_ne (by decide)), if_neg (toList_ne (by decide)), if_neg (toList_ne (by decide)), if_pos rfl]
    rw [if_neg (by simp [show m.version.isSome = false from hf]), (parseHex_iff value _).mpr ht]; rfl
  | dmi x =>
    rw [Cond.key, if_neg (toList_ne (by decide)), if_neg (toList_ne (by decide)), if_neg (toList_ne (by decide)), if_neg (toList_ne (by decide)), if_neg (toList_ne (by decide)), if_pos rfl]
    obtain ⟨rfl, hr⟩ := ht; rw [if_neg (by simp [show m.dmi.isSome = false from hf]), if_neg (fun h => h ((dmi_prefix _).mpr hr))]; rfl
  | udevType x =>
    rw [Cond.key, if_neg (toList_ne (by decide)), if_neg (toList_ne (by decide)), if_neg (toList_ne (by decide)), if_neg (toList_ne (by decide)), if_neg (toList_ne (by decide)), if_neg (toList_ne (by decide)), if_pos rfl]
    rw [if_neg (by simp [show m.udevType.isSome = false from hf]), (udevTypeOf_iff value _).mpr ht]; rfl
  | deviceTree x =>
    rw [Cond.key, if_neg (toList_ne (by decide)), if_neg (toList_ne (by decide)), if_neg (toList_ne (by decide)), if_neg (toList_ne (by decide)), if_neg (toList_ne (by decide)), if_neg (toList_ne (by decide)), if_neg (toList_ne (by decide)), if_pos rfl]
    cases ht; rw [if_neg (by simp [show m.dt.isSome = false from hf])]; rfl

/-! ### Values -/

/-- The value a text of this kind has. -/
def valueOf {F : Type} (E : Env F) (s : Str) : Kind → Option (Value F)
  | .flag => (parseFlag s).map .bool
  | .count => (safeAtou s).map .uint
  | .dimension => (parseDimension E.conv (some s)).map fun d => .dimension d.1 d.2
  | .range => (parseRange E.conv (some s)).map fun r => .range r.2 r.1
  | .number => (safeAtod E.round s).map .double
  | .word l => (parseWord l s).map .string
  | .codes => match parseEvcodes E.names E.conv s 32 with | some l => if l.length = 0 then none else some (.tuples l) | none => none
  | .props => match parseInputProps E.names s 32 with | some l => if l.length = 0 then none else some (.uintArray l) | none => none

theorem each_length {α β : Type} {R : α → β → Prop} {l : List α} {l' : List β} (h : Each R l l') : l.length = l'.length := by
  induction l generalizing l' with
  | nil =>
    cases l' with
    | nil => rfl
    | cons b l' => exact absurd h (by simp [Each])
  | cons a l ih =>
    cases l' with
    | nil => exact absurd h (by simp [Each])
    | cons b l' => simp [ih h.2]

theorem sep_eq : (fun c => [';'].contains c) = fun c : Char => c == ';' := by
  funext c
  by_cases h : c = ';' <;> simp [h]

theorem valueOf_iff {F : Type} (E : Env F) (s : Str) (k : Kind) (v : Value F) : valueOf E s k = some v ↔ ValueText E s k v := by
  cases k with
  | flag =>
    simp only [valueOf, Option.map_eq_some_iff]
    cases v <;> simp [ValueText, parseFlag_iff]
  | count =>
    have := atou_exact 10 (by simp) s
    simp only [valueOf, Option.map_eq_some_iff, safeAtou, this]
    cases v <;> simp [ValueText, Count]
  | dimension =>
    simp only [valueOf, Option.map_eq_some_iff, Prod.exists, dimension_iff]
    cases v <;> simp [ValueText]
  | range =>
    simp only [valueOf, Option.map_eq_some_iff, Prod.exists, range_iff]
    cases v <;> simp [ValueText]
    constructor
    · rintro ⟨a, b, h, rfl, rfl⟩; exact h
    · intro h; exact ⟨_, _, h, rfl, rfl⟩
  | number =>
    simp only [valueOf, Option.map_eq_some_iff, atod_accepts_exactly_decimals]
    cases v <;> simp [ValueText]
  | word l =>
    simp only [valueOf, Option.map_eq_some_iff, parseWord_iff]
    cases v <;> simp [ValueText]
  | codes =>
    have key : ∀ l, parseEvcodes E.names E.conv s 32 = some l ↔ ∃ ws, Words s ws ∧ Each (Evcode E.names E.conv) ws l := by
      intro l
      rw [evcodes_iff, sep_eq]
      constructor
      · rintro ⟨ws, evs, h1, h2, h3, h4, rfl⟩
        refine ⟨ws, ⟨h1, h2, h3⟩, ?_⟩
        rwa [List.take_of_length_le (by rw [← each_length h4]; exact h3)]
      · rintro ⟨ws, ⟨h1, h2, h3⟩, h4⟩
        exact ⟨ws, l, h1, h2, h3, h4, (List.take_of_length_le (by rw [← each_length h4]; exact h3)).symm⟩
    have ne : ∀ l, parseEvcodes E.names E.conv s 32 = some l → l.length ≠ 0 := by
      intro l h
      obtain ⟨ws, hw, he⟩ := (key l).mp h
      rw [← each_length he]
      exact fun h => hw.1 (List.length_eq_zero_iff.mp h)
    simp only [valueOf]
    cases h : parseEvcodes E.names E.conv s 32 with
    | none =>
      simp only [reduceCtorEq, false_iff]
      intro hv
      cases v <;> simp only [ValueText] at hv
      rw [← key, h] at hv
      cases hv
    | some l =>
      simp only [if_neg (ne l h), Option.some.injEq]
      constructor
      · rintro rfl
        exact (key l).mp h
      · intro hv
        cases v <;> simp only [ValueText] at hv
        rw [← key, h] at hv
        simpa using hv
  | props =>
    have key : ∀ l, parseInputProps E.names s 32 = some l ↔ ∃ ws, Words s ws ∧ Each (InputProp E.names) ws l := by
      intro l
      rw [input_props_iff, sep_eq]
      constructor
      · rintro ⟨ws, evs, h1, h2, h3, h4, rfl⟩
        refine ⟨ws, ⟨h1, h2, h3⟩, ?_⟩
        rwa [List.take_of_length_le (by rw [← each_length h4]; exact h3)]
      · rintro ⟨ws, ⟨h1, h2, h3⟩, h4⟩
        exact ⟨ws, l, h1, h2, h3, h4, (List.take_of_length_le (by rw [← each_length h4]; exact h3)).symm⟩
    have ne : ∀ l, parseInputProps E.names s 32 = some l → l.length ≠ 0 := by
      intro l h
      obtain ⟨ws, hw, he⟩ := (key l).mp h
      rw [← each_length he]
      exact fun h => hw.1 (List.length_eq_zero_iff.mp h)
    simp only [valueOf]
    cases h : parseInputProps E.names s 32 with
    | none =>
      simp only [reduceCtorEq, false_iff]
      intro hv
      cases v <;> simp only [ValueText] at hv
      rw [← key, h] at hv
      cases hv
    | some l =>
      simp only [if_neg (ne l h), Option.some.injEq]
      constructor
      · rintro rfl
        exact (key l).mp h
      · intro hv
        cases v <;> simp only [ValueText] at hv
        rw [← key, h] at hv
        simpa using hv

/-- The entry of a key. -/
def entry (key : Str) : Option (String × Quirk × Kind) := keys.find? fun e => key = e.1.toList

theorem keys_nodup : (keys.map Prod.fst).Nodup := by decide +kernel

theorem find_key {α : Type} {l : List (String × α)} (hn : (l.map Prod.fst).Nodup) {e : String × α} (h : e ∈ l) :
    l.find? (fun x => e.1.toList = x.1.toList) = some e := by
  induction l with
  | nil => simp at h
  | cons a l ih =>
    simp only [List.map_cons, List.nodup_cons] at hn
    rcases List.mem_cons.mp h with rfl | h
    · simp
    · rw [List.find?_cons]
      have : e.1 ≠ a.1 := by
        intro he
        exact hn.1 (he ▸ List.mem_map_of_mem h)
      simp only [String.toList_inj, this, decide_false]
      simpa only [String.toList_inj] using ih hn.2 h

theorem entry_iff (key : Str) (e : String × Quirk × Kind) : entry key = some e ↔ e ∈ keys ∧ key = e.1.toList := by
  constructor
  · intro h
    exact ⟨List.mem_of_find?_eq_some h, by simpa using List.find?_some h⟩
  · rintro ⟨h, rfl⟩
    exact find_key keys_nodup h

theorem attr_AttrSizeHint {F : Type} (E : Env F) (value : Str) :
    parseAttrKey E "AttrSizeHint".toList value = (valueOf E value (.dimension)).map fun v => ⟨.attrSizeHint, v⟩ := by
  unfold parseAttrKey
  rw [if_pos (show "AttrSizeHint".toList = Quirk.attrSizeHint.name from rfl)]
  simp only [valueOf, Option.map_map]
  rfl

theorem attr_AttrTouchSizeRange {F : Type} (E : Env F) (value : Str) :
    parseAttrKey E "AttrTouchSizeRange".toList value = (valueOf E value (.range)).map fun v => ⟨.attrTouchSizeRange, v⟩ := by
  unfold parseAttrKey
  rw [if_neg (show ¬ "AttrTouchSizeRange".toList = Quirk.attrSizeHint.name from toList_ne (by decide)), if_pos (show "AttrTouchSizeRange".toList = Quirk.attrTouchSizeRange.name from rfl)]
  simp only [valueOf, Option.map_map]
  rfl

theorem attr_AttrPalmSizeThreshold {F : Type} (E : Env F) (value : Str) :
    parseAttrKey E "AttrPalmSizeThreshold".toList value = (valueOf E value (.count)).map fun v => ⟨.attrPalmSizeThreshold, v⟩ := by
  unfold parseAttrKey
  rw [if_neg (show ¬ "AttrPalmSizeThreshold".toList = Quirk.attrSizeHint.name from toList_ne (by decide)), if_neg (show ¬ "AttrPalmSizeThreshold".toList = Quirk.attrTouchSizeRange.name from toList_ne (by decide)), if_pos (show "AttrPalmSizeThreshold".toList = Quirk.attrPalmSizeThreshold.name from rfl)]
  simp only [valueOf, Option.map_map]
  rfl

theorem attr_AttrLidSwitchReliability {F : Type} (E : Env F) (value : Str) :
    parseAttrKey E "AttrLidSwitchReliability".toList value = (valueOf E value (.word ["reliable", "write_open"])).map fun v => ⟨.attrLidSwitchReliability, v⟩ := by
  unfold parseAttrKey
  rw [if_neg (show ¬ "AttrLidSwitchReliability".toList = Quirk.attrSizeHint.name from toList_ne (by decide)), if_neg (show ¬ "AttrLidSwitchReliability".toList = Quirk.attrTouchSizeRange.name from toList_ne (by decide)), if_neg (show ¬ "AttrLidSwitchReliability".toList = Quirk.attrPalmSizeThreshold.name from toList_ne (by decide)), if_pos (show "AttrLidSwitchReliability".toList = Quirk.attrLidSwitchReliability.name from rfl)]
  simp only [valueOf, Option.map_map]
  rfl

theorem attr_AttrKeyboardIntegration {F : Type} (E : Env F) (value : Str) :
    parseAttrKey E "AttrKeyboardIntegration".toList value = (valueOf E value (.word ["internal", "external"])).map fun v => ⟨.attrKeyboardIntegration, v⟩ := by
  unfold parseAttrKey
  rw [if_neg (show ¬ "AttrKeyboardIntegration".toList = Quirk.attrSizeHint.name from toList_ne (by decide)), if_neg (show ¬ "AttrKeyboardIntegration".toList = Quirk.attrTouchSizeRange.name from toList_ne (by decide)), if_neg (show ¬ "AttrKeyboardIntegration".toList = Quirk.attrPalmSizeThreshold.name from toList_ne (by decide)), if_neg (show ¬ "AttrKeyboardIntegration".toList = Quirk.attrLidSwitchReliability.name from toList_ne (by decide)), if_pos (show "AttrKeyboardIntegration".toList = Quirk.attrKeyboardIntegration.name from rfl)]
  simp only [valueOf, Option.map_map]
  rfl

theorem attr_AttrPointingStickIntegration {F : Type} (E : Env F) (value : Str) :
    parseAttrKey E "AttrPointingStickIntegration".toList value = (valueOf E value (.word ["internal", "external"])).map fun v => ⟨.attrTrackpointIntegration, v⟩ := by
  unfold parseAttrKey
  rw [if_neg (show ¬ "AttrPointingStickIntegration".toList = Quirk.attrSizeHint.name from toList_ne (by decide)), if_neg (show ¬ "AttrPointingStickIntegration".toList = Quirk.attrTouchSizeRange.name from toList_ne (by decide)), if_neg (show ¬ "AttrPointingStickIntegration".toList = Quirk.attrPalmSizeThreshold.name from toList_ne (by decide)), if_neg (show ¬ "AttrPointingStickIntegration".toList = Quirk.attrLidSwitchReliability.name from toList_ne (by decide)), if_neg (show ¬ "AttrPointingStickIntegration".toList = Quirk.attrKeyboardIntegration.name from toList_ne (by decide)), if_pos (show "AttrPointingStickIntegration".toList = Quirk.attrTrackpointIntegration.name from rfl)]
  simp only [valueOf, Option.map_map]
  rfl

theorem attr_AttrTPKComboLayout {F : Type} (E : Env F) (value : Str) :
    parseAttrKey E "AttrTPKComboLayout".toList value = (valueOf E value (.word ["below"])).map fun v => ⟨.attrTpkbcomboLayout, v⟩ := by
  unfold parseAttrKey
  rw [if_neg (show ¬ "AttrTPKComboLayout".toList = Quirk.attrSizeHint.name from toList_ne (by decide)), if_neg (show ¬ "AttrTPKComboLayout".toList = Quirk.attrTouchSizeRange.name from toList_ne (by decide)), if_neg (show ¬ "AttrTPKComboLayout".toList = Quirk.attrPalmSizeThreshold.name from toList_ne (by decide)), if_neg (show ¬ "AttrTPKComboLayout".toList = Quirk.attrLidSwitchReliability.name from toList_ne (by decide)), if_neg (show ¬ "AttrTPKComboLayout".toList = Quirk.attrKeyboardIntegration.name from toList_ne (by decide)), if_neg (show ¬ "AttrTPKComboLayout".toList = Quirk.attrTrackpointIntegration.name from toList_ne (by decide)), if_pos (show "AttrTPKComboLayout".toList = Quirk.attrTpkbcomboLayout.name from rfl)]
  simp only [valueOf, Option.map_map]
  rfl

theorem attr_AttrPressureRange {F : Type} (E : Env F) (value : Str) :
    parseAttrKey E "AttrPressureRange".toList value = (valueOf E value (.range)).map fun v => ⟨.attrPressureRange, v⟩ := by
  unfold parseAttrKey
  rw [if_neg (show ¬ "AttrPressureRange".toList = Quirk.attrSizeHint.name from toList_ne (by decide)), if_neg (show ¬ "AttrPressureRange".toList = Quirk.attrTouchSizeRange.name from toList_ne (by decide)), if_neg (show ¬ "AttrPressureRange".toList = Quirk.attrPalmSizeThreshold.name from toList_ne (by decide)), if_neg (show ¬ "AttrPressureRange".toList = Quirk.attrLidSwitchReliability.name from toList_ne (by decide)), if_neg (show ¬ "AttrPressureRange".toList = Quirk.attrKeyboardIntegration.name from toList_ne (by decide)), if_neg (show ¬ "AttrPressureRange".toList = Quirk.attrTrackpointIntegration.name from toList_ne (by decide)), if_neg (show ¬ "AttrPressureRange".toList = Quirk.attrTpkbcomboLayout.name from toList_ne (by decide)), if_pos (show "AttrPressureRange".toList = Quirk.attrPressureRange.name from rfl)]
  simp only [valueOf, Option.map_map]
  rfl

theorem attr_AttrPalmPressureThreshold {F : Type} (E : Env F) (value : Str) :
    parseAttrKey E "AttrPalmPressureThreshold".toList value = (valueOf E value (.count)).map fun v => ⟨.attrPalmPressureThreshold, v⟩ := by
  unfold parseAttrKey
  rw [if_neg (show ¬ "AttrPalmPressureThreshold".toList = Quirk.attrSizeHint.name from toList_ne (by decide)), if_neg (show ¬ "AttrPalmPressureThreshold".toList = Quirk.attrTouchSizeRange.name from toList_ne (by decide)), if_neg (show ¬ "AttrPalmPressureThreshold".toList = Quirk.attrPalmSizeThreshold.name from toList_ne (by decide)), if_neg (show ¬ "AttrPalmPressureThreshold".toList = Quirk.attrLidSwitchReliability.name from toList_ne (by decide)), if_neg (show ¬ "AttrPalmPressureThreshold".toList = Quirk.attrKeyboardIntegration.name from toList_ne (by decide)), if_neg (show ¬ "AttrPalmPressureThreshold".toList = Quirk.attrTrackpointIntegration.name from toList_ne (by decide)), if_neg (show ¬ "AttrPalmPressureThreshold".toList = Quirk.attrTpkbcomboLayout.name from toList_ne (by decide)), if_neg (show ¬ "AttrPalmPressureThreshold".toList = Quirk.attrPressureRange.name from toList_ne (by decide)), if_pos (show "AttrPalmPressureThreshold".toList = Quirk.attrPalmPressureThreshold.name from rfl)]
  simp only [valueOf, Option.map_map]
  rfl

theorem attr_AttrResolutionHint {F : Type} (E : Env F) (value : Str) :
    parseAttrKey E "AttrResolutionHint".toList value = (valueOf E value (.dimension)).map fun v => ⟨.attrResolutionHint, v⟩ := by
  unfold parseAttrKey
  rw [if_neg (show ¬ "AttrResolutionHint".toList = Quirk.attrSizeHint.name from toList_ne (by decide)), if_neg (show ¬ "AttrResolutionHint".toList = Quirk.attrTouchSizeRange.name from toList_ne (by decide)), if_neg (show ¬ "AttrResolutionHint".toList = Quirk.attrPalmSizeThreshold.name from toList_ne (by decide)), if_neg (show ¬ "AttrResolutionHint".toList = Quirk.attrLidSwitchReliability.name from toList_ne (by decide)), if_neg (show ¬ "AttrResolutionHint".toList = Quirk.attrKeyboardIntegration.name from toList_ne (by decide)), if_neg (show ¬ "AttrResolutionHint".toList = Quirk.attrTrackpointIntegration.name from toList_ne (by decide)), if_neg (show ¬ "AttrResolutionHint".toList = Quirk.attrTpkbcomboLayout.name from toList_ne (by decide)), if_neg (show ¬ "AttrResolutionHint".toList = Quirk.attrPressureRange.name from toList_ne (by decide)), if_neg (show ¬ "AttrResolutionHint".toList = Quirk.attrPalmPressureThreshold.name from toList_ne (by decide)), if_pos (show "AttrResolutionHint".toList = Quirk.attrResolutionHint.name from rfl)]
  simp only [valueOf, Option.map_map]
  rfl

theorem attr_AttrTrackpointMultiplier {F : Type} (E : Env F) (value : Str) :
    parseAttrKey E "AttrTrackpointMultiplier".toList value = (valueOf E value (.number)).map fun v => ⟨.attrTrackpointMultiplier, v⟩ := by
  unfold parseAttrKey
  rw [if_neg (show ¬ "AttrTrackpointMultiplier".toList = Quirk.attrSizeHint.name from toList_ne (by decide)), if_neg (show ¬ "AttrTrackpointMultiplier".toList = Quirk.attrTouchSizeRange.name from toList_ne (by decide)), if_neg (show ¬ "AttrTrackpointMultiplier".toList = Quirk.attrPalmSizeThreshold.name from toList_ne (by decide)), if_neg (show ¬ "AttrTrackpointMultiplier".toList = Quirk.attrLidSwitchReliability.name from toList_ne (by decide)), if_neg (show ¬ "AttrTrackpointMultiplier".toList = Quirk.attrKeyboardIntegration.name from toList_ne (by decide)), if_neg (show ¬ "AttrTrackpointMultiplier".toList = Quirk.attrTrackpointIntegration.name from toList_ne (by decide)), if_neg (show ¬ "AttrTrackpointMultiplier".toList = Quirk.attrTpkbcomboLayout.name from toList_ne (by decide)), if_neg (show ¬ "AttrTrackpointMultiplier".toList = Quirk.attrPressureRange.name from toList_ne (by decide)), if_neg (show ¬ "AttrTrackpointMultiplier".toList = Quirk.attrPalmPressureThreshold.name from toList_ne (by decide)), if_neg (show ¬ "AttrTrackpointMultiplier".toList = Quirk.attrResolutionHint.name from toList_ne (by decide)), if_pos (show "AttrTrackpointMultiplier".toList = Quirk.attrTrackpointMultiplier.name from rfl)]
  simp only [valueOf, Option.map_map]
  rfl

theorem attr_AttrThumbPressureThreshold {F : Type} (E : Env F) (value : Str) :
    parseAttrKey E "AttrThumbPressureThreshold".toList value = (valueOf E value (.count)).map fun v => ⟨.attrThumbPressureThreshold, v⟩ := by
  unfold parseAttrKey
  rw [if_neg (show ¬ "AttrThumbPressureThreshold".toList = Quirk.attrSizeHint.name from toList_ne (by decide)), if_neg (show ¬ "AttrThumbPressureThreshold".toList = Quirk.attrTouchSizeRange.name from toList_ne (by decide)), if_neg (show ¬ "AttrThumbPressureThreshold".toList = Quirk.attrPalmSizeThreshold.name from toList_ne (by decide)), if_neg (show ¬ "AttrThumbPressureThreshold".toList = Quirk.attrLidSwitchReliability.name from toList_ne (by decide)), if_neg (show ¬ "AttrThumbPressureThreshold".toList = Quirk.attrKeyboardIntegration.name from toList_ne (by decide)), if_neg (show ¬ "AttrThumbPressureThreshold".toList = Quirk.attrTrackpointIntegration.name from toList_ne (by decide)), if_neg (show ¬ "AttrThumbPressureThreshold".toList = Quirk.attrTpkbcomboLayout.name from toList_ne (by decide)), if_neg (show ¬ "AttrThumbPressureThreshold".toList = Quirk.attrPressureRange.name from toList_ne (by decide)), if_neg (show ¬ "AttrThumbPressureThreshold".toList = Quirk.attrPalmPressureThreshold.name from toList_ne (by decide)), if_neg (show ¬ "AttrThumbPressureThreshold".toList = Quirk.attrResolutionHint.name from toList_ne (by decide)), if_neg (show ¬ "AttrThumbPressureThreshold".toList = Quirk.attrTrackpointMultiplier.name from toList_ne (by decide)), if_neg (show ¬ "AttrThumbPressureThreshold".toList = Quirk.attrUseVelocityAveraging.name from toList_ne (by decide)), if_pos (show "AttrThumbPressureThreshold".toList = Quirk.attrThumbPressureThreshold.name from rfl)]
  simp only [valueOf, Option.map_map]
  rfl

theorem attr_AttrUseVelocityAveraging {F : Type} (E : Env F) (value : Str) :
    parseAttrKey E "AttrUseVelocityAveraging".toList value = (valueOf E value (.flag)).map fun v => ⟨.attrUseVelocityAveraging, v⟩ := by
  unfold parseAttrKey
  rw [if_neg (show ¬ "AttrUseVelocityAveraging".toList = Quirk.attrSizeHint.name from toList_ne (by decide)), if_neg (show ¬ "AttrUseVelocityAveraging".toList = Quirk.attrTouchSizeRange.name from toList_ne (by decide)), if_neg (show ¬ "AttrUseVelocityAveraging".toList = Quirk.attrPalmSizeThreshold.name from toList_ne (by decide)), if_neg (show ¬ "AttrUseVelocityAveraging".toList = Quirk.attrLidSwitchReliability.name from toList_ne (by decide)), if_neg (show ¬ "AttrUseVelocityAveraging".toList = Quirk.attrKeyboardIntegration.name from toList_ne (by decide)), if_neg (show ¬ "AttrUseVelocityAveraging".toList = Quirk.attrTrackpointIntegration.name from toList_ne (by decide)), if_neg (show ¬ "AttrUseVelocityAveraging".toList = Quirk.attrTpkbcomboLayout.name from toList_ne (by decide)), if_neg (show ¬ "AttrUseVelocityAveraging".toList = Quirk.attrPressureRange.name from toList_ne (by decide)), if_neg (show ¬ "AttrUseVelocityAveraging".toList = Quirk.attrPalmPressureThreshold.name from toList_ne (by decide)), if_neg (show ¬ "AttrUseVelocityAveraging".toList = Quirk.attrResolutionHint.name from toList_ne (by decide)), if_neg (show ¬ "AttrUseVelocityAveraging".toList = Quirk.attrTrackpointMultiplier.name from toList_ne (by decide)), if_pos (show "AttrUseVelocityAveraging".toList = Quirk.attrUseVelocityAveraging.name from rfl)]
  simp only [valueOf, Option.map_map]
  rfl

theorem attr_AttrThumbSizeThreshold {F : Type} (E : Env F) (value : Str) :
    parseAttrKey E "AttrThumbSizeThreshold".toList value = (valueOf E value (.count)).map fun v => ⟨.attrThumbSizeThreshold, v⟩ := by
  unfold parseAttrKey
  rw [if_neg (show ¬ "AttrThumbSizeThreshold".toList = Quirk.attrSizeHint.name from toList_ne (by decide)), if_neg (show ¬ "AttrThumbSizeThreshold".toList = Quirk.attrTouchSizeRange.name from toList_ne (by decide)), if_neg (show ¬ "AttrThumbSizeThreshold".toList = Quirk.attrPalmSizeThreshold.name from toList_ne (by decide)), if_neg (show ¬ "AttrThumbSizeThreshold".toList = Quirk.attrLidSwitchReliability.name from toList_ne (by decide)), if_neg (show ¬ "AttrThumbSizeThreshold".toList = Quirk.attrKeyboardIntegration.name from toList_ne (by decide)), if_neg (show ¬ "AttrThumbSizeThreshold".toList = Quirk.attrTrackpointIntegration.name from toList_ne (by decide)), if_neg (show ¬ "AttrThumbSizeThreshold".toList = Quirk.attrTpkbcomboLayout.name from toList_ne (by decide)), if_neg (show ¬ "AttrThumbSizeThreshold".toList = Quirk.attrPressureRange.name from toList_ne (by decide)), if_neg (show ¬ "AttrThumbSizeThreshold".toList = Quirk.attrPalmPressureThreshold.name from toList_ne (by decide)), if_neg (show ¬ "AttrThumbSizeThreshold".toList = Quirk.attrResolutionHint.name from toList_ne (by decide)), if_neg (show ¬ "AttrThumbSizeThreshold".toList = Quirk.attrTrackpointMultiplier.name from toList_ne (by decide)), if_neg (show ¬ "AttrThumbSizeThreshold".toList = Quirk.attrUseVelocityAveraging.name from toList_ne (by decide)), if_neg (show ¬ "AttrThumbSizeThreshold".toList = Quirk.attrThumbPressureThreshold.name from toList_ne (by decide)), if_pos (show "AttrThumbSizeThreshold".toList = Quirk.attrThumbSizeThreshold.name from rfl)]
  simp only [valueOf, Option.map_map]
  rfl

theorem attr_AttrMscTimestamp {F : Type} (E : Env F) (value : Str) :
    parseAttrKey E "AttrMscTimestamp".toList value = (valueOf E value (.word ["watch"])).map fun v => ⟨.attrMscTimestamp, v⟩ := by
  unfold parseAttrKey
  rw [if_neg (show ¬ "AttrMscTimestamp".toList = Quirk.attrSizeHint.name from toList_ne (by decide)), if_neg (show ¬ "AttrMscTimestamp".toList = Quirk.attrTouchSizeRange.name from toList_ne (by decide)), if_neg (show ¬ "AttrMscTimestamp".toList = Quirk.attrPalmSizeThreshold.name from toList_ne (by decide)), if_neg (show ¬ "AttrMscTimestamp".toList = Quirk.attrLidSwitchReliability.name from toList_ne (by decide)), if_neg (show ¬ "AttrMscTimestamp".toList = Quirk.attrKeyboardIntegration.name from toList_ne (by decide)), if_neg (show ¬ "AttrMscTimestamp".toList = Quirk.attrTrackpointIntegration.name from toList_ne (by decide)), if_neg (show ¬ "AttrMscTimestamp".toList = Quirk.attrTpkbcomboLayout.name from toList_ne (by decide)), if_neg (show ¬ "AttrMscTimestamp".toList = Quirk.attrPressureRange.name from toList_ne (by decide)), if_neg (show ¬ "AttrMscTimestamp".toList = Quirk.attrPalmPressureThreshold.name from toList_ne (by decide)), if_neg (show ¬ "AttrMscTimestamp".toList = Quirk.attrResolutionHint.name from toList_ne (by decide)), if_neg (show ¬ "AttrMscTimestamp".toList = Quirk.attrTrackpointMultiplier.name from toList_ne (by decide)), if_neg (show ¬ "AttrMscTimestamp".toList = Quirk.attrUseVelocityAveraging.name from toList_ne (by decide)), if_neg (show ¬ "AttrMscTimestamp".toList = Quirk.attrThumbPressureThreshold.name from toList_ne (by decide)), if_neg (show ¬ "AttrMscTimestamp".toList = Quirk.attrThumbSizeThreshold.name from toList_ne (by decide)), if_pos (show "AttrMscTimestamp".toList = Quirk.attrMscTimestamp.name from rfl)]
  simp only [valueOf, Option.map_map]
  rfl

theorem attr_AttrEventCodeDisable {F : Type} (E : Env F) (value : Str) :
    parseAttrKey E "AttrEventCodeDisable".toList value = (valueOf E value (.codes)).map fun v => ⟨.attrEventCodeDisable, v⟩ := by
  unfold parseAttrKey
  rw [if_neg (show ¬ "AttrEventCodeDisable".toList = Quirk.attrSizeHint.name from toList_ne (by decide)), if_neg (show ¬ "AttrEventCodeDisable".toList = Quirk.attrTouchSizeRange.name from toList_ne (by decide)), if_neg (show ¬ "AttrEventCodeDisable".toList = Quirk.attrPalmSizeThreshold.name from toList_ne (by decide)), if_neg (show ¬ "AttrEventCodeDisable".toList = Quirk.attrLidSwitchReliability.name from toList_ne (by decide)), if_neg (show ¬ "AttrEventCodeDisable".toList = Quirk.attrKeyboardIntegration.name from toList_ne (by decide)), if_neg (show ¬ "AttrEventCodeDisable".toList = Quirk.attrTrackpointIntegration.name from toList_ne (by decide)), if_neg (show ¬ "AttrEventCodeDisable".toList = Quirk.attrTpkbcomboLayout.name from toList_ne (by decide)), if_neg (show ¬ "AttrEventCodeDisable".toList = Quirk.attrPressureRange.name from toList_ne (by decide)), if_neg (show ¬ "AttrEventCodeDisable".toList = Quirk.attrPalmPressureThreshold.name from toList_ne (by decide)), if_neg (show ¬ "AttrEventCodeDisable".toList = Quirk.attrResolutionHint.name from toList_ne (by decide)), if_neg (show ¬ "AttrEventCodeDisable".toList = Quirk.attrTrackpointMultiplier.name from toList_ne (by decide)), if_neg (show ¬ "AttrEventCodeDisable".toList = Quirk.attrUseVelocityAveraging.name from toList_ne (by decide)), if_neg (show ¬ "AttrEventCodeDisable".toList = Quirk.attrThumbPressureThreshold.name from toList_ne (by decide)), if_neg (show ¬ "AttrEventCodeDisable".toList = Quirk.attrThumbSizeThreshold.name from toList_ne (by decide)), if_neg (show ¬ "AttrEventCodeDisable".toList = Quirk.attrMscTimestamp.name from toList_ne (by decide)), if_pos (show "AttrEventCodeDisable".toList = Quirk.attrEventCodeDisable.name ∨ "AttrEventCodeDisable".toList = Quirk.attrEventCodeEnable.name from Or.inl rfl)]
  simp only [valueOf]
  cases parseEvcodes E.names E.conv value 32 with
  | none => rfl
  | some l =>
    by_cases hl : l.length = 0
    · simp only [hl, if_true, Option.map_none]
    · simp only [hl, if_false, Option.map_some]
      rw [if_pos (show "AttrEventCodeDisable".toList = Quirk.attrEventCodeDisable.name from rfl)]

theorem attr_AttrEventCodeEnable {F : Type} (E : Env F) (value : Str) :
    parseAttrKey E "AttrEventCodeEnable".toList value = (valueOf E value (.codes)).map fun v => ⟨.attrEventCodeEnable, v⟩ := by
  unfold parseAttrKey
  rw [if_neg (show ¬ "AttrEventCodeEnable".toList = Quirk.attrSizeHint.name from toList_ne (by decide)), if_neg (show ¬ "AttrEventCodeEnable".toList = Quirk.attrTouchSizeRange.name from toList_ne (by decide)), if_neg (show ¬ "AttrEventCodeEnable".toList = Quirk.attrPalmSizeThreshold.name from toList_ne (by decide)), if_neg (show ¬ "AttrEventCodeEnable".toList = Quirk.attrLidSwitchReliability.name from toList_ne (by decide)), if_neg (show ¬ "AttrEventCodeEnable".toList = Quirk.attrKeyboardIntegration.name from toList_ne (by decide)), if_neg (show ¬ "AttrEventCodeEnable".toList = Quirk.attrTrackpointIntegration.name from toList_ne (by decide)), if_neg (show ¬ "AttrEventCodeEnable".toList = Quirk.attrTpkbcomboLayout.name from toList_ne (by decide)), if_neg (show ¬ "AttrEventCodeEnable".toList = Quirk.attrPressureRange.name from toList_ne (by decide)), if_neg (show ¬ "AttrEventCodeEnable".toList = Quirk.attrPalmPressureThreshold.name from toList_ne (by decide)), if_neg (show ¬ "AttrEventCodeEnable".toList = Quirk.attrResolutionHint.name from toList_ne (by decide)), if_neg (show ¬ "AttrEventCodeEnable".toList = Quirk.attrTrackpointMultiplier.name from toList_ne (by decide)), if_neg (show ¬ "AttrEventCodeEnable".toList = Quirk.attrUseVelocityAveraging.name from toList_ne (by decide)), if_neg (show ¬ "AttrEventCodeEnable".toList = Quirk.attrThumbPressureThreshold.name from toList_ne (by decide)), if_neg (show ¬ "AttrEventCodeEnable".toList = Quirk.attrThumbSizeThreshold.name from toList_ne (by decide)), if_neg (show ¬ "AttrEventCodeEnable".toList = Quirk.attrMscTimestamp.name from toList_ne (by decide)), if_pos (show "AttrEventCodeEnable".toList = Quirk.attrEventCodeDisable.name ∨ "AttrEventCodeEnable".toList = Quirk.attrEventCodeEnable.name from Or.inr rfl)]
  simp only [valueOf]
  cases parseEvcodes E.names E.conv value 32 with
  | none => rfl
  | some l =>
    by_cases hl : l.length = 0
    · simp only [hl, if_true, Option.map_none]
    · simp only [hl, if_false, Option.map_some]
      rw [if_neg (show ¬ "AttrEventCodeEnable".toList = Quirk.attrEventCodeDisable.name from toList_ne (by decide))]

theorem attr_AttrInputPropDisable {F : Type} (E : Env F) (value : Str) :
    parseAttrKey E "AttrInputPropDisable".toList value = (valueOf E value (.props)).map fun v => ⟨.attrInputPropDisable, v⟩ := by
  unfold parseAttrKey
  rw [if_neg (show ¬ "AttrInputPropDisable".toList = Quirk.attrSizeHint.name from toList_ne (by decide)), if_neg (show ¬ "AttrInputPropDisable".toList = Quirk.attrTouchSizeRange.name from toList_ne (by decide)), if_neg (show ¬ "AttrInputPropDisable".toList = Quirk.attrPalmSizeThreshold.name from toList_ne (by decide)), if_neg (show ¬ "AttrInputPropDisable".toList = Quirk.attrLidSwitchReliability.name from toList_ne (by decide)), if_neg (show ¬ "AttrInputPropDisable".toList = Quirk.attrKeyboardIntegration.name from toList_ne (by decide)), if_neg (show ¬ "AttrInputPropDisable".toList = Quirk.attrTrackpointIntegration.name from toList_ne (by decide)), if_neg (show ¬ "AttrInputPropDisable".toList = Quirk.attrTpkbcomboLayout.name from toList_ne (by decide)), if_neg (show ¬ "AttrInputPropDisable".toList = Quirk.attrPressureRange.name from toList_ne (by decide)), if_neg (show ¬ "AttrInputPropDisable".toList = Quirk.attrPalmPressureThreshold.name from toList_ne (by decide)), if_neg (show ¬ "AttrInputPropDisable".toList = Quirk.attrResolutionHint.name from toList_ne (by decide)), if_neg (show ¬ "AttrInputPropDisable".toList = Quirk.attrTrackpointMultiplier.name from toList_ne (by decide)), if_neg (show ¬ "AttrInputPropDisable".toList = Quirk.attrUseVelocityAveraging.name from toList_ne (by decide)), if_neg (show ¬ "AttrInputPropDisable".toList = Quirk.attrThumbPressureThreshold.name from toList_ne (by decide)), if_neg (show ¬ "AttrInputPropDisable".toList = Quirk.attrThumbSizeThreshold.name from toList_ne (by decide)), if_neg (show ¬ "AttrInputPropDisable".toList = Quirk.attrMscTimestamp.name from toList_ne (by decide)), if_neg (show ¬ ("AttrInputPropDisable".toList = Quirk.attrEventCodeDisable.name ∨ "AttrInputPropDisable".toList = Quirk.attrEventCodeEnable.name) from fun h => h.elim (toList_ne (by decide)) (toList_ne (by decide))), if_pos (show "AttrInputPropDisable".toList = Quirk.attrInputPropDisable.name ∨ "AttrInputPropDisable".toList = Quirk.attrInputPropEnable.name from Or.inl rfl)]
  simp only [valueOf]
  cases parseInputProps E.names value 32 with
  | none => rfl
  | some l =>
    by_cases hl : l.length = 0
    · simp only [hl, if_true, Option.map_none]
    · simp only [hl, if_false, Option.map_some]
      rw [if_pos (show "AttrInputPropDisable".toList = Quirk.attrInputPropDisable.name from rfl)]

theorem attr_AttrInputPropEnable {F : Type} (E : Env F) (value : Str) :
    parseAttrKey E "AttrInputPropEnable".toList value = (valueOf E value (.props)).map fun v => ⟨.attrInputPropEnable, v⟩ := by
  unfold parseAttrKey
  rw [if_neg (show ¬ "AttrInputPropEnable".toList = Quirk.attrSizeHint.name from toList_ne (by decide)), if_neg (show ¬ "AttrInputPropEnable".toList = Quirk.attrTouchSizeRange.name from toList_ne (by decide)), if_neg (show ¬ "AttrInputPropEnable".toList = Quirk.attrPalmSizeThreshold.name from toList_ne (by decide)), if_neg (show ¬ "AttrInputPropEnable".toList = Quirk.attrLidSwitchReliability.name from toList_ne (by decide)), if_neg (show ¬ "AttrInputPropEnable".toList = Quirk.attrKeyboardIntegration.name from toList_ne (by decide)), if_neg (show ¬ "AttrInputPropEnable".toList = Quirk.attrTrackpointIntegration.name from toList_ne (by decide)), if_neg (show ¬ "AttrInputPropEnable".toList = Quirk.attrTpkbcomboLayout.name from toList_ne (by decide)), if_neg (show ¬ "AttrInputPropEnable".toList = Quirk.attrPressureRange.name from toList_ne (by decide)), if_neg (show ¬ "AttrInputPropEnable".toList = Quirk.attrPalmPressureThreshold.name from toList_ne (by decide)), if_neg (show ¬ "AttrInputPropEnable".toList = Quirk.attrResolutionHint.name from toList_ne (by decide)), if_neg (show ¬ "AttrInputPropEnable".toList = Quirk.attrTrackpointMultiplier.name from toList_ne (by decide)), if_neg (show ¬ "AttrInputPropEnable".toList = Quirk.attrUseVelocityAveraging.name from toList_ne (by decide)), if_neg (show ¬ "AttrInputPropEnable".toList = Quirk.attrThumbPressureThreshold.name from toList_ne (by decide)), if_neg (show ¬ "AttrInputPropEnable".toList = Quirk.attrThumbSizeThreshold.name from toList_ne (by decide)), if_neg (show ¬ "AttrInputPropEnable".toList = Quirk.attrMscTimestamp.name from toList_ne (by decide)), if_neg (show ¬ ("AttrInputPropEnable".toList = Quirk.attrEventCodeDisable.name ∨ "AttrInputPropEnable".toList = Quirk.attrEventCodeEnable.name) from fun h => h.elim (toList_ne (by decide)) (toList_ne (by decide))), if_pos (show "AttrInputPropEnable".toList = Quirk.attrInputPropDisable.name ∨ "AttrInputPropEnable".toList = Quirk.attrInputPropEnable.name from Or.inr rfl)]
  simp only [valueOf]
  cases parseInputProps E.names value 32 with
  | none => rfl
  | some l =>
    by_cases hl : l.length = 0
    · simp only [hl, if_true, Option.map_none]
    · simp only [hl, if_false, Option.map_some]
      rw [if_neg (show ¬ "AttrInputPropEnable".toList = Quirk.attrInputPropDisable.name from toList_ne (by decide))]

theorem attr_unknown {F : Type} (E : Env F) (key value : Str) (ne : ∀ e ∈ keys.drop 24, key ≠ e.1.toList) : parseAttrKey E key value = none := by
  have n0 := ne ("AttrSizeHint", .attrSizeHint, .dimension) (by unfold keys; simp only [List.drop_succ_cons, List.drop_zero, List.mem_cons, true_or, or_true])
  have n1 := ne ("AttrTouchSizeRange", .attrTouchSizeRange, .range) (by unfold keys; simp only [List.drop_succ_cons, List.drop_zero, List.mem_cons, true_or, or_true])
  have n2 := ne ("AttrPalmSizeThreshold", .attrPalmSizeThreshold, .count) (by unfold keys; simp only [List.drop_succ_cons, List.drop_zero, List.mem_cons, true_or, or_true])
  have n3 := ne ("AttrLidSwitchReliability", .attrLidSwitchReliability, .word ["reliable", "write_open"]) (by unfold keys; simp only [List.drop_succ_cons, List.drop_zero, List.mem_cons, true_or, or_true])
  have n4 := ne ("AttrKeyboardIntegration", .attrKeyboardIntegration, .word ["internal", "external"]) (by unfold keys; simp only [List.drop_succ_cons, List.drop_zero, List.mem_cons, true_or, or_true])
  have n5 := ne ("AttrPointingStickIntegration", .attrTrackpointIntegration, .word ["internal", "external"]) (by unfold keys; simp only [List.drop_succ_cons, List.drop_zero, List.mem_cons, true_or, or_true])
  have n6 := ne ("AttrTPKComboLayout", .attrTpkbcomboLayout, .word ["below"]) (by unfold keys; simp only [List.drop_succ_cons, List.drop_zero, List.mem_cons, true_or, or_true])
  have n7 := ne ("AttrPressureRange", .attrPressureRange, .range) (by unfold keys; simp only [List.drop_succ_cons, List.drop_zero, List.mem_cons, true_or, or_true])
  have n8 := ne ("AttrPalmPressureThreshold", .attrPalmPressureThreshold, .count) (by unfold keys; simp only [List.drop_succ_cons, List.drop_zero, List.mem_cons, true_or, or_true])
  have n9 := ne ("AttrResolutionHint", .attrResolutionHint, .dimension) (by unfold keys; simp only [List.drop_succ_cons, List.drop_zero, List.mem_cons, true_or, or_true])
  have n10 := ne ("AttrTrackpointMultiplier", .attrTrackpointMultiplier, .number) (by unfold keys; simp only [List.drop_succ_cons, List.drop_zero, List.mem_cons, true_or, or_true])
  have n11 := ne ("AttrThumbPressureThreshold", .attrThumbPressureThreshold, .count) (by unfold keys; simp only [List.drop_succ_cons, List.drop_zero, List.mem_cons, true_or, or_true])
  have n12 := ne ("AttrUseVelocityAveraging", .attrUseVelocityAveraging, .flag) (by unfold keys; simp only [List.drop_succ_cons, List.drop_zero, List.mem_cons, true_or, or_true])
  have n13 := ne ("AttrThumbSizeThreshold", .attrThumbSizeThreshold, .count) (by unfold keys; simp only [List.drop_succ_cons, List.drop_zero, List.mem_cons, true_or, or_true])
  have n14 := ne ("AttrMscTimestamp", .attrMscTimestamp, .word ["watch"]) (by unfold keys; simp only [List.drop_succ_cons, List.drop_zero, List.mem_cons, true_or, or_true])
  have n15 := ne ("AttrEventCodeDisable", .attrEventCodeDisable, .codes) (by unfold keys; simp only [List.drop_succ_cons, List.drop_zero, List.mem_cons, true_or, or_true])
  have n16 := ne ("AttrEventCodeEnable", .attrEventCodeEnable, .codes) (by unfold keys; simp only [List.drop_succ_cons, List.drop_zero, List.mem_cons, true_or, or_true])
  have n17 := ne ("AttrInputPropDisable", .attrInputPropDisable, .props) (by unfold keys; simp only [List.drop_succ_cons, List.drop_zero, List.mem_cons, true_or, or_true])
  have n18 := ne ("AttrInputPropEnable", .attrInputPropEnable, .props) (by unfold keys; simp only [List.drop_succ_cons, List.drop_zero, List.mem_cons, true_or, or_true])
  unfold parseAttrKey
  rw [if_neg (show ¬ key = Quirk.attrSizeHint.name from n0), if_neg (show ¬ key = Quirk.attrTouchSizeRange.name from n1), if_neg (show ¬ key = Quirk.attrPalmSizeThreshold.name from n2), if_neg (show ¬ key = Quirk.attrLidSwitchReliability.name from n3), if_neg (show ¬ key = Quirk.attrKeyboardIntegration.name from n4), if_neg (show ¬ key = Quirk.attrTrackpointIntegration.name from n5), if_neg (show ¬ key = Quirk.attrTpkbcomboLayout.name from n6), if_neg (show ¬ key = Quirk.attrPressureRange.name from n7), if_neg (show ¬ key = Quirk.attrPalmPressureThreshold.name from n8), if_neg (show ¬ key = Quirk.attrResolutionHint.name from n9), if_neg (show ¬ key = Quirk.attrTrackpointMultiplier.name from n10), if_neg (show ¬ key = Quirk.attrUseVelocityAveraging.name from n12), if_neg (show ¬ key = Quirk.attrThumbPressureThreshold.name from n11), if_neg (show ¬ key = Quirk.attrThumbSizeThreshold.name from n13), if_neg (show ¬ key = Quirk.attrMscTimestamp.name from n14), if_neg (show ¬ (key = Quirk.attrEventCodeDisable.name ∨ key = Quirk.attrEventCodeEnable.name) from fun h => h.elim n15 n16),
      if_neg (show ¬ (key = Quirk.attrInputPropDisable.name ∨ key = Quirk.attrInputPropEnable.name) from fun h => h.elim n17 n18)]

theorem attr_eq {F : Type} (E : Env F) (key value : Str) (h : key.take 4 = "Attr".toList) :
    parseAttrKey E key value = (entry key).bind fun e => (valueOf E value e.2.2).map fun v => ⟨e.2.1, v⟩ := by
  by_cases hk : ∃ e ∈ keys, key = e.1.toList
  · obtain ⟨e, he, rfl⟩ := hk
    rw [(entry_iff _ e).mpr ⟨he, rfl⟩, Option.bind_some]
    have ha : e ∈ keys.filter fun e => e.1.toList.take 4 = "Attr".toList := List.mem_filter.mpr ⟨he, by simpa using h⟩
    have e1 : (keys.filter fun e => e.1.toList.take 4 = "Attr".toList) = keys.drop 24 := by rfl
    rw [e1] at ha
    simp only [keys, List.drop_succ_cons, List.drop_zero, List.mem_cons, List.not_mem_nil, or_false] at ha
    clear h he e1
    rcases ha with rfl | rfl | rfl | rfl | rfl | rfl | rfl | rfl | rfl | rfl | rfl | rfl | rfl | rfl | rfl | rfl | rfl | rfl | rfl
    · exact attr_AttrSizeHint E value
    · exact attr_AttrTouchSizeRange E value
    · exact attr_AttrPalmSizeThreshold E value
    · exact attr_AttrLidSwitchReliability E value
    · exact attr_AttrKeyboardIntegration E value
    · exact attr_AttrPointingStickIntegration E value
    · exact attr_AttrTPKComboLayout E value
    · exact attr_AttrPressureRange E value
    · exact attr_AttrPalmPressureThreshold E value
    · exact attr_AttrResolutionHint E value
    · exact attr_AttrTrackpointMultiplier E value
    · exact attr_AttrThumbPressureThreshold E value
    · exact attr_AttrUseVelocityAveraging E value
    · exact attr_AttrThumbSizeThreshold E value
    · exact attr_AttrMscTimestamp E value
    · exact attr_AttrEventCodeDisable E value
    · exact attr_AttrEventCodeEnable E value
    · exact attr_AttrInputPropDisable E value
    · exact attr_AttrInputPropEnable E value
  · have hn : entry key = none := by
      cases he : entry key with
      | none => rfl
      | some e => exact absurd ⟨e, (entry_iff key e).mp he⟩ hk
    rw [hn, Option.bind_none]
    exact attr_unknown E key value fun e he h => hk ⟨e, List.mem_of_mem_drop he, h⟩

end Libinput.Quirks
