import Verif.Quirks.Parse
/-! Quirks: which sections apply to a device. -/
namespace Libinput.Quirks
open Libinput.Strings Libinput.Strings.Spec Libinput.Parsers Libinput.Parsers.Spec Spec

variable {F : Type}

/-! ### The properties of the device -/

theorem udevProp_iff (dev : Udev) (prop : String) (v : Str) : udevProp dev prop.toList = some v ↔ Nearest dev prop v := by
  unfold Nearest
  induction dev with
  | nil => simp [udevProp]
  | cons d dev ih =>
    rw [udevProp]
    cases hd : d prop.toList with
    | some w =>
      simp only [Option.some.injEq]
      constructor
      · rintro rfl
        exact ⟨[], d, dev, rfl, by simp, hd⟩
      · rintro ⟨before, e, after, he, hb, hv⟩
        cases before with
        | nil =>
          simp only [List.nil_append, List.cons.injEq] at he
          rw [he.1, hv] at hd
          simpa using hd.symm
        | cons x before =>
          simp only [List.cons_append, List.cons.injEq] at he
          have := hb x (by simp)
          rw [← he.1, hd] at this
          cases this
    | none =>
      simp only
      rw [ih]
      constructor
      · rintro ⟨before, e, after, rfl, hb, hv⟩
        exact ⟨d :: before, e, after, rfl, by simpa [hd] using hb, hv⟩
      · rintro ⟨before, e, after, he, hb, hv⟩
        cases before with
        | nil =>
          simp only [List.nil_append, List.cons.injEq] at he
          rw [he.1, hv] at hd
          cases hd
        | cons x before =>
          simp only [List.cons_append, List.cons.injEq] at he
          exact ⟨before, e, after, he.2, fun x hx => hb x (by simp [hx]), hv⟩

/-- The name without quotes. -/
def unquote (str : Str) : Str :=
  let name := if str.head? = some '"' then str.tail else str
  if name.length > 1 ∧ name.getLast? = some '"' then name.dropLast else name

theorem snoc_of_last {l : Str} {c : Char} (h : l.getLast? = some c) : l = l.dropLast ++ [c] := by
  have hne : l ≠ [] := by rintro rfl; cases h
  have := List.dropLast_concat_getLast hne
  rw [List.getLast?_eq_some_getLast hne] at h
  simp only [Option.some.injEq] at h
  rw [h] at this
  exact this.symm

theorem unquote_iff (s n : Str) : Unquoted s n ↔ n = unquote s := by
  have key : ∀ body n : Str, (n ≠ [] ∧ body = n ++ ['"'] ∨ body = n ∧ ¬ ∃ r, r ≠ [] ∧ body = r ++ ['"']) ↔
      n = if body.length > 1 ∧ body.getLast? = some '"' then body.dropLast else body := by
    intro body n
    constructor
    · rintro (⟨hn, rfl⟩ | ⟨rfl, hno⟩)
      · rw [if_pos]
        · simp
        · refine ⟨?_, by simp⟩
          have : 0 < n.length := List.length_pos_iff.mpr hn
          rw [List.length_append]
          simp
          omega
      · rw [if_neg]
        rintro ⟨h1, h2⟩
        refine hno ⟨body.dropLast, ?_, snoc_of_last h2⟩
        intro h
        have := congrArg List.length h
        rw [List.length_dropLast] at this
        simp at this
        omega
    · intro h
      split at h
      · rename_i hc
        subst h
        refine Or.inl ⟨?_, snoc_of_last hc.2⟩
        intro h
        have := congrArg List.length h
        rw [List.length_dropLast] at this
        simp at this
        omega
      · rename_i hc
        refine Or.inr ⟨h.symm, ?_⟩
        rintro ⟨r, hr, rfl⟩
        apply hc
        refine ⟨?_, by simp⟩
        have : 0 < r.length := List.length_pos_iff.mpr hr
        rw [List.length_append]
        simp
        omega
  unfold Unquoted unquote
  constructor
  · rintro ⟨body, hb, hn⟩
    rw [key] at hn
    rw [hn]
    rcases hb with rfl | ⟨rfl, hb⟩
    · simp
    · simp [hb]
  · intro h
    by_cases hq : s.head? = some '"'
    · rw [if_pos hq] at h
      refine ⟨s.tail, Or.inl ?_, (key _ _).mpr h⟩
      cases s with
      | nil => cases hq
      | cons c r => simp at hq; simp [hq]
    · rw [if_neg hq] at h
      exact ⟨s, Or.inr ⟨rfl, hq⟩, (key _ _).mpr h⟩

/-! ### Hexadecimal numbers -/

theorem strto_covers {w : Str} {neg : Bool} {m : Nat} (h : Numeral 16 w neg m) (q : Str) :
    ∃ n' m' r, strto 16 (w ++ q) = some (n', m', r) ∧ r.length ≤ q.length := by
  obtain ⟨ws, sign, pre, digits, ds, rfl, h1, h2, h3, h4, h5, rfl⟩ := h
  obtain ⟨d2, ds2, r2, rfl, hd2, hr2⟩ := scanDigits_split 16 q
  have hdd : (digits ++ d2).map (digitVal 16) = (ds ++ ds2).map some := by simp [h5, hd2]
  by_cases hx : pre = [] ∧ ∃ x d t, digits ++ d2 = ['0'] ∧ r2 = x :: d :: t ∧ (x = 'x' ∨ x = 'X') ∧ (digitVal 16 d).isSome = true
  · obtain ⟨rfl, x, d, t, he, rfl, hxx, hd⟩ := hx
    obtain ⟨d3, ds3, r3, e3, hd3, hr3⟩ := scanDigits_split 16 (d :: t)
    have hne3 : d3 ≠ [] := by
      rintro rfl
      simp only [List.nil_append] at e3
      rw [← e3] at hr3
      have hr3 : digitVal 16 d = none := hr3
      rw [hr3] at hd
      cases hd
    have := strto_eq 16 (by omega) ws sign ['0', x] d3 r3 neg ds3 h1 h2 (Or.inr ⟨rfl, by rcases hxx with rfl | rfl <;> simp⟩) hne3 hd3 hr3 (by intro h; cases h)
    refine ⟨_, _, r3, Eq.trans ?_ this, ?_⟩
    · congr 1
      simp only [List.append_nil, List.append_assoc]
      rw [← List.append_assoc digits, he, e3]
      rfl
    · have := congrArg List.length e3
      simp only [List.length_cons, List.length_append] at this ⊢
      omega
  · have := strto_eq 16 (by omega) ws sign pre (digits ++ d2) r2 neg (ds ++ ds2) h1 h2 h3 (by simp [h4]) hdd hr2 (by
      intro hp _ x d t he hr hxx
      cases hv : digitVal 16 d with
      | none => rfl
      | some v => exact absurd ⟨hp, x, d, t, he, hr, hxx, by simp [hv]⟩ hx)
    refine ⟨_, _, r2, Eq.trans ?_ this, by simp⟩
    congr 1
    simp

theorem longest_iff (s : Str) (v : Int) (rest : Str) : Longest s v rest ↔ ∃ neg m, strto 16 s = some (neg, m, rest) ∧ v = signed neg m := by
  constructor
  · rintro ⟨a, neg, m, rfl, hn, rfl, hmax⟩
    obtain ⟨n', m', r, hs, hlen⟩ := strto_covers hn rest
    obtain ⟨front, e, hf, _⟩ := strto_some hs
    obtain ⟨p, rfl, rfl⟩ : ∃ p, front = a ++ p ∧ rest = p ++ r := by
      have h1 : a.length ≤ front.length := by
        have := congrArg List.length e
        simp only [List.length_append] at this
        omega
      have h2 : a <+: front := List.prefix_of_prefix_length_le (l₃ := a ++ rest) (List.prefix_append _ _) (e ▸ List.prefix_append _ _) h1
      obtain ⟨p, rfl⟩ := h2
      rw [List.append_assoc] at e
      exact ⟨p, rfl, List.append_cancel_left e⟩
    by_cases hp : p = []
    · subst hp
      rw [List.append_nil] at hf
      obtain ⟨rfl, rfl⟩ := numeral_unique 16 (by omega) a _ _ _ _ hn hf
      exact ⟨_, _, hs, rfl⟩
    · exact absurd ⟨n', m', hf⟩ (hmax p r rfl hp)
  · rintro ⟨neg, m, hs, rfl⟩
    obtain ⟨a, rfl, hn, _⟩ := strto_some hs
    refine ⟨a, neg, m, rfl, hn, rfl, ?_⟩
    rintro p q rfl hp ⟨n', m', hap⟩
    obtain ⟨n2, m2, r, h2, hlen⟩ := strto_covers hap q
    rw [List.append_assoc, hs] at h2
    simp only [Option.some.injEq, Prod.mk.injEq] at h2
    have h := congrArg List.length h2.2.2
    rw [List.length_append] at h
    have : 0 < p.length := List.length_pos_iff.mpr hp
    omega

theorem scanHex_iff (E : Env F) (s : Str) (v : Nat) (rest : Str) : scanHex E s = some (v, rest) ↔ ∃ a, Longest s a rest ∧ v = E.hex a := by
  unfold scanHex
  constructor
  · intro h
    cases hs : strto 16 s with
    | none => rw [hs] at h; cases h
    | some q =>
      obtain ⟨n, m, r⟩ := q
      rw [hs] at h
      simp only [Option.some.injEq, Prod.mk.injEq] at h
      obtain ⟨rfl, rfl⟩ := h
      exact ⟨signed n m, (longest_iff s _ r).mpr ⟨n, m, hs, rfl⟩, rfl⟩
  · rintro ⟨a, hl, rfl⟩
    obtain ⟨n, m, hs, rfl⟩ := (longest_iff s a rest).mp hl
    rw [hs]

theorem scanSlash_iff (E : Env F) (s : Str) (v : Nat) (rest : Str) : scanSlashHex E s = some (v, rest) ↔ ∃ r, s = '/' :: r ∧ scanHex E r = some (v, rest) := by
  constructor
  · intro h
    unfold scanSlashHex at h
    split at h
    · exact ⟨_, rfl, h⟩
    · cases h
  · rintro ⟨r, rfl, h⟩
    exact h

theorem scanProduct_iff (E : Env F) (s : Str) (b v p r : Nat) : scanProduct E s = some (b, v, p, r) ↔ Ids E s b v p r := by
  unfold Ids
  constructor
  · intro h
    unfold scanProduct at h
    cases h1 : scanHex E s with
    | none => rw [h1] at h; cases h
    | some q1 =>
      obtain ⟨x1, r1⟩ := q1
      rw [h1] at h
      simp only at h
      cases h2 : scanSlashHex E r1 with
      | none => rw [h2] at h; cases h
      | some q2 =>
        obtain ⟨x2, r2⟩ := q2
        rw [h2] at h
        simp only at h
        cases h3 : scanSlashHex E r2 with
        | none => rw [h3] at h; cases h
        | some q3 =>
          obtain ⟨x3, r3⟩ := q3
          rw [h3] at h
          simp only at h
          cases h4 : scanSlashHex E r3 with
          | none => rw [h4] at h; cases h
          | some q4 =>
            obtain ⟨x4, r4⟩ := q4
            rw [h4] at h
            simp only [Option.some.injEq, Prod.mk.injEq] at h
            obtain ⟨rfl, rfl, rfl, rfl⟩ := h
            obtain ⟨t1, rfl, h2⟩ := (scanSlash_iff E _ _ _).mp h2
            obtain ⟨t2, rfl, h3⟩ := (scanSlash_iff E _ _ _).mp h3
            obtain ⟨t3, rfl, h4⟩ := (scanSlash_iff E _ _ _).mp h4
            obtain ⟨a, la, ea⟩ := (scanHex_iff E _ _ _).mp h1
            obtain ⟨b, lb, eb⟩ := (scanHex_iff E _ _ _).mp h2
            obtain ⟨c, lc, ec⟩ := (scanHex_iff E _ _ _).mp h3
            obtain ⟨d, ld, ed⟩ := (scanHex_iff E _ _ _).mp h4
            exact ⟨a, b, c, d, t1, t2, t3, r4, la, lb, lc, ld, ea, eb, ec, ed⟩
  · rintro ⟨a, b, c, d, r1, r2, r3, r4, la, lb, lc, ld, rfl, rfl, rfl, rfl⟩
    unfold scanProduct
    rw [(scanHex_iff E _ _ _).mpr ⟨a, la, rfl⟩]
    simp only
    rw [(scanSlash_iff E _ _ _).mpr ⟨r1, rfl, (scanHex_iff E _ _ _).mpr ⟨b, lb, rfl⟩⟩]
    simp only
    rw [(scanSlash_iff E _ _ _).mpr ⟨r2, rfl, (scanHex_iff E _ _ _).mpr ⟨c, lc, rfl⟩⟩]
    simp only
    rw [(scanSlash_iff E _ _ _).mpr ⟨r3, rfl, (scanHex_iff E _ _ _).mpr ⟨d, ld, rfl⟩⟩]

theorem busNumber_iff (n : Nat) (b : Bus) : busNumber n = some b ↔ (n, b) ∈ busIds := by
  constructor
  · intro h
    unfold busNumber at h
    repeat' split at h
    all_goals first
      | (simp only [Option.some.injEq] at h; subst h; subst_vars; simp [busIds])
      | cases h
  · intro h
    simp only [busIds, List.mem_cons, Prod.mk.injEq, List.not_mem_nil, or_false] at h
    rcases h with ⟨rfl, rfl⟩ | ⟨rfl, rfl⟩ | ⟨rfl, rfl⟩ | ⟨rfl, rfl⟩ | ⟨rfl, rfl⟩ | ⟨rfl, rfl⟩ <;> decide

/-! ### The device's own match -/

/-- What `PRODUCT` says. -/
def idsOf (E : Env F) (dev : Udev) : Option (Nat × Nat × Nat × Nat) := (udevProp dev "PRODUCT".toList).bind (scanProduct E)

theorem new_fields (E : Env F) (dev : Udev) (dmi dt : Option Str) :
    Match.new E dev dmi dt =
      { name := (udevProp dev "NAME".toList).map unquote
        bus := (idsOf E dev).bind fun x => busNumber x.1
        vendor := (idsOf E dev).map fun x => x.2.1
        product := (idsOf E dev).map fun x => x.2.2.1
        version := (idsOf E dev).map fun x => x.2.2.2
        dmi := dmi
        dt := dt
        udevType := some ((mappings.filter fun x => (udevProp dev x.1.toList).isSome).map Prod.snd) } := by
  unfold Match.new fillUdevType
  have h1 : fillName {} dev = { name := (udevProp dev "NAME".toList).map unquote } := by
    unfold fillName
    cases udevProp dev "NAME".toList <;> rfl
  have h2 : fillIds E (fillName {} dev) dev =
      { name := (udevProp dev "NAME".toList).map unquote
        bus := (idsOf E dev).bind fun x => busNumber x.1
        vendor := (idsOf E dev).map fun x => x.2.1
        product := (idsOf E dev).map fun x => x.2.2.1
        version := (idsOf E dev).map fun x => x.2.2.2 } := by
    rw [h1]
    unfold fillIds idsOf
    cases udevProp dev "PRODUCT".toList with
    | none => rfl
    | some str =>
      simp only [Option.bind_some]
      cases scanProduct E str with
      | none => rfl
      | some q => rfl
  rw [h2]
  cases dmi <;> cases dt <;> rfl

theorem idsOf_iff (E : Env F) (dev : Udev) (b v p r : Nat) : idsOf E dev = some (b, v, p, r) ↔ ∃ s, Nearest dev "PRODUCT" s ∧ Ids E s b v p r := by
  unfold idsOf
  rw [Option.bind_eq_some_iff]
  constructor
  · rintro ⟨s, h1, h2⟩
    exact ⟨s, (udevProp_iff _ _ _).mp h1, (scanProduct_iff E s b v p r).mp h2⟩
  · rintro ⟨s, h1, h2⟩
    exact ⟨s, (udevProp_iff _ _ _).mpr h1, (scanProduct_iff E s b v p r).mpr h2⟩

theorem mappings_iff (t : UdevType) (prop : String) : (t, prop) ∈ typeProps ↔ (prop, t) ∈ mappings := by
  simp only [typeProps, mappings, List.mem_cons, Prod.mk.injEq, List.not_mem_nil, or_false]
  constructor <;> rintro (⟨rfl, rfl⟩ | ⟨rfl, rfl⟩ | ⟨rfl, rfl⟩ | ⟨rfl, rfl⟩ | ⟨rfl, rfl⟩ | ⟨rfl, rfl⟩ | ⟨rfl, rfl⟩ | ⟨rfl, rfl⟩) <;> simp

/-! ### Comparing -/

/-- The condition, compared with the device's match. -/
def agrees (E : Env F) (m : Match) : Cond → Bool
  | .name p => m.name.any fun n => E.glob p n
  | .bus b => m.bus = some b
  | .vendor v => m.vendor = some v
  | .product v => m.product = some v
  | .version v => m.version = some v
  | .dmi p => m.dmi.any fun n => E.glob p n
  | .udevType t => m.udevType.any fun l => l.contains t
  | .deviceTree p => m.dt.any fun n => E.glob p n

theorem agrees_iff (E : Env F) (dmi dt : Option Str) (dev : Udev) (c : Cond) : agrees E (Match.new E dev dmi dt) c = true ↔ c.Holds E dmi dt dev := by
  rw [new_fields]
  have ids : ∀ (P : Nat × Nat × Nat × Nat → Prop), (∃ x, idsOf E dev = some x ∧ P x) ↔ ∃ s b v p r, Nearest dev "PRODUCT" s ∧ Ids E s b v p r ∧ P (b, v, p, r) := by
    intro P
    constructor
    · rintro ⟨⟨b, v, p, r⟩, h, hp⟩
      obtain ⟨s, h1, h2⟩ := (idsOf_iff E dev b v p r).mp h
      exact ⟨s, b, v, p, r, h1, h2, hp⟩
    · rintro ⟨s, b, v, p, r, h1, h2, hp⟩
      exact ⟨_, (idsOf_iff E dev b v p r).mpr ⟨s, h1, h2⟩, hp⟩
  cases c with
  | name p =>
    simp only [agrees, Cond.Holds]
    constructor
    · intro h
      cases hs : udevProp dev "NAME".toList with
      | none => rw [hs] at h; cases h
      | some s =>
        rw [hs] at h
        exact ⟨s, unquote s, (udevProp_iff _ _ _).mp hs, (unquote_iff s _).mpr rfl, h⟩
    · rintro ⟨s, n, h1, h2, h3⟩
      rw [(udevProp_iff _ _ _).mpr h1]
      rw [(unquote_iff s n).mp h2] at h3
      exact h3
  | bus b =>
    simp only [agrees, Cond.Holds, decide_eq_true_eq, Option.bind_eq_some_iff, busNumber_iff]
    rw [ids fun x => (x.1, b) ∈ busIds]
  | vendor v =>
    simp only [agrees, Cond.Holds, decide_eq_true_eq, Option.map_eq_some_iff]
    rw [ids fun x => x.2.1 = v]
    constructor
    · rintro ⟨s, b, _, p, r, h1, h2, rfl⟩; exact ⟨s, b, p, r, h1, h2⟩
    · rintro ⟨s, b, p, r, h1, h2⟩; exact ⟨s, b, v, p, r, h1, h2, rfl⟩
  | product v =>
    simp only [agrees, Cond.Holds, decide_eq_true_eq, Option.map_eq_some_iff]
    rw [ids fun x => x.2.2.1 = v]
    constructor
    · rintro ⟨s, b, p, _, r, h1, h2, rfl⟩; exact ⟨s, b, p, r, h1, h2⟩
    · rintro ⟨s, b, p, r, h1, h2⟩; exact ⟨s, b, p, v, r, h1, h2, rfl⟩
  | version v =>
    simp only [agrees, Cond.Holds, decide_eq_true_eq, Option.map_eq_some_iff]
    rw [ids fun x => x.2.2.2 = v]
    constructor
    · rintro ⟨s, b, p, r, _, h1, h2, rfl⟩; exact ⟨s, b, p, r, h1, h2⟩
    · rintro ⟨s, b, p, r, h1, h2⟩; exact ⟨s, b, p, r, v, h1, h2, rfl⟩
  | dmi p =>
    simp only [agrees, Cond.Holds]
    cases dmi <;> simp
  | udevType t =>
    simp only [agrees, Cond.Holds, Option.any_some, List.contains_eq_mem, decide_eq_true_eq, List.mem_map, List.mem_filter]
    constructor
    · rintro ⟨⟨prop, t'⟩, ⟨hm, hs⟩, rfl⟩
      obtain ⟨v, hv⟩ := Option.isSome_iff_exists.mp hs
      exact ⟨prop, v, (mappings_iff _ _).mpr hm, (udevProp_iff _ _ _).mp hv⟩
    · rintro ⟨prop, v, hm, hv⟩
      exact ⟨(prop, t), ⟨(mappings_iff _ _).mp hm, by rw [(udevProp_iff _ _ _).mpr hv]; rfl⟩, rfl⟩
  | deviceTree p =>
    simp only [agrees, Cond.Holds]
    cases dt <;> simp

/-- The field of a condition is set to its value. -/
def stored (m : Match) : Cond → Prop
  | .name p => m.name = some p
  | .bus b => m.bus = some b
  | .vendor v => m.vendor = some v
  | .product v => m.product = some v
  | .version v => m.version = some v
  | .dmi p => m.dmi = some p
  | .udevType t => m.udevType = some [t]
  | .deviceTree p => m.dt = some p

theorem stored_add_self (m : Match) (c : Cond) : stored (add m c) c := by cases c <;> rfl

theorem stored_add_other (m : Match) (c d : Cond) (h : flagOf c ≠ flagOf d) : stored (add m c) d ↔ stored m d := by
  cases c <;> cases d <;> first | exact Iff.rfl | exact absurd rfl h

theorem stored_matchOf (conds : List Cond) (hn : (conds.map Cond.key).Nodup) (c : Cond) (hc : c ∈ conds) : stored (matchOf conds) c := by
  unfold matchOf
  suffices ∀ (m : Match), stored (conds.foldl add m) c from this _
  have keep : ∀ (l : List Cond), (∀ d ∈ l, flagOf d ≠ flagOf c) → ∀ m : Match, stored m c → stored (l.foldl add m) c := by
    intro l
    induction l with
    | nil => intro _ m h; exact h
    | cons d l ih =>
      intro hl m h
      exact ih (fun x hx => hl x (by simp [hx])) _ ((stored_add_other m d c (hl d (by simp))).mpr h)
  induction conds with
  | nil => cases hc
  | cons d conds ih =>
    intro m
    simp only [List.map_cons, List.nodup_cons] at hn
    rcases List.mem_cons.mp hc with rfl | hc
    · refine keep conds ?_ _ (stored_add_self m c)
      intro d hd e
      exact hn.1 (((key_flag c d).mpr e.symm) ▸ List.mem_map_of_mem hd)
    · exact ih hn.2 hc _

theorem compare_stored (E : Env F) (s m : Match) (c : Cond) (h : stored s c) : (m.has (flagOf c) = true ∧ compareFlag E s m (flagOf c) = true) ↔ agrees E m c = true := by
  cases c <;> simp only [stored] at h <;> simp only [flagOf, Match.has, compareFlag, agrees, h]
  · cases m.name <;> simp
  · cases m.bus <;> simp
  · cases m.vendor <;> simp
  · cases m.product <;> simp
  · cases m.version <;> simp
  · cases m.dmi <;> simp
  · cases m.udevType <;> simp
  · cases m.dt <;> simp

theorem mem_flags (f : Flag) : f ∈ flags := by cases f <;> decide

theorem filter_eq_filter {α : Type} {p q : α → Bool} {l : List α} (h : l.filter p = l.filter q) : ∀ a ∈ l, p a = true ↔ q a = true := by
  intro a ha
  constructor
  · intro hp
    have : a ∈ l.filter q := h ▸ List.mem_filter.mpr ⟨ha, hp⟩
    exact (List.mem_filter.mp this).2
  · intro hq
    have : a ∈ l.filter p := h ▸ List.mem_filter.mpr ⟨ha, hq⟩
    exact (List.mem_filter.mp this).2

theorem fullMatch_iff (E : Env F) (s m : Match) : fullMatch E s m = true ↔ ∀ f, s.has f = true → m.has f = true ∧ compareFlag E s m f = true := by
  unfold fullMatch matchedFlags
  rw [decide_eq_true_eq]
  constructor
  · intro h f hf
    have := (filter_eq_filter h f (mem_flags f)).mp hf
    simp only [hf, Bool.true_eq_false, if_false] at this
    split at this
    · cases this
    · rename_i hm
      exact ⟨by simpa using hm, this⟩
  · intro h
    apply List.filter_congr
    intro f _
    cases hf : s.has f with
    | false => simp
    | true =>
      obtain ⟨h1, h2⟩ := h f hf
      simp [h1, h2]

theorem applies_iff (E : Env F) (dmi dt : Option Str) (dev : Udev) (sec : Section F) (s : Sect F) (h : Sec sec s) (hn : (s.conds.map Cond.key).Nodup) :
    fullMatch E sec.mtch (Match.new E dev dmi dt) = true ↔ s.Applies E dmi dt dev := by
  rw [fullMatch_iff, h.1]
  constructor
  · intro hf c hc
    have hs := stored_matchOf s.conds hn c hc
    exact (agrees_iff E dmi dt dev c).mp ((compare_stored E _ _ c hs).mp (hf _ ((matchOf_has _ _).mpr ⟨c, hc, rfl⟩)))
  · intro ha f hf
    obtain ⟨c, hc, rfl⟩ := (matchOf_has _ _).mp hf
    exact (compare_stored E _ _ c (stored_matchOf s.conds hn c hc)).mpr ((agrees_iff E dmi dt dev c).mpr (ha c hc))

end Libinput.Quirks
