import Verif.Quirks.Spec
/-! Quirks: from files to lines. -/
namespace Libinput.Quirks
open Libinput.Strings Libinput.Parsers Libinput.Parsers.Spec Spec

theorem isBlank_iff (c : Char) : isBlank c = true ↔ Blank c := by
  simp [isBlank, Blank]

theorem readLine_line (n : Nat) (l rest : Str) (h : '\n' ∉ l) (hn : l.length < n) : readLine n (l ++ '\n' :: rest) = (l ++ ['\n'], rest) := by
  induction l generalizing n with
  | nil =>
    cases n with
    | zero => simp at hn
    | succ n => simp [readLine]
  | cons c l ih =>
    simp only [List.mem_cons, not_or] at h
    cases n with
    | zero => simp at hn
    | succ n =>
      have := ih n h.2 (by simpa using hn)
      rw [List.cons_append, readLine, if_neg (fun e => h.1 e.symm), this]
      simp

theorem readLine_last (n : Nat) (l : Str) (h : '\n' ∉ l) (hn : l.length < n) : readLine n l = (l, []) := by
  induction l generalizing n with
  | nil =>
    cases n with
    | zero => simp at hn
    | succ n => simp [readLine]
  | cons c l ih =>
    simp only [List.mem_cons, not_or] at h
    cases n with
    | zero => simp at hn
    | succ n =>
      have := ih n h.2 (by simpa using hn)
      rw [readLine, if_neg (fun e => h.1 e.symm), this]

theorem mem_takeWhile_imp {p : Char → Bool} {l : Str} {c : Char} (h : c ∈ l.takeWhile p) : p c = true := by
  induction l with
  | nil => simp at h
  | cons d l ih =>
    rw [List.takeWhile_cons] at h
    split at h
    · rcases List.mem_cons.mp h with rfl | h
      · assumption
      · exact ih h
    · simp at h

theorem takeWhile_all {p : Char → Bool} {l : Str} (h : ∀ c ∈ l, p c = true) : l.takeWhile p = l := by
  induction l with
  | nil => rfl
  | cons c l ih => rw [List.takeWhile_cons, if_pos (h c (by simp)), ih fun c hc => h c (by simp [hc])]

theorem takeWhile_stop {p : Char → Bool} {l : Str} (x : Char) (r : Str) (h : ∀ c ∈ l, p c = true) (hx : p x = false) :
    (l ++ x :: r).takeWhile p = l := by
  induction l with
  | nil => simp [hx]
  | cons c l ih => rw [List.cons_append, List.takeWhile_cons, if_pos (h c (by simp)), ih fun c hc => h c (by simp [hc])]

theorem chunks_line (l rest : Str) (h : '\n' ∉ l) (hn : l.length ≤ 510) (h0 : '\x00' ∉ l) :
    chunks (l ++ '\n' :: rest) = (l ++ ['\n']) :: chunks rest := by
  obtain ⟨c, s, e⟩ : ∃ c s, l ++ '\n' :: rest = c :: s := by cases l <;> simp
  have hr : readLine 511 (c :: s) = (l ++ ['\n'], rest) := by rw [← e]; exact readLine_line 511 l rest h (by omega)
  rw [e, chunks, hr]
  have : (l ++ ['\n']).takeWhile (fun x => decide (x ≠ '\x00')) = l ++ ['\n'] := by
    refine takeWhile_all fun c hc => ?_
    simp only [List.mem_append, List.mem_singleton] at hc
    rcases hc with hc | rfl
    · exact decide_eq_true fun e => h0 (e ▸ hc)
    · decide
  rw [this]

theorem chunks_last (l : Str) (hl : l ≠ []) (h : '\n' ∉ l) (hn : l.length ≤ 510) (h0 : '\x00' ∉ l) : chunks l = [l] := by
  obtain ⟨c, s, e⟩ : ∃ c s, l = c :: s := by cases l <;> simp_all
  have hr : readLine 511 (c :: s) = (l, []) := by rw [← e]; exact readLine_last 511 l h (by omega)
  have : l.takeWhile (fun x => decide (x ≠ '\x00')) = l := takeWhile_all fun c hc => decide_eq_true fun e => h0 (e ▸ hc)
  rw [e] at this
  rw [e, chunks, hr, chunks, e, this]

theorem hash_contains (l : Str) : l.contains '#' = true ↔ '#' ∈ l := by simp

theorem takeWhile_hash_newline (l : Str) (h : '#' ∈ l) : (l ++ ['\n']).takeWhile (fun c => decide (c ≠ '#')) = l.takeWhile (fun c => decide (c ≠ '#')) := by
  induction l with
  | nil => simp at h
  | cons c l ih =>
    rw [List.cons_append, List.takeWhile_cons, List.takeWhile_cons]
    by_cases hc : c = '#'
    · simp [hc]
    · rw [if_pos (by simp [hc]), if_pos (by simp [hc]), ih (by simpa [Ne.symm hc] using h)]

theorem clean_newline (l : Str) (h : '\n' ∉ l) : clean (l ++ ['\n']) = clean l := by
  unfold clean
  by_cases hh : '#' ∈ l
  · rw [if_pos ((hash_contains _).mpr (by simp [hh])), if_pos ((hash_contains _).mpr hh), takeWhile_hash_newline l hh]
  · rw [if_neg (fun e => by simp [hh] at e), if_neg (fun e => hh ((hash_contains _).mp e))]
    have all : ∀ c ∈ l, decide (c ≠ '\n') = true := fun c hc => decide_eq_true fun e => h (e ▸ hc)
    rw [takeWhile_stop '\n' [] all (by simp), takeWhile_all all]

theorem dropWhile_first {p : Char → Bool} {l : Str} (x : Char) (h : (l.dropWhile p).head? = some x) : p x = false := by
  induction l with
  | nil => simp at h
  | cons c l ih =>
    rw [List.dropWhile_cons] at h
    split at h
    · exact ih h
    · simp at h; subst h; simp_all

theorem dropWhile_part {p : Char → Bool} (l : Str) : ∃ g, l = g ++ l.dropWhile p ∧ ∀ c ∈ g, p c = true :=
  ⟨l.takeWhile p, List.takeWhile_append_dropWhile.symm, fun _ hc => mem_takeWhile_imp hc⟩

theorem dropWhile_gap {p : Char → Bool} {g r : Str} (hg : ∀ c ∈ g, p c = true) (hr : ∀ x, r.head? = some x → p x = false) :
    (g ++ r).dropWhile p = r := by
  induction g with
  | nil =>
    cases r with
    | nil => rfl
    | cons c r => rw [List.nil_append, List.dropWhile_cons, if_neg (by simp [hr c rfl])]
  | cons c g ih => rw [List.cons_append, List.dropWhile_cons, if_pos (hg c (by simp)), ih fun c hc => hg c (by simp [hc])]

theorem head_reverse (l : Str) : l.reverse.head? = l.getLast? := by simp

theorem stripped_iff (l t : Str) (h : '\n' ∉ l) : Stripped l t ↔ t = clean l := by
  constructor
  · intro hs
    cases hs with
    | plain _ hh =>
      unfold clean
      rw [if_neg (fun e => hh ((hash_contains _).mp e))]
      have all : ∀ c ∈ l, decide (c ≠ '\n') = true := fun c hc => decide_eq_true fun e => h (e ▸ hc)
      exact (takeWhile_all all).symm
    | comment _ gap c ht hg hl =>
      unfold clean
      rw [if_pos ((hash_contains _).mpr (by simp))]
      have hb : '#' ∉ gap := fun e => by
        have := hg _ e
        revert this
        unfold Blank
        decide
      have e : (t ++ gap ++ '#' :: c).takeWhile (fun c => decide (c ≠ '#')) = t ++ gap := by
        refine takeWhile_stop _ _ (fun x hx => decide_eq_true fun e => ?_) (by simp)
        subst e
        rcases List.mem_append.mp hx with hx | hx
        · exact ht hx
        · exact hb hx
      rw [e, List.reverse_append, dropWhile_gap, List.reverse_reverse]
      · intro c hc
        exact (isBlank_iff c).mpr (hg c (List.mem_reverse.mp hc))
      · intro x hx
        rw [head_reverse] at hx
        exact Bool.eq_false_iff.mpr fun e => hl x hx ((isBlank_iff x).mp e)
  · rintro rfl
    unfold clean
    by_cases hh : '#' ∈ l
    · rw [if_pos ((hash_contains _).mpr hh)]
      generalize e0 : l.takeWhile (fun c => decide (c ≠ '#')) = a
      obtain ⟨g, eg, hg⟩ := dropWhile_part (p := isBlank) a.reverse
      have e1 : l = a ++ '#' :: (l.dropWhile fun c => decide (c ≠ '#')).tail := by
        have := List.takeWhile_append_dropWhile (p := fun c => decide (c ≠ '#')) (l := l)
        rw [e0] at this
        cases hd : l.dropWhile (fun c => decide (c ≠ '#')) with
        | nil =>
          exfalso
          rw [hd, List.append_nil] at this
          rw [← this] at hh e0
          have : '#' ∈ a.takeWhile (fun c => decide (c ≠ '#')) := by rw [e0]; exact hh
          exact absurd (mem_takeWhile_imp this) (by simp)
        | cons x r =>
          have hx := dropWhile_first (l := l) (p := fun c => decide (c ≠ '#')) x (by rw [hd]; rfl)
          simp only [ne_eq, decide_not, Bool.not_eq_eq_eq_not, Bool.not_false, decide_eq_true_eq] at hx
          rw [hd, hx] at this
          exact this.symm
      have e2 : a = (a.reverse.dropWhile isBlank).reverse ++ g.reverse := by
        have := congrArg List.reverse eg
        rwa [List.reverse_reverse, List.reverse_append] at this
      have hna : '#' ∉ a := by
        intro h
        rw [← e0] at h
        exact absurd (mem_takeWhile_imp h) (by simp)
      generalize (l.dropWhile fun c => decide (c ≠ '#')).tail = c at e1
      have hdr : ∀ x, (a.reverse.dropWhile isBlank).reverse.getLast? = some x → ¬ Blank x := by
        intro x hx
        rw [← head_reverse, List.reverse_reverse] at hx
        have := dropWhile_first x hx
        intro hb
        rw [(isBlank_iff x).mpr hb] at this
        cases this
      generalize (a.reverse.dropWhile isBlank).reverse = t at e2 hdr
      subst e2 e1
      refine Stripped.comment t g.reverse c (fun h => hna (by simp [h])) ?_ hdr
      intro x hx
      exact (isBlank_iff x).mp (hg x (List.mem_reverse.mp hx))
    · rw [if_neg (fun e => hh ((hash_contains _).mp e))]
      have all : ∀ c ∈ l, decide (c ≠ '\n') = true := fun c hc => decide_eq_true fun e => h (e ▸ hc)
      rw [takeWhile_all all]
      exact .plain l hh

theorem lines_exist (s : Str) : ∃ ls, LinesOf s ls := by
  suffices ∀ n, ∀ s : Str, s.length ≤ n → ∃ ls, LinesOf s ls from this _ s (Nat.le_refl _)
  intro n
  induction n with
  | zero =>
    intro s hs
    obtain rfl : s = [] := List.length_eq_zero_iff.mp (by omega)
    exact ⟨[], .nil⟩
  | succ n ih =>
    intro s hs
    by_cases h : '\n' ∈ s
    · obtain ⟨a, b, rfl, ha⟩ : ∃ a b, s = a ++ '\n' :: b ∧ '\n' ∉ a := by
        clear hs ih
        induction s with
        | nil => simp at h
        | cons c s ih =>
          by_cases hc : c = '\n'
          · exact ⟨[], s, by simp [hc], by simp⟩
          · obtain ⟨a, b, e, ha⟩ := ih (by simpa [Ne.symm hc] using h)
            exact ⟨c :: a, b, by simp [e], by simp [ha, Ne.symm hc]⟩
      obtain ⟨ls, hl⟩ := ih b (by simp at hs; omega)
      exact ⟨a :: ls, .cons a b ls ha hl⟩
    · by_cases he : s = []
      · exact ⟨[], he ▸ .nil⟩
      · exact ⟨[s], .last s he h⟩

theorem lines_no_newline {s : Str} {ls : List Str} (h : LinesOf s ls) : ∀ l ∈ ls, '\n' ∉ l := by
  induction h with
  | nil => simp
  | last l _ h => simpa using h
  | cons l rest ls h _ ih => simpa using ⟨h, fun a ha => ih a ha⟩

theorem chunks_lines {s : Str} {ls : List Str} (h : LinesOf s ls) (h0 : '\x00' ∉ s) (hn : ∀ l ∈ ls, l.length ≤ 510) :
    (chunks s).map clean = ls.map clean := by
  induction h with
  | nil => rw [chunks]
  | last l hl h => rw [chunks_last l hl h (hn l (by simp)) h0]
  | cons l rest ls h _ ih =>
    simp only [List.mem_append, List.mem_cons, not_or] at h0
    rw [chunks_line l rest h (hn l (by simp)) h0.1, List.map_cons, List.map_cons, clean_newline l h,
      ih h0.2.2 fun l hl => hn l (by simp [hl])]

theorem each_map {α β : Type} (R : α → β → Prop) (f : α → β) (P : α → Prop) (h : ∀ a b, P a → (R a b ↔ b = f a)) (l : List α) (hl : ∀ a ∈ l, P a)
    (l' : List β) : Each R l l' ↔ l' = l.map f := by
  induction l generalizing l' with
  | nil => cases l' <;> simp [Each]
  | cons a l ih =>
    cases l' with
    | nil => simp [Each]
    | cons b l' =>
      simp only [Each, List.map_cons, List.cons.injEq]
      rw [h a b (hl a (by simp)), ih fun a ha => hl a (by simp [ha])]

/-- What the parser sees of a file. -/
def contents (s : Str) : List Str := ((chunks s).map clean).filter fun t => !t.isEmpty

theorem content_iff (s : Str) (h : Readable s) (ts : List Str) : Content s ts ↔ ts = contents s := by
  unfold Content contents
  constructor
  · rintro ⟨ls, all, hl, he, rfl⟩
    rw [(each_map Stripped clean (fun l => '\n' ∉ l) (fun a b ha => stripped_iff a b ha) ls (lines_no_newline hl) all).mp he,
      chunks_lines hl h.1 (h.2 ls hl)]
  · rintro rfl
    obtain ⟨ls, hl⟩ := lines_exist s
    exact ⟨ls, ls.map clean, hl, (each_map Stripped clean (fun l => '\n' ∉ l) (fun a b ha => stripped_iff a b ha) ls (lines_no_newline hl) _).mpr rfl,
      by rw [chunks_lines hl h.1 (h.2 ls hl)]⟩

theorem parseLine_nil {F : Type} (E : Env F) (p : Parser F) : parseLine E p [] = .ok p := rfl

/-- The loop over what is left of the lines. -/
def parseAll {F : Type} (E : Env F) : Parser F → List Str → Res (Parser F)
  | p, [] => .ok p
  | p, t :: ts => (parseLine E p t).bind fun p => parseAll E p ts

theorem parseLines_eq {F : Type} (E : Env F) (p : Parser F) (ls : List Str) :
    parseLines E p ls = parseAll E p ((ls.map clean).filter fun t => !t.isEmpty) := by
  induction ls generalizing p with
  | nil => rfl
  | cons l ls ih =>
    rw [List.map_cons, parseLines]
    by_cases h : clean l = []
    · rw [h, parseLine_nil, List.filter_cons, if_neg (by simp)]
      exact ih p
    · rw [List.filter_cons, if_pos (by simpa using h), parseAll]
      congr 1
      funext q
      exact ih q

theorem contents_nonempty (s : Str) : ∀ t ∈ contents s, t ≠ [] := by
  intro t ht
  have := (List.mem_filter.mp ht).2
  simpa using this

end Libinput.Quirks
