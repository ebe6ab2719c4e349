import Verif.Log.Spec
/-!
C71.
-/
namespace Libinput.Log
open Spec

theorem run_append (c : Ctx) (a b : List Op) : run c (a ++ b) = ((run (run c a).1 b).1, (run c a).2 ++ (run (run c a).1 b).2) := by
  induction a generalizing c with
  | nil => rfl
  | cons o a ih => simp only [List.cons_append, run, ih, List.append_assoc]

theorem limited_ctx (c : Ctx) (k : Nat) (p : Int) (m : Msg) (now : Nat) :
    (logLimited c k p m now).1 = { c with limits := fun j => if j = k then (Ratelimit.test (c.limits k) now).1 else c.limits j } := by
  unfold logLimited
  dsimp only
  split <;> rfl

theorem run_settings : ∀ (os : List Op) (c : Ctx), (run c os).1.priority = lastPriority os c.priority ∧ (run c os).1.handler = lastHandler os c.handler
  | [], _ => ⟨rfl, rfl⟩
  | o :: os, c => by
    have := run_settings os (step c o).1
    cases o with
    | limited k p n now =>
      simp only [step, limited_ctx] at this
      simp only [run, step, limited_ctx, lastPriority, lastHandler]
      exact this
    | _ => exact this

/-- C71.  Whatever happened before: a message is handed over once, to the handler that was set last, exactly if there is one and the message is at least of the
priority that was set last; without any set, errors go to the default handler. -/
theorem message_heard (limits : Nat → Ratelimit.State) (before : List Op) (p : Int) (n : Nat) :
    (run (init limits) (before ++ [.log p n])).2 = (run (init limits) before).2 ++
      match lastHandler before (some 0) with
      | some h => if lastPriority before 30 ≤ p then [⟨h, p, .text n⟩] else []
      | none => [] := by
  rw [run_append]
  obtain ⟨e1, e2⟩ := run_settings before (init limits)
  simp only [run, step, logMsg, e1, e2, List.append_nil]
  rw [show (init limits).priority = 30 from rfl, show (init limits).handler = some 0 from rfl]
  cases lastHandler before (some 0) <;> rfl

/-- C71.  With no handler nothing is handed over, whatever the priorities are. -/
theorem no_handler_silent (os : List Op) (c : Ctx) (h : c.handler = none) (hs : ∀ o ∈ os, ∀ h, o ≠ .setHandler h) : (run c os).2 = [] := by
  induction os generalizing c with
  | nil => rfl
  | cons o os ih =>
    have rest : ∀ q, q ∈ os → ∀ h, q ≠ .setHandler h := fun q hq => hs q (List.mem_cons_of_mem _ hq)
    simp only [run]
    have l : ∀ (c : Ctx) p m, c.handler = none → logMsg c p m = [] := by intro c p m h; unfold logMsg; rw [h]
    cases o with
    | setPriority p => exact ih { c with priority := p } h rest
    | setHandler g => exact absurd rfl (hs _ List.mem_cons_self g)
    | log p n => simp only [step, l c p _ h]; exact ih c h rest
    | limited k p n now =>
      have e : (step c (.limited k p n now)).2 = [] := by
        simp only [step, logLimited]
        split
        · rfl
        · exact l _ _ _ h
        · rw [l _ _ _ (by exact h), l _ _ _ (by exact h)]; rfl
      rw [e]
      exact ih _ (by simp only [step, limited_ctx]; exact h) rest

theorem texts_append (a b : List Call) : texts (a ++ b) = texts a + texts b := by simp [texts]

theorem texts_log (c : Ctx) (p : Int) (n : Nat) : texts (logMsg c p (.text n)) ≤ 1 := by
  unfold logMsg; split
  · exact Nat.zero_le _
  · split
    · exact Nat.le_refl _
    · exact Nat.zero_le _

theorem texts_warning (c : Ctx) (p : Int) (b i : Nat) : texts (logMsg c p (.limitExceeded b i)) = 0 := by
  unfold logMsg; split
  · rfl
  · split <;> rfl

theorem run_limit (k : Nat) : ∀ (os : List Op) (c : Ctx), (run c os).1.limits k = (Ratelimit.run (c.limits k) (timesOf k os)).1
  | [], _ => rfl
  | o :: os, c => by
    have ih := run_limit k os (step c o).1
    cases o with
    | limited j p n now =>
      simp only [step, limited_ctx] at ih
      simp only [run, step, limited_ctx, timesOf]
      rw [ih]
      by_cases e : j = k
      · subst e; simp [Ratelimit.run_cons]
      · have e' : ¬ k = j := fun h => e h.symm
        simp [e, e']
    | _ => exact ih

theorem texts_le (k : Nat) : ∀ (os : List Op) (c : Ctx), OnlyLimit k os →
    texts (run c os).2 ≤ Ratelimit.allowedIn (Ratelimit.run (c.limits k) (timesOf k os)).2
  | [], _, _ => Nat.le_refl _
  | o :: os, c, h => by
    have hr : OnlyLimit k os := fun q hq => h q (List.mem_cons_of_mem _ hq)
    have ih := texts_le k os (step c o).1 hr
    have ho := h o List.mem_cons_self
    cases o with
    | setPriority p => exact ih
    | setHandler g => exact ih
    | log p n => exact ho.elim
    | limited j p n now =>
      have e : j = k := ho
      subst e
      simp only [step, limited_ctx, if_true] at ih
      simp only [run, step, limited_ctx, timesOf, if_true, Ratelimit.run_cons, texts_append]
      have a : Ratelimit.allowedIn ((Ratelimit.test (c.limits j) now).2 :: (Ratelimit.run (Ratelimit.test (c.limits j) now).1 (timesOf j os)).2) =
          (if (Ratelimit.test (c.limits j) now).2.allowed then 1 else 0) + Ratelimit.allowedIn (Ratelimit.run (Ratelimit.test (c.limits j) now).1 (timesOf j os)).2 := by
        unfold Ratelimit.allowedIn
        rw [List.filter_cons]
        split <;> simp [Nat.add_comm]
      rw [a]
      refine Nat.add_le_add ?_ ih
      unfold logLimited
      dsimp only
      generalize (Ratelimit.test (c.limits j) now) = r
      obtain ⟨r1, r2⟩ := r
      cases r2 with
      | exceeded => exact Nat.zero_le _
      | pass => exact texts_log _ _ _
      | threshold =>
        dsimp only
        rw [texts_append, texts_warning]
        exact texts_log _ _ _

/-- C71.  Messages with a rate limit: in no time of the length of its interval more than two bursts are handed over, whatever else is logged and set before, and
whatever is set in that time. -/
theorem limited_at_most (interval burst k : Nat) (hi : 0 < interval) (hb : 0 < burst) (limits : Nat → Ratelimit.State) (hk : limits k = Ratelimit.init interval burst)
    (before os : List Op) (ho : OnlyLimit k os) (a : Nat) (h0 : 0 < a) (hov : a + interval + interval < 2 ^ 64) (ht : ∀ t ∈ timesOf k os, a ≤ t ∧ t ≤ a + interval) :
    texts (run (run (init limits) before).1 os).2 ≤ 2 * burst := by
  refine Nat.le_trans (texts_le k os _ ho) ?_
  rw [run_limit k before (init limits)]
  have := Ratelimit.at_most_two_bursts interval burst hi hb (timesOf k before) (timesOf k os) a h0 hov ht
  rw [Ratelimit.run_append] at this
  dsimp only at this
  rw [List.drop_append_of_le_length (by rw [Ratelimit.run_length]; exact Nat.le_refl _), List.drop_of_length_le (by rw [Ratelimit.run_length]; exact Nat.le_refl _),
    List.nil_append] at this
  rw [show (init limits).limits k = Ratelimit.init interval burst from hk]
  exact this

/-! ### Values out of range -/

/-- C71.  A value that is in the range the device announces is never warned about. -/
theorem in_range_silent (k : Nat) (minimum maximum width value : Int) (hw : 0 ≤ width) (h1 : minimum ≤ value) (h2 : value ≤ maximum) (n now : Nat) :
    checkAxis k (warningRange minimum maximum width) value n now = [] := by
  unfold checkAxis warningRange
  rw [if_neg]
  dsimp only
  have a := Int.mul_tdiv_add_tmod (20 * minimum - width) 20
  have b := Int.mul_tdiv_add_tmod (20 * maximum + width) 20
  have a1 := Int.tmod_lt_of_pos (20 * minimum - width) (b := 20) (by omega)
  have b1 := Int.tmod_lt_of_pos (20 * maximum + width) (b := 20) (by omega)
  have a2 := Int.lt_tmod_of_pos (20 * minimum - width) (b := 20) (by omega)
  have b2 := Int.lt_tmod_of_pos (20 * maximum + width) (b := 20) (by omega)
  omega

/-- C71.  A value that is out of it by more than a twentieth of the width and one unit more is logged, as an information. -/
theorem out_of_range_logged (k : Nat) (minimum maximum width value : Int) (n now : Nat)
    (h : 20 * value ≤ 20 * minimum - width - 20 ∨ 20 * maximum + width + 20 ≤ 20 * value) :
    checkAxis k (warningRange minimum maximum width) value n now = [.limited k 20 n now] := by
  unfold checkAxis warningRange
  rw [if_pos]
  dsimp only
  have a := Int.mul_tdiv_add_tmod (20 * minimum - width) 20
  have b := Int.mul_tdiv_add_tmod (20 * maximum + width) 20
  have a1 := Int.tmod_lt_of_pos (20 * minimum - width) (b := 20) (by omega)
  have b1 := Int.tmod_lt_of_pos (20 * maximum + width) (b := 20) (by omega)
  have a2 := Int.lt_tmod_of_pos (20 * minimum - width) (b := 20) (by omega)
  have b2 := Int.lt_tmod_of_pos (20 * maximum + width) (b := 20) (by omega)
  omega

theorem start_before {I now : Nat} : ∀ (ts : List Nat) (w : Option Nat), (∀ t ∈ ts, t + I < now) → (∀ b, w = some b → b + I < now) →
    ∀ b, Ratelimit.windowStart I ts w = some b → b + I < now
  | [], _, _, hw, b, e => hw b e
  | t :: ts, none, hts, _, b, e =>
    start_before ts (some t) (fun x hx => hts x (List.mem_cons_of_mem _ hx)) (by rintro c ⟨⟩; exact hts t List.mem_cons_self) b e
  | t :: ts, some v, hts, hw, b, e => by
    refine start_before ts _ (fun x hx => hts x (List.mem_cons_of_mem _ hx)) ?_ b e
    intro c hc
    split at hc
    · cases hc; exact hts _ List.mem_cons_self
    · cases hc; exact hw _ rfl

/-- The first after more than the interval passes. -/
theorem first_passes {I B now : Nat} (hI : 0 < I) (hB : 0 < B) (ts : List Nat) (hb : ∀ t ∈ ts, 0 < t ∧ t + I < now) (hov : now + I < 2 ^ 64) :
    (Ratelimit.test (Ratelimit.run (Ratelimit.init I B) ts).1 now).2 = .pass := by
  have bs := Ratelimit.begin_is_windowStart (Ratelimit.init I B) ts hI hB none rfl (by simp)
    (fun t ht => ⟨(hb t ht).1, by have := (hb t ht).2; simp only [Ratelimit.init]; omega⟩)
  have par := Ratelimit.run_params (Ratelimit.init I B) ts
  generalize (Ratelimit.run (Ratelimit.init I B) ts).1 = r at *
  have p1 : r.interval = I := par.1
  have p2 : r.burst = B := par.2
  have lt : r.begin_ + I < now ∨ r.begin_ = 0 := by
    rw [bs]
    cases c : Ratelimit.windowStart (Ratelimit.init I B).interval ts none with
    | none => right; rfl
    | some b => left; exact start_before ts none (fun t ht => (hb t ht).2) (by simp) b c
  unfold Ratelimit.test
  rw [if_neg (by omega), if_pos]
  rcases lt with h | h
  · right
    rw [p1, Nat.mod_eq_of_lt (by omega)]; exact h
  · exact Or.inl h

/-- C71.  The first message after more than the interval without any is handed over as any other. -/
theorem limited_heard (k : Nat) {I B : Nat} (hI : 0 < I) (hB : 0 < B) (limits : Nat → Ratelimit.State) (hk : limits k = Ratelimit.init I B) (before : List Op)
    (p : Int) (n now : Nat) (hb : ∀ t ∈ timesOf k before, 0 < t ∧ t + I < now) (hov : now + I < 2 ^ 64)
    (g : Nat) (hg : lastHandler before (some 0) = some g) (hp : lastPriority before 30 ≤ p) :
    (run (init limits) (before ++ [.limited k p n now])).2 = (run (init limits) before).2 ++ [⟨g, p, .text n⟩] := by
  rw [run_append]
  obtain ⟨e1, e2⟩ := run_settings before (init limits)
  have e3 := run_limit k before (init limits)
  rw [show (init limits).limits k = Ratelimit.init I B from hk] at e3
  have t : (Ratelimit.test ((run (init limits) before).1.limits k) now).2 = .pass := by rw [e3]; exact first_passes hI hB _ hb hov
  simp only [run, step, logLimited, t, logMsg, e1, e2, List.append_nil]
  rw [show (init limits).priority = 30 from rfl, show (init limits).handler = some 0 from rfl, hg]
  simp only [hp, if_true]

/-- C71.  Of the warnings about values out of range the first after more than 3000 seconds without any is handed over. -/
theorem range_warning_heard (k : Nat) (limits : Nat → Ratelimit.State) (hk : limits k = rangeLimit) (before : List Op) (n now : Nat)
    (hb : ∀ t ∈ timesOf k before, 0 < t ∧ t + 3000000000 < now) (hov : now + 3000000000 < 2 ^ 64)
    (g : Nat) (hg : lastHandler before (some 0) = some g) (hp : lastPriority before 30 ≤ 20) :
    (run (init limits) (before ++ [.limited k 20 n now])).2 = (run (init limits) before).2 ++ [⟨g, 20, .text n⟩] :=
  limited_heard k (by omega) (by omega) limits hk before 20 n now hb hov g hg hp

theorem checks_only (k : Nat) (range : Int × Int) (rs : List (Int × Nat × Nat)) : OnlyLimit k (rs.flatMap fun r => checkAxis k range r.1 r.2.1 r.2.2) := by
  intro o ho
  obtain ⟨r, _, h⟩ := List.mem_flatMap.mp ho
  unfold checkAxis at h
  split at h
  · rw [List.mem_singleton] at h; subst h; rfl
  · cases h

theorem times_append (k : Nat) (a b : List Op) : timesOf k (a ++ b) = timesOf k a ++ timesOf k b := by
  induction a with
  | nil => rfl
  | cons o a ih =>
    cases o with
    | limited j p n now => simp only [List.cons_append, timesOf, ih]; split <;> rfl
    | _ => exact ih

theorem checks_times (k : Nat) (range : Int × Int) : ∀ (rs : List (Int × Nat × Nat)),
    ∀ t ∈ timesOf k (rs.flatMap fun r => checkAxis k range r.1 r.2.1 r.2.2), ∃ r ∈ rs, t = r.2.2
  | [], t, h => by cases h
  | r :: rs, t, h => by
    rw [List.flatMap_cons, times_append, List.mem_append] at h
    rcases h with h | h
    · refine ⟨r, List.mem_cons_self, ?_⟩
      unfold checkAxis at h
      split at h
      · simpa [timesOf] using h
      · cases h
    · obtain ⟨q, hq, e⟩ := checks_times k range rs t h
      exact ⟨q, List.mem_cons_of_mem _ hq, e⟩

/-- C71.  However many values of an axis are out of range (`rs` are values, the numbers of their messages and their times), no more than two warnings are handed over
in any 3000 seconds. -/
theorem range_warnings_at_most (k : Nat) (limits : Nat → Ratelimit.State) (hk : limits k = rangeLimit) (before : List Op) (range : Int × Int)
    (rs : List (Int × Nat × Nat)) (a : Nat) (h0 : 0 < a) (hov : a + 3000000000 + 3000000000 < 2 ^ 64) (ht : ∀ r ∈ rs, a ≤ r.2.2 ∧ r.2.2 ≤ a + 3000000000) :
    texts (run (run (init limits) before).1 (rs.flatMap fun r => checkAxis k range r.1 r.2.1 r.2.2)).2 ≤ 2 :=
  limited_at_most 3000000000 1 k (by omega) (by omega) limits hk before _ (checks_only k range rs) a h0 hov fun t h => by
    obtain ⟨r, hr, e⟩ := checks_times k range rs t h
    rw [e]; exact ht r hr

/-- C71, the exception: messages that are not heard because of their priority count for the rate limit too, so one that could be heard is not. -/
theorem unheard_messages_count : (run (init fun _ => rangeLimit) [.limited 0 20 7 1000, .setPriority 10, .limited 0 20 8 2000]).2 = [] := by decide +kernel

/-- C71, the exception: the message that says that messages will be discarded never comes with a burst of one. -/
theorem burst_of_one_never_says : ∀ (I : Nat) (ts : List Nat), 0 < I → ∀ o ∈ (Ratelimit.run (Ratelimit.init I 1) ts).2, o ≠ .threshold := by
  intro I ts hI
  have key : ∀ (ts : List Nat) (r : Ratelimit.State), r.interval = I → r.burst = 1 → (r.begin_ = 0 ∨ r.num = 1) → ∀ o ∈ (Ratelimit.run r ts).2, o ≠ .threshold := by
    intro ts
    induction ts with
    | nil => intro r _ _ _ o ho; simp [Ratelimit.run] at ho
    | cons t ts ih =>
      intro r hi hb hn
      have s : (Ratelimit.test r t).2 ≠ .threshold ∧ ((Ratelimit.test r t).1.begin_ = 0 ∨ (Ratelimit.test r t).1.num = 1) := by
        unfold Ratelimit.test
        rw [if_neg (by omega)]
        split
        · simp
        · rename_i c
          have : r.num = 1 := by
            rcases hn with h | h
            · exact absurd (Or.inl h) c
            · exact h
          rw [if_neg (by omega)]
          exact ⟨by simp, Or.inr this⟩
      have p := Ratelimit.test_params r t
      rw [Ratelimit.run_cons]
      intro o ho
      rcases List.mem_cons.mp ho with rfl | ho
      · exact s.1
      · exact ih _ (p.1.trans hi) (p.2.trans hb) s.2 o ho
  exact key ts (Ratelimit.init I 1) rfl rfl (Or.inl rfl)

/-- Non-vacuity: a debug message before and after the priority is set, another handler, no handler. -/
example : (run (init fun _ => rangeLimit) [.log 10 1, .log 30 2, .setPriority 10, .log 10 3, .setHandler (some 5), .log 20 4, .setHandler none, .log 30 5]).2 =
    [⟨0, 30, .text 2⟩, ⟨0, 10, .text 3⟩, ⟨5, 20, .text 4⟩] := by decide +kernel
/-- A limit of 2 per 10 ms. -/
example : (run (init fun _ => Ratelimit.init 10000 2) [.limited 0 30 1 1, .limited 0 30 2 2, .limited 0 30 3 3, .limited 1 30 4 4, .limited 0 30 5 10002]).2 =
    [⟨0, 30, .text 1⟩, ⟨0, 30, .text 2⟩, ⟨0, 30, .limitExceeded 2 10⟩, ⟨0, 30, .text 4⟩, ⟨0, 30, .text 5⟩] := by decide +kernel
/-- An axis from -7 to 100 of width 107: its values are warned about below -12 and above 105. -/
example : warningRange (-7) 100 107 = (-12, 105) := by decide +kernel
example : (run (init fun _ => rangeLimit) ([.setPriority 20] ++ checkAxis 0 (warningRange (-7) 100 107) 106 1 500 ++ checkAxis 0 (warningRange (-7) 100 107) (-13) 2 600 ++
    checkAxis 0 (warningRange (-7) 100 107) 101 3 3000000600 ++ checkAxis 0 (warningRange (-7) 100 107) (-13) 4 3000000700)).2 = [⟨0, 20, .text 1⟩, ⟨0, 20, .text 4⟩] := by
  decide +kernel

end Libinput.Log
