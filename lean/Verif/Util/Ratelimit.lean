/-
Log rate limiting, /repo/src/util-ratelimit.c.
-/
namespace Libinput.Ratelimit

/-- Models: `struct ratelimit`, /repo/src/util-ratelimit.h:37-42. -/
structure State where
  interval : Nat
  begin_ : Nat
  burst : Nat
  num : Nat
deriving Repr, DecidableEq

/-- Models: `enum ratelimit_state`, /repo/src/util-ratelimit.h:31-35. -/
inductive Res where
  | exceeded | threshold | pass
deriving Repr, DecidableEq

/-- `ratelimit_init`.  Models: /repo/src/util-ratelimit.c:33-40. -/
def init (interval burst : Nat) : State := { interval, begin_ := 0, burst, num := 0 }

/-- `ratelimit_test` at monotonic time `now` (microseconds).  Models: /repo/src/util-ratelimit.c:55-81.
The sum `begin + interval` is a `uint64_t`. -/
def test (r : State) (now : Nat) : State × Res :=
  if r.interval = 0 ∨ r.burst = 0 then (r, .pass)
  else if r.begin_ = 0 ∨ (r.begin_ + r.interval) % 2 ^ 64 < now then ({ r with begin_ := now, num := 1 }, .pass)
  else if r.num < r.burst then
    ({ r with num := r.num + 1 }, if r.num + 1 = r.burst then .threshold else .pass)
  else (r, .exceeded)

/-- Calls at the given times. -/
def run (r : State) : List Nat → State × List Res
  | [] => (r, [])
  | t :: ts =>
    let (r1, o) := test r t
    let (r2, os) := run r1 ts
    (r2, o :: os)

theorem run_cons (r : State) (t : Nat) (ts : List Nat) :
    run r (t :: ts) = ((run (test r t).1 ts).1, (test r t).2 :: (run (test r t).1 ts).2) := rfl

theorem run_append (r : State) (a b : List Nat) :
    run r (a ++ b) = ((run (run r a).1 b).1, (run r a).2 ++ (run (run r a).1 b).2) := by
  induction a generalizing r with
  | nil => rfl
  | cons t a ih => simp only [List.cons_append, run_cons, ih]

theorem run_length (r : State) (a : List Nat) : (run r a).2.length = a.length := by
  induction a generalizing r with
  | nil => rfl
  | cons t a ih => simp only [run_cons, List.length_cons, ih]

/-- The result lets the message through. -/
def Res.allowed : Res → Bool
  | .exceeded => false
  | _ => true

theorem test_params (r : State) (t : Nat) : (test r t).1.interval = r.interval ∧ (test r t).1.burst = r.burst := by
  unfold test
  split
  · exact ⟨rfl, rfl⟩
  · split
    · exact ⟨rfl, rfl⟩
    · split <;> exact ⟨rfl, rfl⟩

theorem run_params (r : State) (ts : List Nat) : (run r ts).1.interval = r.interval ∧ (run r ts).1.burst = r.burst := by
  induction ts generalizing r with
  | nil => exact ⟨rfl, rfl⟩
  | cons t ts ih =>
    rw [run_cons]
    obtain ⟨h1, h2⟩ := ih (test r t).1
    obtain ⟨h3, h4⟩ := test_params r t
    exact ⟨h1.trans h3, h2.trans h4⟩

/-- The start of the current window: the time of the last call more than `interval` after the previous start. -/
def windowStart (interval : Nat) : List Nat → Option Nat → Option Nat
  | [], w => w
  | t :: ts, none => windowStart interval ts (some t)
  | t :: ts, some b => windowStart interval ts (if b + interval < t then some t else some b)

/-- The state knows the start of the window. -/
theorem begin_is_windowStart (r : State) (ts : List Nat) (hi : 0 < r.interval) (hb : 0 < r.burst)
    (w : Option Nat) (hw : r.begin_ = w.getD 0) (hw0 : ∀ b, w = some b → 0 < b ∧ b + r.interval < 2 ^ 64)
    (ht : ∀ t ∈ ts, 0 < t ∧ t + r.interval < 2 ^ 64) :
    (run r ts).1.begin_ = (windowStart r.interval ts w).getD 0 := by
  induction ts generalizing r w with
  | nil => exact hw
  | cons t ts ih =>
    rw [run_cons]
    obtain ⟨p1, p2⟩ := test_params r t
    have ht0 := ht t (by simp)
    have step : ∀ w' : Option Nat, (test r t).1.begin_ = w'.getD 0 → (∀ b, w' = some b → 0 < b ∧ b + r.interval < 2 ^ 64) →
        (run (test r t).1 ts).1.begin_ = (windowStart r.interval ts w').getD 0 := by
      intro w' e1 e2
      have := ih (test r t).1 (by omega) (by omega) w' e1 (by rw [p1]; exact e2)
        (by rw [p1]; exact fun t ht' => ht t (by simp [ht']))
      rwa [p1] at this
    cases w with
    | none =>
      simp only [Option.getD_none] at hw
      apply step (some t)
      · unfold test; rw [if_neg (by omega), if_pos (Or.inl hw)]; rfl
      · rintro b ⟨⟩; exact ht0
    | some b =>
      have hb0 := hw0 b rfl
      simp only [Option.getD_some] at hw
      simp only [windowStart]
      have hmod : (r.begin_ + r.interval) % 2 ^ 64 = r.begin_ + r.interval := Nat.mod_eq_of_lt (by omega)
      apply step
      · unfold test
        rw [if_neg (by omega)]
        by_cases hlt : b + r.interval < t
        · rw [if_pos (Or.inr (by rw [hmod]; omega)), if_pos hlt]; rfl
        · rw [if_neg (by rw [hmod]; omega), if_neg hlt]
          split <;> exact hw
      · split
        · rintro b' ⟨⟩; exact ht0
        · rintro b' ⟨⟩; exact hb0

/-- Calls inside a window that already has `n` calls. -/
theorem within (r : State) (ts : List Nat) (hi : 0 < r.interval) (hb : 0 < r.begin_)
    (hov : r.begin_ + r.interval < 2 ^ 64) (hn : 1 ≤ r.num) (hn' : r.num ≤ r.burst)
    (ht : ∀ t ∈ ts, t ≤ r.begin_ + r.interval) :
    ∀ (i : Nat) (h : i < ts.length), (run r ts).2[i]? = some
      (if r.num + i + 1 < r.burst then Res.pass else if r.num + i + 1 = r.burst then .threshold else .exceeded) := by
  induction ts generalizing r with
  | nil => intro i h; simp at h
  | cons t ts ih =>
    intro i h
    have ht0 := ht t (by simp)
    have hmod : (r.begin_ + r.interval) % 2 ^ 64 = r.begin_ + r.interval := Nat.mod_eq_of_lt (by omega)
    rw [run_cons]
    unfold test
    rw [if_neg (by omega), if_neg (by rw [hmod]; omega)]
    by_cases hlt : r.num < r.burst
    · rw [if_pos hlt]
      cases i with
      | zero =>
        simp only [List.getElem?_cons_zero, Nat.add_zero]
        congr 1
        split <;> split <;> (try split) <;> first | rfl | omega
      | succ i =>
        simp only [List.getElem?_cons_succ]
        rw [ih { r with num := r.num + 1 } hi hb hov (by simp) (by simp only; omega)
          (fun t ht' => ht t (by simp [ht'])) i (by simpa using h)]
        simp only
        congr 1
        have : r.num + 1 + i + 1 = r.num + (i + 1) + 1 := by omega
        rw [this]
    · rw [if_neg hlt]
      cases i with
      | zero =>
        simp only [List.getElem?_cons_zero, Nat.add_zero]
        rw [if_neg (by omega), if_neg (by omega)]
      | succ i =>
        simp only [List.getElem?_cons_succ]
        rw [ih r hi hb hov hn hn' (fun t ht' => ht t (by simp [ht'])) i (by simpa using h)]
        congr 1
        rw [if_neg (by omega), if_neg (by omega), if_neg (by omega), if_neg (by omega)]

/-- **C26, one window.**  Take any history `before` and a call at `t` that is the first one ever or more than `interval`
after the start of the current window.  That call passes, and among it and the calls `ts` that follow within
`interval`, exactly those numbered below `burst` pass, number `burst` is the threshold and all later ones exceed. -/
theorem window_results (interval burst : Nat) (hi : 0 < interval) (hb : 0 < burst) (before : List Nat) (t : Nat) (ts : List Nat)
    (hb4 : ∀ x ∈ before, 0 < x ∧ x + interval < 2 ^ 64) (h0 : 0 < t) (hov : t + interval < 2 ^ 64)
    (hnew : ∀ b, windowStart interval before none = some b → b + interval < t)
    (ht : ∀ x ∈ ts, x ≤ t + interval) :
    ∀ i, i ≤ ts.length →
      (run (init interval burst) (before ++ t :: ts)).2[before.length + i]? = some
        (if i = 0 ∨ i + 1 < burst then Res.pass else if i + 1 = burst then .threshold else .exceeded) := by
  intro i hlen
  rw [run_append]
  simp only
  have hl := run_length (init interval burst) before
  rw [List.getElem?_append_right (by omega), hl, Nat.add_sub_cancel_left]
  have hp := run_params (init interval burst) before
  have hbeg := begin_is_windowStart (init interval burst) before hi hb none rfl (by simp) hb4
  generalize (run (init interval burst) before).1 = r at hp hbeg
  obtain ⟨hp1, hp2⟩ := hp
  simp only [init] at hp1 hp2 hbeg
  rw [run_cons]
  have htest : test r t = ({ r with begin_ := t, num := 1 }, .pass) := by
    unfold test
    rw [if_neg (by omega)]
    rw [if_pos]
    cases hw : windowStart interval before none with
    | none => rw [hw] at hbeg; exact Or.inl hbeg
    | some b =>
      rw [hw] at hbeg
      simp only [Option.getD_some] at hbeg
      have := hnew b hw
      right
      rw [Nat.mod_eq_of_lt (by omega)]; omega
  rw [htest]
  cases i with
  | zero => simp
  | succ i =>
    simp only [List.getElem?_cons_succ]
    have := within { r with begin_ := t, num := 1 } ts (by simp only; omega) h0 (by simp only; omega) (by simp) (by simp only; omega)
      (by simp only; rw [hp1]; exact ht) i (by omega)
    rw [this]
    simp only [hp2]
    congr 1
    have e : 1 + i + 1 = i + 1 + 1 := by omega
    rw [e]
    simp

theorem num_le (r : State) (t : Nat) (h : r.num ≤ r.burst) : (test r t).1.num ≤ (test r t).1.burst := by
  unfold test
  split
  · exact h
  · split
    · simp only; omega
    · split
      · simp only; omega
      · exact h

theorem run_num_le (r : State) (ts : List Nat) (h : r.num ≤ r.burst) : (run r ts).1.num ≤ (run r ts).1.burst := by
  induction ts generalizing r with
  | nil => exact h
  | cons t ts ih => rw [run_cons]; exact ih _ (num_le r t h)

/-- Number of messages let through. -/
def allowedIn (os : List Res) : Nat := (os.filter Res.allowed).length

/-- Inside a window at most `burst - num` more are let through. -/
theorem within_bound (r : State) (ts : List Nat) (hi : 0 < r.interval) (hbu : 0 < r.burst) (hb : 0 < r.begin_)
    (hov : r.begin_ + r.interval < 2 ^ 64) (hn' : r.num ≤ r.burst)
    (ht : ∀ t ∈ ts, t ≤ r.begin_ + r.interval) : allowedIn (run r ts).2 + r.num ≤ r.burst := by
  induction ts generalizing r with
  | nil => simpa [run, allowedIn] using hn'
  | cons t ts ih =>
    have ht0 := ht t (by simp)
    have hmod : (r.begin_ + r.interval) % 2 ^ 64 = r.begin_ + r.interval := Nat.mod_eq_of_lt (by omega)
    rw [run_cons]
    unfold test
    rw [if_neg (by omega), if_neg (by rw [hmod]; omega)]
    by_cases hlt : r.num < r.burst
    · rw [if_pos hlt]
      have := ih { r with num := r.num + 1 } hi hbu hb hov (by simp only; omega) (fun t ht' => ht t (by simp [ht']))
      simp only at this ⊢
      have hc : ∀ (o : Res) os, allowedIn (o :: os) ≤ allowedIn os + 1 := by
        intro o os; unfold allowedIn
        rw [List.filter_cons]; split <;> simp
      have := hc (if r.num + 1 = r.burst then Res.threshold else Res.pass) (run { r with num := r.num + 1 } ts).2
      omega
    · rw [if_neg hlt]
      have := ih r hi hbu hb hov hn' (fun t ht' => ht t (by simp [ht']))
      have e : allowedIn (Res.exceeded :: (run r ts).2) = allowedIn (run r ts).2 := by
        simp [allowedIn, Res.allowed]
      simp only [e]
      exact this

/-- **C26, any span of time.**  Whatever happened before, of calls within one `interval`, wherever it starts, at most twice
`burst` are let through. -/
theorem at_most_two_bursts (interval burst : Nat) (hi : 0 < interval) (hb : 0 < burst) (before ts : List Nat) (a : Nat)
    (h0 : 0 < a) (hov : a + interval + interval < 2 ^ 64) (ht : ∀ t ∈ ts, a ≤ t ∧ t ≤ a + interval) :
    allowedIn ((run (init interval burst) (before ++ ts)).2.drop before.length) ≤ 2 * burst := by
  rw [run_append]
  have hl := run_length (init interval burst) before
  simp only
  rw [List.drop_append_of_le_length (by omega), List.drop_of_length_le (by omega), List.nil_append]
  have hp := run_params (init interval burst) before
  have hn := run_num_le (init interval burst) before (by simp [init])
  generalize (run (init interval burst) before).1 = r at hp hn
  obtain ⟨hp1, hp2⟩ := hp
  simp only [init] at hp1 hp2
  have hc : ∀ (o : Res) os, allowedIn (o :: os) ≤ allowedIn os + 1 := by
    intro o os; unfold allowedIn
    rw [List.filter_cons]; split <;> simp
  -- either still in an old window or a new one starts
  suffices allowedIn (run r ts).2 + r.num ≤ 2 * burst by omega
  clear hl
  induction ts generalizing r with
  | nil =>
    have : allowedIn (run r []).2 = 0 := rfl
    omega
  | cons t ts ih =>
    have ht0 := ht t (by simp)
    have hrest : ∀ t ∈ ts, a ≤ t ∧ t ≤ a + interval := fun t ht' => ht t (by simp [ht'])
    rw [run_cons]
    unfold test
    rw [if_neg (by omega)]
    split
    · have := within_bound { r with begin_ := t, num := 1 } ts (by simp only; omega) (by simp only; omega) (by simp only; omega)
        (by simp only; omega) (by simp only; omega) (by intro x hx; have := hrest x hx; simp only; omega)
      simp only at this ⊢
      have := hc .pass (run { r with begin_ := t, num := 1 } ts).2
      omega
    · split
      · have := ih hrest { r with num := r.num + 1 } (by simp only; omega) hp1 hp2
        simp only at this ⊢
        have := hc (if r.num + 1 = r.burst then Res.threshold else Res.pass) (run { r with num := r.num + 1 } ts).2
        omega
      · have := ih hrest r hn hp1 hp2
        have e : allowedIn (Res.exceeded :: (run r ts).2) = allowedIn (run r ts).2 := by simp [allowedIn, Res.allowed]
        simp only [e]
        exact this

/-- Without interval or burst nothing is limited. -/
theorem disabled_passes (interval burst : Nat) (h : interval = 0 ∨ burst = 0) (ts : List Nat) :
    ∀ o ∈ (run (init interval burst) ts).2, o = .pass := by
  induction ts with
  | nil => simp [run]
  | cons t ts ih =>
    rw [run_cons]
    have : test (init interval burst) t = (init interval burst, .pass) := by
      unfold test; rw [if_pos (by simpa [init] using h)]
    rw [this]
    intro o ho
    rcases List.mem_cons.mp ho with rfl | ho
    · rfl
    · exact ih o ho

/-- Non-vacuity: burst 3 in 100us, a new window after. -/
example : (run (init 100 3) [1000, 1001, 1050, 1060, 1100, 1101, 1102]).2 =
    [.pass, .pass, .threshold, .exceeded, .exceeded, .pass, .pass] := by decide
example : windowStart 100 [1000, 1001, 1050, 1060, 1100] none = some 1000 := by decide
/-- A burst of one never reports a threshold: the call that opens the window passes. -/
example : (run (init 100 1) [1000, 1001]).2 = [.pass, .exceeded] := by decide

end Libinput.Ratelimit
