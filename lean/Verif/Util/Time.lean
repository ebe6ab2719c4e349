/-
Time conversions, /repo/src/util-time.h.  `uint64_t` values are natural numbers below 2^64.
-/
namespace Libinput.Time

/-- `ns2us`.  Models: /repo/src/util-time.h:48-52. -/
def ns2us (ns : Nat) : Nat := ns / 1000

/-- `ms2us`.  Models: /repo/src/util-time.h:54-58. -/
def ms2us (ms : Nat) : Nat := ms * 1000 % 2 ^ 64

/-- `s2us`.  Models: /repo/src/util-time.h:60-64. -/
def s2us (s : Nat) : Nat := ms2us (s * 1000 % 2 ^ 64)

/-- `us2ms`.  Models: /repo/src/util-time.h:66-70. -/
def us2ms (us : Nat) : Nat := us / 1000 % 2 ^ 32

/-- Models: `struct timeval`. -/
structure Timeval where
  sec : Nat
  usec : Nat
deriving Repr, DecidableEq

/-- `tv2us`.  Models: /repo/src/util-time.h:72-76. -/
def tv2us (tv : Timeval) : Nat := (s2us tv.sec + tv.usec) % 2 ^ 64

/-- `us2tv`.  Models: /repo/src/util-time.h:78-87. -/
def us2tv (time : Nat) : Timeval := { sec := time / ms2us 1000, usec := time % ms2us 1000 }

/-- The table in `to_human_time`: unit, factor, limit.  Models: /repo/src/util-time.h:101-112. -/
def conversion : List (String × Nat × Nat) :=
  [("us", 1, 5000), ("ms", 1000, 5000), ("s", 1000, 120), ("min", 60, 120), ("h", 60, 48), ("d", 24, 2 ^ 64 - 1)]

/-- The loop of `to_human_time`; `none` is the assertion at the end.  The result is stored as `unsigned int`.
Models: /repo/src/util-time.h:116-125. -/
def humanLoop : List (String × Nat × Nat) → Nat → Option (Nat × String)
  | [], _ => none
  | (unit, factor, limit) :: cs, value =>
    if value / factor < limit then some (value / factor % 2 ^ 32, unit)
    else humanLoop cs (value / factor)

/-- `to_human_time`.  Models: /repo/src/util-time.h:97-126. -/
def toHumanTime (us : Nat) : Option (Nat × String) := humanLoop conversion us

/-- **C27, timeval.**  Converting a timestamp to a timeval and back is the identity, and the timeval is normalised. -/
theorem timeval_round_trip (t : Nat) (h : t < 2 ^ 64) : tv2us (us2tv t) = t ∧ (us2tv t).usec < 1000000 ∧
    t = (us2tv t).sec * 1000000 + (us2tv t).usec := by
  have e : ms2us 1000 = 1000000 := by decide
  have e' : us2tv t = ⟨t / 1000000, t % 1000000⟩ := by unfold us2tv; rw [e]
  rw [e']
  refine ⟨?_, ?_, ?_⟩
  · have e2 : s2us (t / 1000000) = t / 1000000 * 1000000 := by unfold s2us ms2us; omega
    unfold tv2us
    simp only [e2]
    omega
  · simp only; omega
  · simp only; omega

/-- The other direction, for normalised timevals that fit. -/
theorem timeval_round_trip' (tv : Timeval) (h1 : tv.usec < 1000000) (h2 : tv.sec * 1000000 + tv.usec < 2 ^ 64) :
    us2tv (tv2us tv) = tv := by
  obtain ⟨s, u⟩ := tv
  simp only at h1 h2
  have e : tv2us ⟨s, u⟩ = s * 1000000 + u := by
    unfold tv2us s2us ms2us; simp only; omega
  have e' : ms2us 1000 = 1000000 := by decide
  unfold us2tv
  rw [e, e']
  rw [show (s * 1000000 + u) / 1000000 = s by omega, show (s * 1000000 + u) % 1000000 = u by omega]

/-- **C27, milliseconds.**  The millisecond value of a timestamp is its microseconds divided by 1000, modulo 2^32, so it is exact
below 2^32 ms and differences of close timestamps survive the wrap-around. -/
theorem us2ms_spec (t : Nat) :
    us2ms t < 2 ^ 32 ∧ (t < 2 ^ 32 * 1000 → us2ms t = t / 1000) ∧
    (∀ d, d < 2 ^ 32 → (us2ms (t + d * 1000) + 2 ^ 32 - us2ms t) % 2 ^ 32 = d) := by
  unfold us2ms
  refine ⟨Nat.mod_lt _ (by decide), ?_, ?_⟩
  · intro h; rw [Nat.mod_eq_of_lt (by omega)]
  · intro d hd
    omega

/-- Conversions to microseconds are exact as long as the result fits. -/
theorem to_us_exact : (∀ ms, ms * 1000 < 2 ^ 64 → ms2us ms = ms * 1000) ∧ (∀ s, s * 1000000 < 2 ^ 64 → s2us s = s * 1000000) := by
  constructor
  · intro ms h; exact Nat.mod_eq_of_lt h
  · intro s h; unfold s2us ms2us; omega

/-- Microseconds in a unit. -/
def unitUs : String → Nat
  | "us" => 1
  | "ms" => 1000
  | "s" => 1000000
  | "min" => 60000000
  | "h" => 3600000000
  | "d" => 86400000000
  | _ => 0

/-- **C27, human-readable times.**  Every 64-bit time has a human-readable form: the number is the time in the unit shown, rounded
down, it is not truncated, and the smallest unit with a number below its limit (5000 us, 5000 ms, 120 s, 120 min, 48 h) is used. -/
theorem human_time (us : Nat) (h : us < 2 ^ 64) : ∃ v u, toHumanTime us = some (v, u) ∧ 0 < unitUs u ∧
    v * unitUs u ≤ us ∧ us < (v + 1) * unitUs u ∧
    (u = "us" ∧ us < 5000 ∨ u = "ms" ∧ 5000 ≤ us ∧ us < 5000 * 1000 ∨ u = "s" ∧ 5000 * 1000 ≤ us ∧ us < 120 * 1000000 ∨
     u = "min" ∧ 120 * 1000000 ≤ us ∧ us < 120 * 60000000 ∨ u = "h" ∧ 120 * 60000000 ≤ us ∧ us < 48 * 3600000000 ∨
     u = "d" ∧ 48 * 3600000000 ≤ us) := by
  unfold toHumanTime conversion
  simp only [humanLoop]
  have u1 : unitUs "us" = 1 := by decide
  have u2 : unitUs "ms" = 1000 := by decide
  have u3 : unitUs "s" = 1000000 := by decide
  have u4 : unitUs "min" = 60000000 := by decide
  have u5 : unitUs "h" = 3600000000 := by decide
  have u6 : unitUs "d" = 86400000000 := by decide
  by_cases h1 : us / 1 < 5000
  · rw [if_pos h1]; refine ⟨_, _, rfl, ?_⟩; rw [u1]; refine ⟨by omega, by omega, by omega, Or.inl ⟨rfl, by omega⟩⟩
  rw [if_neg h1]
  by_cases h2 : us / 1 / 1000 < 5000
  · rw [if_pos h2]; refine ⟨_, _, rfl, ?_⟩; rw [u2]
    refine ⟨by omega, by omega, by omega, Or.inr (Or.inl ⟨rfl, by omega, by omega⟩)⟩
  rw [if_neg h2]
  by_cases h3 : us / 1 / 1000 / 1000 < 120
  · rw [if_pos h3]; refine ⟨_, _, rfl, ?_⟩; rw [u3]
    refine ⟨by omega, by omega, by omega, Or.inr (Or.inr (Or.inl ⟨rfl, by omega, by omega⟩))⟩
  rw [if_neg h3]
  by_cases h4 : us / 1 / 1000 / 1000 / 60 < 120
  · rw [if_pos h4]; refine ⟨_, _, rfl, ?_⟩; rw [u4]
    refine ⟨by omega, by omega, by omega, Or.inr (Or.inr (Or.inr (Or.inl ⟨rfl, by omega, by omega⟩)))⟩
  rw [if_neg h4]
  by_cases h5 : us / 1 / 1000 / 1000 / 60 / 60 < 48
  · rw [if_pos h5]; refine ⟨_, _, rfl, ?_⟩; rw [u5]
    refine ⟨by omega, by omega, by omega, Or.inr (Or.inr (Or.inr (Or.inr (Or.inl ⟨rfl, by omega, by omega⟩))))⟩
  rw [if_neg h5]
  rw [if_pos (by omega)]; refine ⟨_, _, rfl, ?_⟩; rw [u6]
  refine ⟨by omega, by omega, by omega, Or.inr (Or.inr (Or.inr (Or.inr (Or.inr ⟨rfl, by omega⟩))))⟩

example : us2tv 1234567890 = ⟨1234, 567890⟩ ∧ tv2us ⟨1234, 567890⟩ = 1234567890 ∧ us2ms (2 ^ 32 * 1000 + 5999) = 5 ∧
    toHumanTime 7300000000 = some (2, "h") := by decide

end Libinput.Time
