import Verif.Timer.Model
/-
Vocabulary for timers.  Histories are newest first.
-/
namespace Libinput.Timer.Spec
open Libinput.Timer

/-- When a timer is going to fire after a history: the time of the last set that was neither cancelled nor used up. -/
def armed : List Log → Nat → Option Nat
  | [], _ => none
  | .set i e :: t, id => if i = id then some e else armed t id
  | .cancel i :: t, id => if i = id then none else armed t id
  | .fire i _ :: t, id => if i = id then none else armed t id

/-- Time zero is no valid expiry and the last representable time is reserved. -/
def Act.Valid : Act → Prop
  | .set _ e => 0 < e ∧ e < UINT64_MAX
  | .cancel _ => True

/-- The clock has not yet run for 2^63 us (290000 years). -/
def Op.Valid : Op → Prop
  | .act a => Act.Valid a
  | .flush now => now < 2 ^ 63
  | .dispatch now => now < 2 ^ 63

/-- Callbacks only use valid expiries. -/
def Valid (cb : Callbacks) : Prop := ∀ id now h, now < 2 ^ 63 → ∀ a ∈ cb id now h, Act.Valid a

/-- Callbacks running at `now` set timers for later times only. -/
def Future (cb : Callbacks) : Prop := ∀ id now h i e, Act.set i e ∈ cb id now h → now < e

end Libinput.Timer.Spec
