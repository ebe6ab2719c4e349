import Verif.Accel.Model
/-
Specification of the pointer acceleration, in terms of the movements a device made: which of them count for the
velocity, and within which limits a movement is sped up or slowed down.
-/
namespace Libinput.Accel

/-- A movement a filter was given, when, and its directions (bits).  The beginning of a touch (a restart) is an `Ev`
without movement that has all directions. -/
structure Ev where
  d : V
  time : Nat
  dir : Nat

/-- What happened, the newest first. -/
abbrev Hist := List Ev

/-- The `k`-th newest one; before the first one there is nothing: time 0 and no direction. -/
def Hist.nth (h : Hist) (k : Nat) : Ev := h.getD k ⟨⟨0, 0⟩, 0, 0⟩

/-- The way moved since the `k`-th newest one, itself not counted. -/
noncomputable def Hist.since : Hist → Nat → V
  | _, 0 => ⟨0, 0⟩
  | [], _ + 1 => ⟨0, 0⟩
  | e :: h, k + 1 => let v := Hist.since h k; ⟨v.x + e.d.x, v.y + e.d.y⟩

/-- How far that is. -/
noncomputable def V.length (d : V) : ℝ := Real.sqrt (d.x ^ 2 + d.y ^ 2)

/-- The directions the `k` newest ones and the one before them have in common. -/
def Hist.common (h : Hist) : Nat → Nat
  | 0 => (h.nth 0).dir
  | k + 1 => h.common k &&& (h.nth (k + 1)).dir

/-- How a device measures time: the µs from one movement to a later one, with the latter one counted.  On devices whose
timestamps are not reliable, short times are taken as a fixed one. -/
structure Clock where
  short : Nat
  fixed : Nat

/-- The time between two movements. -/
def Clock.between (c : Clock) (older newer : Nat) : Nat :=
  if newer - older + 1 < c.short then c.fixed else newer - older + 1

/-- The velocity since the `k`-th newest movement, in units per µs. -/
noncomputable def Hist.velocity (h : Hist) (c : Clock) (now k : Nat) : ℝ :=
  (h.since k).length / (c.between (h.nth k).time now : ℝ)

/-- The `k`-th newest one was at most one second ago. -/
def Hist.recent (h : Hist) (now k : Nat) : Prop := (h.nth k).time ≤ now ∧ now ≤ (h.nth k).time + 1000000

/-- The velocity since the `j`-th newest one is the one the velocity since the `k`-th newest one is compared with: the first one
that is not 0, the velocity of the newest movement itself not counted. -/
def Hist.reference (h : Hist) (c : Clock) (now k j : Nat) : Prop :=
  2 ≤ j ∧ j < k ∧ h.velocity c now j ≠ 0 ∧ ∀ i, 2 ≤ i → i < j → h.velocity c now i = 0

/-- The velocity since the `k`-th newest one differs too much, by more than one unit per ms. -/
def Hist.differs (h : Hist) (c : Clock) (now k : Nat) : Prop :=
  ∃ j, h.reference c now k j ∧ |h.velocity c now j - h.velocity c now k| > 1 / 1000

/-- The `k`-th newest one and all newer ones can be counted together: they are recent, have a direction in common and
their velocities do not differ too much. -/
def Hist.alike (h : Hist) (c : Clock) (now k : Nat) : Prop :=
  ∀ j, 1 ≤ j → j ≤ k → h.recent now j ∧ h.common j ≠ 0 ∧ ¬ h.differs c now j

/-- `v` is the velocity of the newest movement (at `now`), of which `n` are remembered. -/
inductive IsVelocity (h : Hist) (c : Clock) (n now : Nat) (v : ℝ) : Prop where
  /-- The clock goes backwards. -/
  | backwards : now < (h.nth 1).time → v = 0 → IsVelocity h c n now v
  /-- After a pause of more than a second, the movement counts as one of a second. -/
  | paused : (h.nth 1).time + 1000000 < now → v = (h.since 1).length / 1000001 → IsVelocity h c n now v
  /-- After a turn, it is the velocity of the movement itself. -/
  | turned : h.recent now 1 → h.common 1 = 0 → v = h.velocity c now 1 → IsVelocity h c n now v
  /-- Otherwise it is the velocity since the oldest movement that is recent, in a similar direction and of a similar velocity. -/
  | since (k : Nat) : 1 ≤ k → k < n → h.alike c now k → (k + 1 < n → ¬ h.alike c now (k + 1)) →
      v = h.velocity c now k → IsVelocity h c n now v

/-! ## What a filter was given -/

/-- The movement as the velocity is measured on it: in units of a 1000 dpi mouse, or of the device. -/
noncomputable def Hw.seen (hw : Hw) (d : V) : V :=
  match hw.kind with
  | .mouse | .x230 => ⟨1000 / hw.dpi * d.x, 1000 / hw.dpi * d.y⟩
  | .trackpoint => ⟨hw.multiplier * d.x, hw.multiplier * d.y⟩
  | _ => d

/-- The history after one more operation.  A restart is the beginning of a new one. -/
noncomputable def Hw.after (hw : Hw) (h : Hist) : Op → Hist
  | .move _ d t => ⟨hw.seen d, t, direction (hw.seen d)⟩ :: h
  | .restart t => [⟨⟨0, 0⟩, t, 0xff⟩]
  | .setSpeed _ => h

/-- The history since the last restart. -/
noncomputable def Hw.hist (hw : Hw) (ops : List Op) : Hist := ops.foldl hw.after []

/-- How many movements a device remembers, and its clock: Bluetooth touchpads and trackpoints have unreliable timestamps. -/
def Hw.memory (hw : Hw) : Nat := if hw.averaging then 16 else 2
def Hw.clock (hw : Hw) : Clock :=
  match hw.kind with
  | .touchpad true => ⟨50000, 10000⟩
  | .trackpoint => ⟨10000, 10000⟩
  | _ => ⟨0, 0⟩

/-- The speed setting after the operations. -/
def speedAfter (s : ℝ) : List Op → ℝ
  | [] => s
  | .setSpeed s' :: ops => speedAfter s' ops
  | _ :: ops => speedAfter s ops

def Op.isMove : Op → Bool
  | .move .. => true
  | _ => false

/-- The operations without the changes of the speed setting. -/
def withoutSettings (ops : List Op) : List Op := ops.filter (fun o => match o with | .setSpeed _ => false | _ => true)

/-- `v` is the velocity of the last movement among the operations; 0 before the first one. -/
def Hw.IsLast (hw : Hw) (ops : List Op) (v : ℝ) : Prop :=
  (v = 0 ∧ ∀ op ∈ ops, op.isMove = false) ∨
  ∃ pre c d t post, ops = pre ++ .move c d t :: post ∧ (∀ op ∈ post, op.isMove = false) ∧
    IsVelocity (hw.hist (pre ++ [.move c d t])) hw.clock hw.memory t v

/-! ## How a movement is scaled -/

/-- The movement that is scaled: in units of a 1000 dpi mouse, except that the flat filters and mice with a low resolution
keep the units of the device.  96/25.4 * 2.5: a pen moves the pointer by 2.5 pixels of a 96 dpi screen per pixel. -/
noncomputable def Hw.natural (hw : Hw) (cursor : Bool) (d : V) : V :=
  match hw.kind with
  | .mouse | .x230 | .touchpad _ => ⟨1000 / hw.dpi * d.x, 1000 / hw.dpi * d.y⟩
  | .trackpoint => ⟨hw.multiplier * d.x, hw.multiplier * d.y⟩
  | .lowDpi | .flat | .touchpadFlat => d
  | .tablet =>
    if cursor then ⟨1000 / (25.4 * hw.xres) * d.x, 1000 / (25.4 * hw.yres) * d.y⟩
    else ⟨96 / 25.4 * 2.5 / hw.xres * d.x, 96 / 25.4 * 2.5 / hw.yres * d.y⟩

/-- The lowest factor at a speed setting `s`.  `g`: what the setting means on touchpads and trackpoints. -/
noncomputable def Hw.lowest (hw : Hw) (g : ℝ → ℝ) (s : ℝ) : ℝ :=
  match hw.kind with
  | .mouse | .lowDpi => 0.3
  | .x230 => 0
  | .touchpad _ => 0.3 * g s * 0.2968
  | .trackpoint => 0.3 * g s
  | .flat => max 0.005 (1 + s)
  | .touchpadFlat => 0.2968 * max 0.005 (1 + s)
  | .tablet => 1 + s

/-- The highest factor at a speed setting `s`. -/
noncomputable def Hw.highest (hw : Hw) (g : ℝ → ℝ) (s : ℝ) : ℝ :=
  match hw.kind with
  | .mouse => 2 + 1.5 * s
  | .lowDpi => (2 + 1.5 * s) * 1000 / hw.dpi
  | .x230 => (2 + 1.5 * s) * 0.4
  | .touchpad _ => 4.8 * g s * 0.2968
  | .trackpoint => 10.06254 * g s
  | .flat => max 0.005 (1 + s)
  | .touchpadFlat => 0.2968 * max 0.005 (1 + s)
  | .tablet => 1 + s

/-- The velocity `v` is a medium one: neither slow nor fast.  On mice, from 0.07 units/ms to a limit that the setting
moves from 0.65 down to 0.2; the unit is that of a 1000 dpi mouse, of mice with a low resolution that of the device.  On touchpads, from 7
mm/s to 130 mm/s. -/
def Hw.medium (hw : Hw) (s v : ℝ) : Prop :=
  match hw.kind with
  | .mouse => 0.07 ≤ v * 1000 * (1000 / hw.dpi) ∧ v * 1000 * (1000 / hw.dpi) ≤ max 0.2 (0.4 - 0.25 * s)
  | .lowDpi => 0.07 ≤ v * 1000 ∧ v * 1000 * (1000 / hw.dpi) ≤ max 0.2 (0.4 - 0.25 * s)
  | .touchpad _ => 7 ≤ v * 1000000 / hw.dpi * 25.4 ∧ v * 1000000 / hw.dpi * 25.4 ≤ 130
  | _ => False

/-- The factor at medium velocities. -/
noncomputable def Hw.plain (hw : Hw) (g : ℝ → ℝ) (s : ℝ) : ℝ :=
  match hw.kind with
  | .touchpad _ => 0.9 * g s * 0.2968
  | _ => min 1 (hw.highest g s)

/-- The meaning of the speed setting on touchpads and trackpoints: about 1/20 to 5, with 1 in the middle. -/
structure IsCurve (g : ℝ → ℝ) : Prop where
  slow : g (-1) = 0.04762636
  middle : 0.98 < g 0 ∧ g 0 < 1.02
  fast : 4.9 < g 1 ∧ g 1 < 5.1
  rises : ∀ a b, -1 ≤ a → a < b → g a < g b

/-- A device as libinput sets it up: the resolution is positive, and below 1000 dpi for the filter made for that. -/
structure Hw.Valid (hw : Hw) : Prop where
  dpi : 0 < hw.dpi
  low : hw.kind = .lowDpi → hw.dpi < 1000
  multiplier : 0 < hw.multiplier
  xres : 0 < hw.xres
  yres : 0 < hw.yres

/-- A speed setting libinput accepts. -/
def IsSpeed (s : ℝ) : Prop := -1 ≤ s ∧ s ≤ 1

/-- How the factor depends on the speed setting, the velocity and the velocity of the movement before: a higher
setting or a higher velocity never makes the factor smaller. -/
structure Rising (F : ℝ → ℝ → ℝ → ℝ) : Prop where
  rising : ∀ s s' v v' l l', IsSpeed s → IsSpeed s' → s ≤ s' → 0 ≤ v → v ≤ v' → 0 ≤ l → l ≤ l' → F s v l ≤ F s' v' l'

end Libinput.Accel
