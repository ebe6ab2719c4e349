import Verif.Pad.Model
/-
What is said about tablet pads.
-/
namespace Libinput.Pad

/-! ### Buttons and keys -/

/-- What an event does to the buttons and keys that are down. -/
def tell (h : Map → Bool) : Ev → Map → Bool
  | .button n p _ _ => fun t => if t = .button n then p else h t
  | .key k p => fun t => if t = .key k then p else h t
  | _ => h

/-- The buttons and keys that are down, as far as the events tell. -/
def held (es : List Ev) : Map → Bool := es.foldl tell (fun _ => false)

/-- Everything is pressed only while up, and released only while down. -/
def Alternating (es : List Ev) : Prop :=
  ∀ pre e post, es = pre ++ e :: post → match e with
    | .button n p _ _ => held pre (.button n) = !p
    | .key k p => held pre (.key k) = !p
    | _ => True

/-- What the kernel has said last about its keys.  Nothing is heard of a suspended pad.  Whatever is down is taken for up when the pad
is suspended or disabled, until it is pressed anew. -/
structure Keys where
  opened : Bool := true
  disabled : Bool := false
  down : Nat → Bool := fun _ => false

def hearsKey (d : Nat → Bool) : KEv → Nat → Bool
  | .key c v => if v = 2 then d else fun c' => if c' = c then v != 0 else d c'
  | _ => d

def Keys.step (k : Keys) : Op → Keys
  | .frame evs => if k.opened then { k with down := evs.foldl hearsKey k.down } else k
  | .suspend => if k.opened then { k with opened := false, down := fun _ => false } else k
  | .resume _ => { k with opened := true }
  | .setDisabled true => if k.disabled then k else { k with disabled := true, down := fun _ => false }
  | .setDisabled false => { k with disabled := false }
  | _ => k

/-! ### Mode groups -/

/-- The group and the mode an event carries. -/
def Ev.groupMode : Ev → Option (Nat × Nat)
  | .button _ _ g m | .ring _ _ g m | .strip _ _ g m => some (g, m)
  | .key _ _ => none

/-- The event belongs to a group of the pad that has the button, ring or strip, and its mode is one of the group's. -/
def Fits (cfg : Cfg) (gs : List Group) : Ev → Prop
  | .button n _ g m => ∃ x ∈ gs, x.index = g ∧ x.hasButton cfg n = true ∧ m < x.numModes
  | .ring n _ g m => ∃ x ∈ gs, x.index = g ∧ x.hasRing cfg n = true ∧ m < x.numModes
  | .strip n _ g m => ∃ x ∈ gs, x.index = g ∧ x.hasStrip cfg n = true ∧ m < x.numModes
  | .key k _ => k ∈ [576, 579, 632] ∧ cfg.keys k = true

/-- The last mode a client was told for a group. -/
def lastMode (start : Nat → Nat) (es : List Ev) : Nat → Nat :=
  es.foldl (fun cur e => match e.groupMode with | some (g, m) => (fun i => if i = g then m else cur i) | none => cur) start

/-- LED number `m` of a group is the first that is lit. -/
def FirstLit (lit : Nat → Option Nat) (n m : Nat) : Prop := m < n ∧ (∃ b, lit m = some b ∧ b ≠ 0) ∧ ∀ j < m, lit j = some 0

/-- Whether an event is the press of a button that switches the modes of its group. -/
def isSwitch (cfg : Cfg) (gs : List Group) : Ev → Prop
  | .button n true g _ => ∃ x ∈ gs, x.index = g ∧ x.isToggle cfg n = true
  | _ => False

/-- The mode of an event `e` after the modes `cur`, with the LEDs `lit`: the first LED that is lit if the event switches modes (or the
old mode, if there is none), the old mode otherwise. -/
def ModeRight (cfg : Cfg) (gs : List Group) (lit : Lit) (cur : Nat → Nat) (e : Ev) : Prop :=
  ∀ g m, e.groupMode = some (g, m) →
    (isSwitch cfg gs e → ∃ x ∈ gs, x.index = g ∧ (FirstLit (lit g) x.leds m ∨ (∀ j, ¬ FirstLit (lit g) x.leds j) ∧ m = cur g)) ∧
    (¬ isSwitch cfg gs e → m = cur g)

/-- The LEDs after a history. -/
def litAfter (lit : Lit) (ops : List Op) : Lit := ops.foldl (fun l op => match op with | .leds l' => l' | _ => l) lit

/-- There is a group for everything the pad has. -/
structure Covered (cfg : Cfg) (gs : List Group) : Prop where
  buttons : ∀ n < cfg.numButtons, ∃ g ∈ gs, g.hasButton cfg n = true
  rings : ∀ n < cfg.numRings, ∃ g ∈ gs, g.hasRing cfg n = true
  strips : ∀ n < cfg.numStrips, ∃ g ∈ gs, g.hasStrip cfg n = true

/-! ### Rings and strips -/

/-- What the kernel can send: keys that exist, and axes of the device. -/
def Possible (cfg : Cfg) : Op → Prop
  | .frame evs => ∀ e ∈ evs, match e with
    | .abs a _ => cfg.has a = true
    | .key c _ => 1 ≤ c ∧ c < 768
  | _ => True

/-- No pad has a second ring or strip without a first. -/
def Paired (cfg : Cfg) : Prop := (cfg.has .ring2 = true → cfg.has .ring1 = true) ∧ (cfg.has .strip2 = true → cfg.has .strip1 = true)

/-- What the kernel and the client have said.  `misc` is whether there was an `ABS_MISC` event that no ring or strip was reported
after.  `left` is whether the pad is used left-handed: what the client wants (`want`), as soon as no key is down. -/
structure Seen where
  val : Abs → Int
  misc : Bool := false
  want : Bool := false
  left : Bool := false
  keys : Keys := {}

/-- The frame has an event of this axis. -/
def moved (evs : List KEv) (a : Abs) : Bool := evs.any (fun e => match e with | .abs b _ => b == a | _ => false)

def hearsAbs (val : Abs → Int) : KEv → Abs → Int
  | .abs a v => fun b => if b = a then v else val b
  | _ => val

/-- The axes of rings and strips, in the order they are reported in. -/
def axes : List Abs := [.ring1, .ring2, .strip1, .strip2]

def Seen.hears (v : Seen) : Op → Seen
  | .frame evs =>
    if v.keys.opened then
      { v with val := evs.foldl hearsAbs v.val, misc := if axes.any (moved evs) then false else v.misc || moved evs .misc }
    else v
  | .resume raw => if v.keys.opened then v else { v with val := raw }
  | .setLeft b => { v with want := b }
  | _ => v

def Seen.step (v : Seen) (op : Op) : Seen :=
  let w := { v.hears op with keys := v.keys.step op }
  { w with left := if (List.range 768).any w.keys.down then w.left else w.want }

/-- Which ring or strip an event is about, and the position it tells. -/
def axisOf : Ev → Option (Abs × Pos)
  | .ring 0 p _ _ => some (.ring1, p)
  | .ring 1 p _ _ => some (.ring2, p)
  | .strip 0 p _ _ => some (.strip1, p)
  | .strip 1 p _ _ => some (.strip2, p)
  | _ => none

end Libinput.Pad
