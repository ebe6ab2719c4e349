import Verif.Motion.Spec
/-
What is expected of touches that are taken for palms.
-/
namespace Libinput.Motion

/-- The event is, at least in part, because of the movement of the touch `i`. -/
def Out.by (i : Nat) : Out → Prop
  | .motion w => i ∈ w
  | .edge j _ _ => j = i
  | _ => False

instance (i : Nat) (o : Out) : Decidable (o.by i) := by cases o <;> unfold Out.by <;> exact inferInstance

/-- The touch `i`, which is down, stays down. -/
def StaysDown (i : Nat) : Op → Prop
  | .frame _ vs _ _ => ∃ v, vs[i]? = some v ∧ v.st = .update
  | .clear .. | .arbitrate .. => False
  | _ => True

/-- The touch `i` is reported in a frame at this time. -/
def Op.about (i : Nat) (op : Op) (now : Nat) (v : View) : Prop := ∃ vs g hov, op = .frame now vs g hov ∧ vs[i]? = some v

/-- Keyboard and trackpoint events, and their timers, come no earlier than this. -/
def NotBefore (T : Nat) : Op → Prop
  | .key now _ _ _ | .keyTimeout now | .trackpoint now => T ≤ now
  | _ => True

/-- A point in one of the zones where palms rest: left, right and above.  (The touchpad is `c`; it may have no such
zones.) -/
def PalmZone (c : Config) (p : Point) : Prop := p.x < c.palmLeft ∨ c.palmRight < p.x ∨ p.y < c.palmUpper

instance (c : Config) (p : Point) : Decidable (PalmZone c p) := by unfold PalmZone; exact inferInstance

/-- The directions of the compass, clockwise from north: 0 is north, 2 is east, 4 is south and 6 is west.  A finger that
landed in a zone leaves it when it moves in one direction or two adjacent ones, but neither is along the edge: not north or
south for the zones on the left and on the right; south, south-east or south-west for the zone above. -/
def Leaves (c : Config) (first : Point) (dirs : Nat) : Prop :=
  (∃ d, d < 8 ∧ dirs.testBit d = true) ∧
    ∀ d, d < 8 → dirs.testBit d = true →
      if first.x < c.palmLeft ∨ c.palmRight < first.x then d ≠ 0 ∧ d ≠ 4 else first.y < c.palmUpper ∧ (d = 3 ∨ d = 4 ∨ d = 5)

end Libinput.Motion
