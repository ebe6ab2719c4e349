import Verif.Motion.Spec
/-
A touchpad of 100 mm by 60 mm, for the concrete cases beside the theorems.
-/
namespace Libinput.Motion

def demoArith : Scroll.Arith Int :=
  { zero := 0, add := (· + ·), past := fun x => decide (x ≠ 0), pastLock := fun x => decide (5 ≤ x.natAbs), isZero := fun x => decide (x = 0) }

def demoConfig : Config :=
  { rx := 10, ry := 10, rightEdge := 930, bottomEdge := 530, palmLeft := 50, palmRight := 950, palmUpper := 0, palmPressure := some 130, palmSize := none, palmTool := false, monitorTrackpoint := true, thumbs := true, upperLine := 510, lowerLine := 550, thumbPressure := none, thumbSize := none, clickpad := true, gestures := true, numSlots := 5, arith := demoArith }

/-- A touch at a point. -/
def at_ (st : Touch.St) (x y : Int) : View := { st := st, dirty := true, raw := ⟨x, y⟩, pos := ⟨x, y⟩ }

/-- No touch. -/
def gone : View := { st := .none }

/-- `n` touches begin, 100 units apart. -/
def fingersAt (st : Touch.St) (y : Int) : Nat → List View
  | 0 => []
  | n + 1 => fingersAt st y n ++ [at_ st (200 + 100 * n) y]

/-- A frame with these touches, out of 5; `dirs`: the direction all of them moved in. -/
def demoFrame (now : Nat) (vs : List View) (g : Frame := {}) (dirs : Nat := 1) : Op :=
  .frame now ((vs.map fun v => { v with gestDirs := dirs }) ++ List.replicate (5 - vs.length) gone) g fun _ => false

def demo (m : Method) : Pad := init demoConfig 5 m true false

/-- `n` fingers go down and move up. -/
def demoSwipe (n : Nat) : List Op :=
  [demoFrame 1000 (fingersAt .begin 400 n), demoFrame 2000 (fingersAt .update 380 n) { dy := -20 },
    demoFrame 3000 (fingersAt .update 300 n) { dy := -80 }, demoFrame 4000 (fingersAt .update 250 n) { dy := -50 }]

def demoLift (n : Nat) : Op := demoFrame 5000 (fingersAt .end_ 250 n)

end Libinput.Motion
