import Verif.Switch.Model
/-
What a caller should hear about the switches, from the operations alone.
-/
namespace Libinput.Switch.Spec

/-- The switch events sent. -/
def toggles (os : List Out) : List (Edge Sw) :=
  os.filterMap fun o => match o with
    | .toggle _ sw on => some ⟨sw, on⟩
    | _ => none

/-- The lid: open, closed, or claiming to be closed since the device was added, which is not believed as
the switch is not known to be reliable. -/
inductive Lid where
  | open | closed | doubted
deriving DecidableEq, Repr

/-- `lid`; `paired`: the internal keyboards connected; `wakes`: those that reopen the lid when used, i.e. the
lid reported closing, or was found closed, since they were connected.  `tablet`: tablet mode. -/
structure World where
  lid : Lid
  paired : Nat → Bool
  wakes : Nat → Bool
  tablet : Bool

/-- The world when the device was just added with the keyboards `kbds` connected.  None of them wakes the
lid yet, even if it is found closed. -/
def initial (rel : Reliability) (lidVal tabletVal : Int) (kbds : List Nat) : World :=
  { lid := if lidVal = 0 then .open else if rel = .reliable then .closed else .doubted,
    paired := fun k => kbds.contains k,
    wakes := fun _ => false,
    tablet := tabletVal ≠ 0 }

def next (w : World) : Op → World
  | .lid _ v =>
    if v = 0 then { w with lid := .open, wakes := fun _ => false }
    else { w with lid := (match w.lid with | .doubted => .doubted | _ => .closed), wakes := w.paired }
  | .tablet _ v => { w with tablet := v ≠ 0 }
  | .kbd _ id isKey => if isKey = true ∧ w.wakes id = true then { w with lid := .open } else w
  | .addKbd id =>
    { w with
      paired := fun k => k = id || w.paired k,
      wakes := fun k => (k = id && w.lid != .open) || w.wakes k }
  | .removeKbd id =>
    { w with paired := fun k => k != id && w.paired k, wakes := fun k => k != id && w.wakes k }

def world (rel : Reliability) (lidVal tabletVal : Int) (kbds : List Nat) (ops : List Op) : World :=
  ops.foldl next (initial rel lidVal tabletVal kbds)

end Libinput.Switch.Spec
