import Verif.SendEvents.Model
/-
When a touchpad should be active, from the operations alone.
-/
namespace Libinput.SendEvents.Spec

/-- The mode the caller set; the other devices; the lids that reported "closed" since they were connected. -/
structure World where
  mode : Nat
  others : List Other
  lidClosed : Nat → Bool

def start : World := ⟨0, [], fun _ => false⟩

/-- The mode after the caller asks for `m`: 0 (enabled) and 1 (disabled) are always accepted, 2 (disabled if
there is an external mouse) and 3 (which means 1) only for an internal touchpad; others are refused. -/
def accept (internal : Bool) (cur m : Nat) : Nat :=
  if m = 0 ∨ m = 1 then m
  else if internal = true ∧ m = 2 then 2
  else if internal = true ∧ m = 3 then 1
  else cur

/-- Is there a working device with this property? -/
def working (w : World) (p : Other → Bool) (id : Nat) : Bool :=
  w.others.any fun o => o.id == id && p o && !o.suspended

def next (internal : Bool) (w : World) : Op → World
  | .setMode m => { w with mode := accept internal w.mode m }
  | .add o =>
    if w.others.any (fun x => x.id == o.id) then w
    else { w with
           others := w.others ++ [{ o with suspended := false }],
           lidClosed := fun i => i != o.id && w.lidClosed i }
  | .remove id => { w with others := w.others.filter fun o => o.id != id }
  | .suspend id =>
    { w with
      others := w.others.map fun o => if o.id = id then { o with suspended := true } else o,
      lidClosed := fun i => i != id && w.lidClosed i }
  | .resume id => { w with others := w.others.map fun o => if o.id = id then { o with suspended := false } else o }
  | .lid id on =>
    if working w (·.lid) id then { w with lidClosed := fun i => if i = id then on else w.lidClosed i } else w
  | .tablet id on =>
    { w with others := w.others.map fun o =>
        if o.id = id ∧ o.tablet = true ∧ o.suspended = false then { o with tabletOn := on } else o }

def world (internal : Bool) (ops : List Op) : World := ops.foldl (next internal) start

/-- The seat has one lid and one tablet-mode switch at most, and external mice are not disabled. -/
def OrdinaryOp (w : World) : Op → Prop
  | .add o =>
    (o.lid = true → ∀ x ∈ w.others, x.lid = false) ∧ (o.tablet = true → ∀ x ∈ w.others, x.tablet = false)
  | .suspend id => ∀ x ∈ w.others, x.id = id → x.mouse = false
  | _ => True

def Ordinary (internal : Bool) : World → List Op → Prop
  | _, [] => True
  | w, op :: ops => OrdinaryOp w op ∧ Ordinary internal (next internal w op) ops

/-- The touchpad should be silent: it is disabled; or to be disabled with an external mouse, and there is
one; or it is an internal touchpad and the lid is closed, or the tablet mode is on (unless a quirk says
that does not matter). -/
def silent (internal noSuspend : Bool) (w : World) : Bool :=
  w.mode == 1 ||
  (w.mode == 2 && w.others.any fun o => o.mouse) ||
  (internal && w.others.any fun o => o.lid && !o.suspended && w.lidClosed o.id) ||
  (internal && !noSuspend && w.others.any fun o => o.tablet && !o.suspended && o.tabletOn)

end Libinput.SendEvents.Spec
