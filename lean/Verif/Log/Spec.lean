import Verif.Log.Model
/-!
The words the properties of logging are stated with.
-/
namespace Libinput.Log.Spec

/-- The priority that was set last; that of errors if none was. -/
def lastPriority : List Op → Int → Int
  | [], p => p
  | .setPriority p :: os, _ => lastPriority os p
  | _ :: os, p => lastPriority os p

/-- The handler that was set last; the default one (0) if none was. -/
def lastHandler : List Op → Option Nat → Option Nat
  | [], h => h
  | .setHandler h :: os, _ => lastHandler os h
  | _ :: os, h => lastHandler os h

/-- The times of the messages of one rate limit. -/
def timesOf (k : Nat) : List Op → List Nat
  | [] => []
  | .limited j _ _ now :: os => if j = k then now :: timesOf k os else timesOf k os
  | _ :: os => timesOf k os

/-- All messages are of one rate limit. -/
def OnlyLimit (k : Nat) (os : List Op) : Prop := ∀ o ∈ os, match o with
  | .log _ _ => False
  | .limited j _ _ _ => j = k
  | _ => True

/-- How many messages were handed over, not counting those that say that messages will be discarded. -/
def texts (cs : List Call) : Nat := (cs.filter fun c => match c.msg with | .text _ => true | _ => false).length

end Libinput.Log.Spec
