import Verif.Refs.Model
/-
Who holds what, in terms of pointers only: reference counts are not looked at here.
-/
namespace Libinput.Refs.Spec
open Libinput.Refs

/-- What the caller holds: the references it has taken (and not yet given up) on each object, and the events it has
got from the queue and not yet destroyed. -/
structure Client where
  refs : Nat → Nat
  held : List Nat

def Client.nothing : Client := ⟨fun _ => 0, []⟩

/-- The caller's books after an operation in state `s`. -/
def Client.after (c : Client) (s : State) : Op → Client
  | .getEvent => { c with held := s.queue.take 1 ++ c.held }
  | .destroyEvent e => { c with held := c.held.erase e }
  | .ref i => { c with refs := fun j => if j = i then c.refs j + 1 else c.refs j }
  | .unref i => { c with refs := fun j => if j = i then c.refs j - 1 else c.refs j }
  | _ => c

/-- Something can be got at: it is in one of the context's lists (a device which has been added and not removed, a tool
in the context's list, a seat of the path backend), it is an unread event or one the caller has, the caller has a
reference, or something that can be got at has one. -/
inductive Reach (s : State) (c : Client) : Nat → Prop
  | device {i o} (h : s.heap[i]? = some o) (hl : o.linked = true) : Reach s c i
  | seat {i o n} (h : s.heap[i]? = some o) (hk : o.kind = .seat n) (hp : s.udev = false) : Reach s c i
  | tool {i o ty ser} (h : s.heap[i]? = some o) (hk : o.kind = .tool ty ser) (hh : o.home = none) : Reach s c i
  | unread {i} (h : i ∈ s.queue) : Reach s c i
  | event {i} (h : i ∈ c.held) : Reach s c i
  | caller {i} (h : 0 < c.refs i) : Reach s c i
  | via {x o i} (hx : Reach s c x) (ho : s.heap[x]? = some o) (hi : i ∈ o.out) : Reach s c i

/-- What may happen: a device that sends an event has been added and not removed; the caller uses only what it can get
at, gives up only references it has and destroys only events it has.  It gives up its references to a tablet's tools
and a pad's mode groups before it lets go of the device. -/
def Allowed (s : State) (c : Client) : Op → Prop
  | .add _ _ _ _ => True
  | .remove d _ => Reach s c d ∧ ∃ o sys seat, s.heap[d]? = some o ∧ o.kind = .dev sys seat
  | .suspend _ => True
  | .post d _ => ∃ o, s.heap[d]? = some o ∧ o.linked = true
  | .getEvent => True
  | .destroyEvent e => e ∈ c.held
  | .ref i => Reach s c i ∧ ∃ o, s.heap[i]? = some o ∧ ∀ d, o.kind ≠ .event d
  | .unref i => 0 < c.refs i ∧ ∀ o h, s.heap[i]? = some o → o.home = some h → Reach s c h

/-- A history of which every operation is allowed. -/
def History (s : State) (c : Client) : List Op → Prop
  | [] => True
  | op :: ops => Allowed s c op ∧ ∀ s', step s op = .ok s' → History s' (c.after s op) ops

/-- The caller's books after a history. -/
def Client.over (c : Client) (s : State) : List Op → Client
  | [] => c
  | op :: ops =>
    match step s op with
    | .ok s' => (c.after s op).over s' ops
    | .error _ => c

end Libinput.Refs.Spec
