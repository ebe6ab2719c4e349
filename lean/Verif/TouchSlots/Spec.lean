import Verif.TouchSlots.Model
/-
What a caller may rely on for touch events, in terms of the events it has received, and what the
hardware has said, in terms of the kernel's events.
-/
namespace Libinput.TouchSlots.Spec

/-- The touches that are down, with their seat slots. -/
abbrev Held := Key → Option Nat

def nothing : Held := fun _ => none

def Held.put (h : Held) (k : Key) (v : Option Nat) : Held := fun k' => if k' = k then v else h k'

/-- The touches down after the events. -/
def after (h : Held) : List Ev → Held
  | [] => h
  | .down k i _ :: es => after (h.put k (some i)) es
  | .motion _ _ _ :: es => after h es
  | .up k _ :: es => after (h.put k none) es
  | .cancel k _ :: es => after (h.put k none) es
  | .frame _ :: es => after h es

/-- The events are well formed, if the touches in `h` are down before them: a touch that comes down was not down and
gets the lowest seat slot, of 32, which no touch on the seat has; motion, up and cancel are for a touch that is down
and carry its seat slot. -/
def Valid (h : Held) : List Ev → Prop
  | [] => True
  | .down k i _ :: es =>
    h k = none ∧ i < 32 ∧ (∀ k', h k' ≠ some i) ∧ (∀ j, j < i → ∃ k', h k' = some j) ∧
      Valid (h.put k (some i)) es
  | .motion k i _ :: es => h k = some i ∧ Valid h es
  | .up k i :: es => h k = some i ∧ Valid (h.put k none) es
  | .cancel k i :: es => h k = some i ∧ Valid (h.put k none) es
  | .frame _ :: es => Valid h es

/-- The state of the hardware, as the kernel's events give it: the number of slots, the current slot, the slots with a
contact (now and at the last `SYN_REPORT`), the slots the events since the last `SYN_REPORT` were for; and for devices
without slots whether there is a contact (now and at the last `SYN_REPORT`). -/
structure Hw where
  isMt : Bool
  n : Nat
  cur : Nat
  active : Nat → Bool
  last : Nat → Bool
  changed : Nat → Bool
  touching : Bool
  lastTouching : Bool

def change (f : Nat → Bool) (i : Nat) (b : Bool) : Nat → Bool := fun j => if j = i then b else f j

def Hw.step (w : Hw) : Op → Hw
  | .slot v => { w with cur := v.toNat }
  | .tracking v _ => { w with active := change w.active w.cur (decide (v ≥ 0)), changed := change w.changed w.cur true }
  | .mtX _ => { w with changed := change w.changed w.cur true }
  | .mtY _ => { w with changed := change w.changed w.cur true }
  | .tool _ => { w with changed := change w.changed w.cur true }
  | .touch v => if v = 2 then w else { w with touching := decide (v ≠ 0) }
  | .syn => { w with last := w.active, changed := fun _ => false, lastTouching := w.touching }
  | _ => w

/-- The hardware of all devices after a history. -/
def hardware (ws : List Hw) : List SeatOp → List Hw
  | [] => ws
  | .add isMt n cur _ _ :: ops =>
    hardware (ws ++ [⟨isMt, n, cur, fun _ => false, fun _ => false, fun _ => false, false, false⟩]) ops
  | .dev i op :: ops =>
    match ws[i]? with
    | none => hardware ws ops
    | some w => hardware (ws.set i (w.step op)) ops

/-- Every kernel event in the history satisfies `p`, which may look at the hardware's state before it, and every
device starts with its current slot in range. -/
def Every (p : Hw → Op → Prop) (ws : List Hw) : List SeatOp → Prop
  | [] => True
  | .add isMt n cur hasPalm hyst :: ops =>
    (isMt = true → cur < n) ∧ Every p (hardware ws [.add isMt n cur hasPalm hyst]) ops
  | .dev i op :: ops => (∀ w, ws[i]? = some w → p w op) ∧ Every p (hardware ws [.dev i op]) ops

/-- Kernel events are for slots that exist; multitouch events come from multitouch devices only; the whole touchscreen
is not arbitrated away. -/
def Orderly (w : Hw) : Op → Prop
  | .slot v => w.isMt = true ∧ 0 ≤ v ∧ v < w.n
  | .tracking _ _ => w.isMt = true
  | .mtX _ => w.isMt = true
  | .mtY _ => w.isMt = true
  | .tool _ => w.isMt = true
  | .touch _ => w.isMt = false
  | .arbitration which _ => which ≠ .ignoreAll
  | _ => True

/-- Also, no slot has one contact end and the next one begin within one hardware frame. -/
def Distinct (w : Hw) (op : Op) : Prop :=
  Orderly w op ∧ ∀ v t, op = .tracking v t → v ≥ 0 → w.last w.cur = false

/-- Also, no palms, no arbitration, no suspend. -/
def Plain (w : Hw) (op : Op) : Prop :=
  Orderly w op ∧ op ≠ .suspend ∧ (∀ v, op ≠ .tracking v true) ∧ op ≠ .tool true ∧
    ∀ which r, op ≠ .arbitration which r

/-- The touch an event is about. -/
def key : Ev → Option Key
  | .down k _ _ => some k
  | .motion k _ _ => some k
  | .up k _ => some k
  | .cancel k _ => some k
  | .frame _ => none

/-- Some event of `es` is about touch `k`. -/
def About (es : List Ev) (k : Key) : Prop := ∃ e ∈ es, key e = some k

end Libinput.TouchSlots.Spec
