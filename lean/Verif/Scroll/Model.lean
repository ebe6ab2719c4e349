/-
Continuous scrolling: the accumulate/threshold/direction machinery shared by on-button scrolling and
two-finger scrolling, /repo/src/evdev.c:2605-2724.
-/
namespace Libinput.Scroll

/-- The arithmetic the code does on `double` values, kept abstract so that nothing depends on rounding.
`past x` is `fabs(x) >= scroll.threshold`, `pastLock x` is
`fabs(x) >= scroll.direction_lock_threshold`, `isZero x` is `x == 0.0`.
Models: the `double` operations in /repo/src/evdev.c:2628-2700. -/
structure Arith (R : Type) where
  zero : R
  add : R → R → R
  past : R → Bool
  pastLock : R → Bool
  isZero : R → Bool

/-- What is assumed of the arithmetic when both thresholds are positive: it holds for IEEE doubles
without NaN.  For devices other than touchpads both are 5.0 (/repo/src/evdev.c:2267-2268).  For
touchpads `threshold` is 0.0 (/repo/src/evdev-mt-touchpad.c:3140-3141) and `past_zero` fails. -/
structure Arith.Lawful {R : Type} (A : Arith R) : Prop where
  zero_isZero : A.isZero A.zero = true
  past_zero : A.past A.zero = false
  pastLock_zero : ∀ x, A.isZero x = true → A.pastLock x = false
  past_add_zero : ∀ x z, A.isZero z = true → A.past (A.add x z) = A.past x

/-- `struct evdev_device.scroll`: `direction` (one Bool per axis) and `buildup`.
Models: /repo/src/evdev.h:221-222. -/
structure State (R : Type) where
  dirH : Bool
  dirV : Bool
  bx : R
  bys : R

/-- What is sent: `axis h v` is a POINTER_AXIS event whose axes mask contains exactly the axes with a
value; `stop h v` is the terminating event with value 0 on the axes given.
Models: the calls to `evdev_notify_axis` and `pointer_notify_axis`,
/repo/src/evdev.c:2688-2698 and 2711-2717.  Simplified: sign inversion by natural scrolling
(/repo/src/evdev.c:377-406) is left out; it maps non-zero to non-zero. -/
inductive Out (R : Type) where
  | axis (t : Nat) (h v : Option R)
  | stop (t : Nat) (h v : Bool)
deriving DecidableEq, Repr

/-- The buildup update and the start of scrolling on an axis.  Models: /repo/src/evdev.c:2636-2669. -/
def start {R : Type} (A : Arith R) (s : State R) (dx dy : R) : State R :=
  let bys := if s.dirV then s.bys else A.add s.bys dy
  let bx := if s.dirH then s.bx else A.add s.bx dx
  match s.dirH, s.dirV with
  | false, false => { dirH := A.past bx, dirV := A.past bys, bx := bx, bys := bys }
  | true, false => { dirH := true, dirV := A.pastLock dy, bx := bx, bys := bys }
  | false, true => { dirH := A.pastLock dx, dirV := true, bx := bx, bys := bys }
  | true, true => { dirH := true, dirV := true, bx := bx, bys := bys }

/-- The event, if any.  Models: /repo/src/evdev.c:2671-2699. -/
def emit {R : Type} (A : Arith R) (s : State R) (t : Nat) (dx dy : R) : List (Out R) :=
  let ey := if s.dirV then dy else A.zero
  let ex := if s.dirH then dx else A.zero
  if A.isZero ex && A.isZero ey then []
  else [.axis t (if s.dirH && !A.isZero ex then some ex else none)
                (if s.dirV && !A.isZero ey then some ey else none)]

/-- `evdev_post_scroll`.  Models: /repo/src/evdev.c:2627-2700. -/
def post {R : Type} (A : Arith R) (s : State R) (t : Nat) (dx dy : R) : State R × List (Out R) :=
  let s := start A s dx dy
  (s, emit A s t dx dy)

/-- `evdev_stop_scroll`.  Models: /repo/src/evdev.c:2702-2722. -/
def stop {R : Type} (A : Arith R) (s : State R) (t : Nat) : State R × List (Out R) :=
  ({ dirH := false, dirV := false, bx := A.zero, bys := A.zero },
   if s.dirH || s.dirV then [.stop t s.dirH s.dirV] else [])

/-- Zero-allocated device.  Models: /repo/src/evdev.c:2244. -/
def init {R : Type} (A : Arith R) : State R := { dirH := false, dirV := false, bx := A.zero, bys := A.zero }

/-- A caller's use of the two functions. -/
inductive Op (R : Type) where
  | post (t : Nat) (dx dy : R)
  | stop (t : Nat)

def step {R : Type} (A : Arith R) (s : State R) : Op R → State R × List (Out R)
  | .post t dx dy => post A s t dx dy
  | .stop t => stop A s t

def run {R : Type} (A : Arith R) (s : State R) : List (Op R) → State R × List (Out R)
  | [] => (s, [])
  | op :: ops =>
    let (s, o1) := step A s op
    let (s, o2) := run A s ops
    (s, o1 ++ o2)

end Libinput.Scroll
