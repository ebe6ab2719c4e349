import Mathlib.Algebra.Order.Field.Rat
import Mathlib.Tactic.Linarith
import Mathlib.Tactic.Ring
import Mathlib.Tactic.FieldSimp
import Mathlib.Tactic.Positivity
/-!
How two-finger scrolling keeps to an axis (evdev-mt-touchpad-gestures.c).  `double`s are rational numbers here.
-/
namespace Libinput.Axis

/-- `struct phys_coords` and `struct normalized_coords`.  Models: /repo/src/libinput-private.h:60-62, /repo/src/libinput-private.h:91-94. -/
structure V where
  x : ℚ
  y : ℚ
deriving DecidableEq, Repr

/-- What `tp->scroll` has of this: `h`, `v` are `active`, `dh`, `dv` are `duration` (in µs), `prev` is `time_prev`.
Models: /repo/src/evdev-mt-touchpad.h:398-411. -/
structure State where
  h : Bool := false
  v : Bool := false
  dh : ℕ := 0
  dv : ℕ := 0
  vec : V := ⟨0, 0⟩
  prev : ℕ := 0
deriving DecidableEq, Repr

/-- `tp_gesture_init_scroll`, when a scroll begins.  Models: /repo/src/evdev-mt-touchpad-gestures.c:82-92. -/
def init : State := {}

/-- `slope >= s`; the slope is infinite for `x = 0`.  Models: /repo/src/evdev-mt-touchpad-gestures.c:352. -/
def steep (s : ℚ) (v : V) : Bool := decide (v.x = 0 ∨ s ≤ |v.y / v.x|)

/-- `vector_length > r`, without the root of `hypot`.  Models: /repo/src/evdev-mt-touchpad-gestures.c:337. -/
def longer (r : ℚ) (v : V) : Bool := decide (r ^ 2 < v.x ^ 2 + v.y ^ 2)

/-- `tdelta`.  A time before the last one wraps in C and is too long, which is zero too.
Models: /repo/src/evdev-mt-touchpad-gestures.c:307-312. -/
def since (s : State) (time : ℕ) : ℕ :=
  let t := if s.prev ≠ 0 then time - s.prev else 0
  if t > 100000 then 0 else t

/-- `vector_decay`.  Models: /repo/src/evdev-mt-touchpad-gestures.c:317-331. -/
def decay (t : ℕ) : ℚ :=
  if t > 0 then
    if t ≤ 33000 then (50000 - (t : ℚ)) / 50000 else (100000 - (t : ℚ)) / 200000
  else 0

/-- What is left of a duration.  Models: /repo/src/evdev-mt-touchpad-gestures.c:364-367. -/
def less (d t : ℕ) : ℕ := if d > t then d - t else 0

/-- What is added to a duration.  Models: /repo/src/evdev-mt-touchpad-gestures.c:360-362. -/
def more (d t : ℕ) : ℕ := if d + t > 100000 then 100000 else d + t

/-- The durations, first `dv` then `dh`, after a movement near the vertical.  Models: /repo/src/evdev-mt-touchpad-gestures.c:359-369. -/
def vertical (w : V) (t : ℕ) (d : ℕ × ℕ) : ℕ × ℕ :=
  if steep (57 / 100) w && longer (15 / 100) w then (more d.1 t, if steep (373 / 100) w then less d.2 t else d.2) else d

/-- The durations, first `dv` then `dh`, after a movement near the horizontal.  Models: /repo/src/evdev-mt-touchpad-gestures.c:370-380. -/
def horizontal (w : V) (t : ℕ) (d : ℕ × ℕ) : ℕ × ℕ :=
  if !steep (173 / 100) w && longer (15 / 100) w then (if !steep (27 / 100) w then less d.1 t else d.1, more d.2 t) else d

/-- Which axes are active, `h` then `v`.  Models: /repo/src/evdev-mt-touchpad-gestures.c:382-399. -/
def active (w : V) (dv dh : ℕ) (a : Bool × Bool) : Bool × Bool :=
  let a := if dh = 100000 then (true, if dv < 50000 then false else a.2) else a
  let a := if dv = 100000 then (if dh < 50000 then false else a.1, true) else a
  if longer 5 w && !steep (173 / 100) w && steep (57 / 100) w then (true, true) else a

/-- What is left of a movement.  Models: /repo/src/evdev-mt-touchpad-gestures.c:405-414. -/
def constrain (w : V) (h v : Bool) (d : V) : V :=
  let d := if !h && v then { d with x := 0 } else d
  let d := if h && !v then { d with y := 0 } else d
  if !h && !v then ⟨if steep (173 / 100) w then 0 else d.x, if !steep (57 / 100) w then 0 else d.y⟩ else d

/-- `tp_gesture_apply_scroll_constraints`: `mm` is the movement in mm, `d` the one that is to be told.
Models: /repo/src/evdev-mt-touchpad-gestures.c:289-415. -/
def apply (s : State) (time : ℕ) (mm d : V) : State × V :=
  if s.h && s.v then (s, d)
  else
    let t := since s time
    let w : V := ⟨s.vec.x * decay t + mm.x, s.vec.y * decay t + mm.y⟩
    let ds := horizontal w t (vertical w t (s.dv, s.dh))
    let a := active w ds.1 ds.2 (s.h, s.v)
    ({ h := a.1, v := a.2, dh := ds.2, dv := ds.1, vec := w, prev := time }, constrain w a.1 a.2 d)

/-- A movement of the fingers while they scroll.  Models: /repo/src/evdev-mt-touchpad-gestures.c:618-643. -/
structure Frame where
  time : ℕ
  mm : V
  d : V
deriving DecidableEq, Repr

/-- A scroll: the state and what each movement tells.  Models: /repo/src/evdev-mt-touchpad-gestures.c:618-643. -/
def run (s : State) : List Frame → State × List V
  | [] => (s, [])
  | f :: fs =>
    let r := apply s f.time f.mm f.d
    let q := run r.1 fs
    (q.1, r.2 :: q.2)

end Libinput.Axis
