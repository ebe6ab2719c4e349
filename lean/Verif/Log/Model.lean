import Verif.Util.Ratelimit
/-!
Which messages a log handler gets (libinput.c), and the warnings about values out of range (evdev.h).
-/
namespace Libinput.Log

/-- A message, or the one that says that messages will be discarded.  Models: /repo/src/libinput.c:305-310. -/
inductive Msg where
  | text (n : Nat)
  | limitExceeded (burst ms : Nat)
deriving DecidableEq, Repr

/-- What `struct libinput` has of this, and the rate limits of all that log.  A handler is a number here, `none` is `NULL`.
Models: /repo/src/libinput-private.h:436-442. -/
structure Ctx where
  handler : Option Nat
  priority : Int
  limits : Nat → Ratelimit.State

/-- `libinput_init`: the default handler (0) and the priority of errors.  Models: /repo/src/libinput.c:1778-1779. -/
def init (limits : Nat → Ratelimit.State) : Ctx := { handler := some 0, priority := 30, limits }

/-- A call of a handler.  Models: /repo/src/libinput.c:272-273. -/
structure Call where
  handler : Nat
  priority : Int
  msg : Msg
deriving DecidableEq, Repr

/-- `log_msg_va`, `log_msg`, with `is_logged`.  Models: /repo/src/libinput.c:266-286, /repo/src/libinput-private.h:436-442. -/
def logMsg (c : Ctx) (priority : Int) (m : Msg) : List Call :=
  match c.handler with
  | none => []
  | some h => if c.priority ≤ priority then [⟨h, priority, m⟩] else []

/-- `log_msg_ratelimit` with the limit `k`, at the time `now`.  Models: /repo/src/libinput.c:288-311. -/
def logLimited (c : Ctx) (k : Nat) (priority : Int) (m : Msg) (now : Nat) : Ctx × List Call :=
  let r := Ratelimit.test (c.limits k) now
  let c := { c with limits := fun j => if j = k then r.1 else c.limits j }
  match r.2 with
  | .exceeded => (c, [])
  | .pass => (c, logMsg c priority m)
  | .threshold => (c, logMsg c priority m ++ logMsg c priority (.limitExceeded r.1.burst (r.1.interval / 1000)))

/-- What happens.  Models: /repo/src/libinput.c:266-331. -/
inductive Op where
  | setPriority (p : Int)
  | setHandler (h : Option Nat)
  | log (p : Int) (n : Nat)
  | limited (k : Nat) (p : Int) (n : Nat) (now : Nat)
deriving DecidableEq, Repr

/-- `libinput_log_set_priority`, `libinput_log_set_handler` and messages.  Models: /repo/src/libinput.c:266-331. -/
def step (c : Ctx) : Op → Ctx × List Call
  | .setPriority p => ({ c with priority := p }, [])
  | .setHandler h => ({ c with handler := h }, [])
  | .log p n => (c, logMsg c p (.text n))
  | .limited k p n now => logLimited c k p (.text n) now

/-- Many of them.  Models: /repo/src/libinput.c:266-331. -/
def run (c : Ctx) : List Op → Ctx × List Call
  | [] => (c, [])
  | o :: os =>
    let r := step c o
    let q := run r.1 os
    (q.1, r.2 ++ q.2)

/-- The range of an axis from which on its values are warned about: `minimum - 0.05 * width` and `maximum + 0.05 * width`, made integers by leaving out the fraction.
The number 0.05 is exact here.  Models: /repo/src/evdev.h:964-972. -/
def warningRange (minimum maximum width : Int) : Int × Int := ((20 * minimum - width).tdiv 20, (20 * maximum + width).tdiv 20)

/-- `ratelimit_init` of the warnings.  Models: /repo/src/evdev.h:974-977. -/
def rangeLimit : Ratelimit.State := Ratelimit.init 3000000000 1

/-- `evdev_device_check_abs_axis_range` for one of the axes: the message it logs, if any.  Models: /repo/src/evdev.h:1002-1009. -/
def checkAxis (k : Nat) (range : Int × Int) (value : Int) (n now : Nat) : List Op :=
  if value < range.1 ∨ value > range.2 then [.limited k 20 n now] else []

end Libinput.Log
