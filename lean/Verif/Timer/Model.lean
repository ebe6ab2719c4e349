/-
The timer subsystem, /repo/src/timer.c.  Timers are numbered; the intrusive list of armed timers is a Lean list, newest first
(`Verif/Util/Lists.lean` is about the list itself).  Times are microseconds.
-/
namespace Libinput.Timer

def UINT64_MAX : Nat := 2 ^ 64 - 1

/-- What happened to timers, for the specification. -/
inductive Log where
  | set (id expire : Nat)
  | cancel (id : Nat)
  | fire (id now : Nat)
deriving DecidableEq, Repr

/-- What a timer callback or any other code may do with timers. -/
inductive Act where
  | set (id expire : Nat)
  | cancel (id : Nat)
deriving DecidableEq, Repr

/-- `struct libinput_timer`, /repo/src/timer.h:32-39, of all timers, and `libinput->timer`, /repo/src/libinput-private.h:128-133.
`fd` is what the timerfd is set to (`none`: disarmed).  `log` is a ghost variable, newest first. -/
structure State where
  list : List Nat := []
  expire : Nat → Nat := fun _ => 0
  fd : Option (Nat × Nat) := none
  next : Nat := 0
  log : List Log := []

/-- Why execution does not go on: a failed assertion, or the handler's loop has not come to its end within the given number of
rounds (the C loop has no bound). -/
inductive Stop where
  | abort
  | rounds
deriving DecidableEq, Repr

/-- `libinput_timer_subsys_init`.  Models: /repo/src/timer.c:184-204; the context is zero-allocated. -/
def init : State := {}

/-- The loop over the armed timers.  Models: /repo/src/timer.c:67-72. -/
def earliest (s : State) : Nat := s.list.foldl (fun e id => if s.expire id < e then s.expire id else e) UINT64_MAX

/-- `libinput_timer_arm_timer_fd`; `timerfd_settime` is taken to succeed and a zero time disarms (timerfd_settime(2)).
Models: /repo/src/timer.c:61-84. -/
def armFd (s : State) : State :=
  let e := earliest s
  let its := if e ≠ UINT64_MAX then (e / 1000000, (e % 1000000) * 1000) else (0, 0)
  { s with fd := if its = (0, 0) then none else some its, next := e }

/-- `libinput_timer_set_flags`; the log messages at 91-105 are left out.  `list_insert` aborts if the node is in a list.
Models: /repo/src/timer.c:86-114. -/
def set (s : State) (id expire : Nat) : Except Stop State :=
  if expire = 0 then .error .abort
  else if s.expire id = 0 then
    if id ∈ s.list then .error .abort
    else .ok (armFd { s with list := id :: s.list, expire := fun i => if i = id then expire else s.expire i,
                             log := .set id expire :: s.log })
  else .ok (armFd { s with expire := fun i => if i = id then expire else s.expire i, log := .set id expire :: s.log })

/-- `libinput_timer_cancel` without the log entry; `list_remove` aborts if the node is in no list.
Models: /repo/src/timer.c:122-131. -/
def cancelRaw (s : State) (id : Nat) : Except Stop State :=
  if s.expire id = 0 then .ok s
  else if id ∈ s.list then
    .ok (armFd { s with expire := fun i => if i = id then 0 else s.expire i, list := s.list.erase id })
  else .error .abort

/-- A call of `libinput_timer_cancel`.  Models: /repo/src/timer.c:122-131. -/
def cancel (s : State) (id : Nat) : Except Stop State := cancelRaw { s with log := .cancel id :: s.log } id

def act (s : State) : Act → Except Stop State
  | .set id e => set s id e
  | .cancel id => cancel s id

/-- The body of a callback: any number of calls. -/
def acts (s : State) : List Act → Except Stop State
  | [] => .ok s
  | a :: as =>
    match act s a with
    | .error e => .error e
    | .ok s' => acts s' as

/-- What the callbacks do: anything that depends on which timer it is, the time and all that happened before. -/
abbrev Callbacks := Nat → Nat → List Log → List Act

/-- The first timer in the list that is due.  Models: /repo/src/timer.c:139-143. -/
def due (s : State) (now : Nat) : Option Nat := s.list.find? (fun id => s.expire id ≠ 0 && s.expire id ≤ now)

/-- `libinput_timer_handler`; every `goto restart` is one round.  Models: /repo/src/timer.c:133-160. -/
def handler (cb : Callbacks) (now : Nat) : Nat → State → Except Stop State
  | 0, _ => .error .rounds
  | rounds + 1, s =>
    match due s now with
    | none => .ok s
    | some id =>
      match cancelRaw { s with log := .fire id now :: s.log } id with
      | .error e => .error e
      | .ok s1 =>
        match acts s1 (cb id now s1.log) with
        | .error e => .error e
        | .ok s2 => handler cb now rounds s2

/-- `libinput_timer_flush`.  Models: /repo/src/timer.c:237-245. -/
def flush (cb : Callbacks) (rounds : Nat) (s : State) (now : Nat) : Except Stop State :=
  if s.next = 0 ∨ s.next > now then .ok s else handler cb now rounds s

/-- `libinput_timer_dispatch`: the timerfd is readable; `now` is 0 if the clock cannot be read.  Models: /repo/src/timer.c:162-182. -/
def dispatch (cb : Callbacks) (rounds : Nat) (s : State) (now : Nat) : Except Stop State :=
  if now = 0 then .ok s else handler cb now rounds s

/-- What happens from outside: code setting and cancelling timers, a flush for an event's time, a wakeup by the timerfd. -/
inductive Op where
  | act (a : Act)
  | flush (now : Nat)
  | dispatch (now : Nat)
deriving DecidableEq, Repr

def step (cb : Callbacks) (rounds : Nat) (s : State) : Op → Except Stop State
  | .act a => act s a
  | .flush now => flush cb rounds s now
  | .dispatch now => dispatch cb rounds s now

def run (cb : Callbacks) (rounds : Nat) (s : State) : List Op → Except Stop State
  | [] => .ok s
  | op :: ops =>
    match step cb rounds s op with
    | .error e => .error e
    | .ok s' => run cb rounds s' ops

end Libinput.Timer
