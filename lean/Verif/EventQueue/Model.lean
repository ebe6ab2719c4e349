/-!
# The event ring buffer of a libinput context

Models `libinput_post_event`, `libinput_get_event`, `libinput_next_event_type` and the queue part of
`libinput_init` (`/repo/src/libinput.c`).

Simplifications: sizes are unbounded naturals (`size_t` overflow is not modelled, it needs 2^60 queued
events); an event is an opaque value `α`; the device reference taken for a queued event is modelled in
`Verif.Refcount`. The cells of the ring are `Option α`, `none` meaning uninitialised memory. Reading an
uninitialised cell, or accessing a cell outside the allocation, is the outcome `none` (undefined
behaviour) of an operation.
-/

namespace Libinput.EventQueue

/-- `struct libinput`: `events`, `events_count`, `events_len`, `events_in`, `events_out`
(`/repo/src/libinput-private.h:135-139`). -/
structure Ring (α : Type) where
  mem : Nat → Option α
  count : Nat
  len : Nat
  inp : Nat
  out : Nat

/-- `libinput_init`, `/repo/src/libinput.c:1776-1777`: four zeroed cells, `zalloc`ed context. A zeroed
cell is a NULL pointer; reading one is never legitimate, so it is modelled like an uninitialised one. -/
def init {α : Type} : Ring α := { mem := fun _ => none, count := 0, len := 4, inp := 0, out := 0 }

/-- `memmove(events + dst, events + src, n * sizeof *events)` (`/repo/src/libinput.c:2958-2960`). -/
def memmove {α : Type} (m : Nat → Option α) (dst src n : Nat) : Nat → Option α :=
  fun i => if dst ≤ i ∧ i < dst + n then m (i - dst + src) else m i

/-- The `events_count > events_len` block of `libinput_post_event` after a successful `realloc`,
`/repo/src/libinput.c:2941-2965`. `realloc` keeps the old cells, new cells are uninitialised. -/
def grow {α : Type} (r : Ring α) : Ring α :=
  let newLen := r.len * 2
  let mem1 := fun i => if i < r.len then r.mem i else none
  if r.count > 0 ∧ r.inp = 0 then
    { r with mem := mem1, inp := r.len, len := newLen }
  else if r.count > 0 ∧ r.out ≥ r.inp then
    let moveLen := r.len - r.out
    let newOut := newLen - moveLen
    { r with mem := memmove mem1 newOut r.out moveLen, out := newOut, len := newLen }
  else
    { r with mem := mem1, len := newLen }

/-- The tail of `libinput_post_event`, `/repo/src/libinput.c:2971-2973`: store and advance. Storing
outside the allocation is undefined behaviour. -/
def store {α : Type} (r : Ring α) (e : α) : Option (Ring α) :=
  if r.inp < r.len then
    some { r with
      mem := fun i => if i = r.inp then some e else r.mem i
      count := r.count + 1
      inp := (r.inp + 1) % r.len }
  else none

/-- `libinput_post_event`, `/repo/src/libinput.c:2923-2974`. `allocOk` is the outcome of `realloc`,
consulted only if the ring is full. -/
def post {α : Type} (r : Ring α) (e : α) (allocOk : Bool) : Option (Ring α) :=
  if r.count + 1 > r.len then
    if allocOk then store (grow r) e else some r
  else store r e

/-- `libinput_get_event`, `/repo/src/libinput.c:2976-2990`. The inner `Option` is the returned pointer
(`none` = NULL). -/
def get {α : Type} (r : Ring α) : Option (Ring α × Option α) :=
  if r.count = 0 then some (r, none)
  else if r.out < r.len then
    match r.mem r.out with
    | some e => some ({ r with out := (r.out + 1) % r.len, count := r.count - 1 }, some e)
    | none => none
  else none

/-- `libinput_next_event_type`, `/repo/src/libinput.c:2992-3002`: the event whose type is reported
(`none` = LIBINPUT_EVENT_NONE). -/
def peek {α : Type} (r : Ring α) : Option (Option α) :=
  if r.count = 0 then some none
  else if r.out < r.len then
    match r.mem r.out with
    | some e => some (some e)
    | none => none
  else none

/-- What can be done with the queue. -/
inductive Op (α : Type) where
  | post (e : α) (allocOk : Bool)
  | get
  | peek

/-- One operation: new state and, for `get`/`peek`, the value returned to the caller. The outer `none`
is undefined behaviour. -/
def step {α : Type} (r : Ring α) : Op α → Option (Ring α × List (Option α))
  | .post e ok => (post r e ok).map fun r' => (r', [])
  | .get => (get r).map fun (r', e) => (r', [e])
  | .peek => (peek r).map fun e => (r, [e])

/-- A whole history of operations; the values returned to the caller in order. -/
def run {α : Type} (r : Ring α) : List (Op α) → Option (Ring α × List (Option α))
  | [] => some (r, [])
  | op :: ops =>
    match step r op with
    | none => none
    | some (r', o) =>
      match run r' ops with
      | none => none
      | some (r'', os) => some (r'', o ++ os)

end Libinput.EventQueue
