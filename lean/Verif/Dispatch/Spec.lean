import Verif.Dispatch.Model
/-
Words for what is said about the main loop, in terms of the log of what happened.
-/
namespace Libinput.Dispatch.Spec
open Libinput.Dispatch

/-- The device an act is about, if it exists already. -/
def about : Act → Option Nat
  | .suspend d => some d
  | .resume d _ => some d
  | .create _ _ => none
  | .remove d _ => some d

/-- No device is suspended, resumed or removed by the handling of its own events: switches suspend other devices than the one
they are on, and removals come from udev or the caller. -/
def NotOneself (r : Owner × Call) : Prop := ∀ d, r.1 = .dev d → ∀ n, ∀ a ∈ r.2.react n, about a ≠ some d

/-- What is asked of callers and of the world: that, and that the udev monitor's socket is not also open in another process when
the context is suspended or destroyed. -/
def Fair : Op → Prop
  | .dispatch _ _ ready => ∀ r ∈ ready, NotOneself r
  | .act _ => True
  | .disable shared _ => shared = false
  | .enable _ _ => True
  | .destroy shared _ => shared = false

/-- The epoll instance has room for a device that is resumed. -/
def Room (a : Act) : Prop := ∀ d, a ≠ .resume d .notWatched

/-- So in all that an operation does. -/
def HasRoom : Op → Prop
  | .dispatch _ _ ready => ∀ r ∈ ready, ∀ n, ∀ a ∈ r.2.react n, Room a
  | .act a => Room a
  | _ => True

/-- No device there needs `mtdev`. -/
def Plain (a : Act) : Prop := ∀ sh, a ≠ .create true sh

def AllPlain : Op → Prop
  | .dispatch _ _ ready => ∀ r ∈ ready, ∀ n, ∀ a ∈ r.2.react n, Plain a
  | .act a => Plain a
  | .enable _ devs => ∀ x ∈ devs, x.1 = false
  | _ => True

/-- What may happen after `before`: a source is watched once, called and unwatched only while it is watched, freed once and only
after it was unwatched. -/
def May (before : List Did) : Did → Prop
  | .watch i _ => ∀ o, Did.watch i o ∉ before
  | .call i o => Did.watch i o ∈ before ∧ Did.unwatch i ∉ before ∧ Did.free i ∉ before
  | .unwatch i => (∃ o, Did.watch i o ∈ before) ∧ Did.unwatch i ∉ before ∧ Did.free i ∉ before
  | .free i => Did.unwatch i ∈ before ∧ Did.free i ∉ before
  | _ => True

/-- Everything in the log may happen after what is before it. -/
def Proper (log : List Did) : Prop := ∀ pre x post, log = pre ++ x :: post → May pre x

/-- The sources called, in order. -/
def calls (l : List Did) : List Nat := l.filterMap fun
  | .call i _ => some i
  | _ => none

/-- What devices were given to handle, with the times timers were flushed for. -/
def handled (l : List Did) : List Did := l.filter fun
  | .flush _ => true
  | .event _ _ => true
  | _ => false

/-- The messages that the caller is too slow. -/
def lags (l : List Did) : List Did := l.filter fun
  | .lag _ _ => true
  | _ => false

/-- The first event a call reads, other than those of a sync. -/
def firstRead : List Read → Option Ev
  | [] => none
  | .ev e :: _ => some e
  | .dropped _ _ rc :: rs => if rc = 11 then firstRead rs else none

/-- Handling an event: timers that are due by then, then the event. -/
def handling (d : Nat) (e : Ev) : List Did := [.flush e.time, .event d e]

/-- The events a call takes from the kernel, in order: if events were lost, the frame there is is closed by a report, and then
come the events of the sync; if that does not come to its end, nothing more. -/
def taken : List Read → List Ev
  | [] => []
  | .ev e :: rs => e :: taken rs
  | .dropped e sync rc :: rs => { e with code := 0 } :: sync ++ (if rc = 11 then taken rs else [])

/-- The error that ends it. -/
def ending (rc : Nat) : List Read → Nat
  | [] => rc
  | .ev _ :: rs => ending rc rs
  | .dropped _ _ rc' :: rs => if rc' = 11 then ending rc rs else rc'

/-- What is handled in a call of a source that is allocated in `s`: the events taken, if it is a device's. -/
def work (s : Ctx) (r : Nat × Call) : List Did :=
  match s.heap r.1 with
  | some ⟨_, .dev d⟩ => (taken r.2.reads).flatMap (handling d)
  | _ => []

/-- Whether a device goes on being read after its reading ended with this error: `EAGAIN` or `EINTR`. -/
def GoesOn (rc : Nat) : Prop := rc = 11 ∨ rc = 4
instance (rc) : Decidable (GoesOn rc) := inferInstanceAs (Decidable (_ ∨ _))

/-- What `mtdev` makes of events, given what it was given before. -/
def made (conv : Conv) (put : List Ev) : List Ev → List Ev
  | [] => []
  | e :: es => conv put e ++ made conv (put ++ [e]) es

/-- What `mtdev` made since the last report, `left` being what it had left. -/
def left (conv : Conv) (put : List Ev) (l : List Ev) : List Ev → List Ev
  | [] => l
  | e :: es => left conv (put ++ [e]) (if e.type = 0 ∧ e.code = 0 then [] else l ++ conv put e) es

/-- The device is read: there is a watch for it. -/
def Watched (s : Ctx) (o : Owner) : Prop := ∃ w ∈ s.epoll, w.owner = o

/-- The values of keys, axes and switches by type and code, after an event. -/
def apply (m : Nat × Nat → Int) (e : Ev) : Nat × Nat → Int :=
  if e.type = 0 then m else fun k => if k = (e.type, e.code) then e.value else m k

/-- After several. -/
def view (m : Nat × Nat → Int) (es : List Ev) : Nat × Nat → Int := es.foldl apply m

/-- The events of a device in the log. -/
def eventsOf (d : Nat) (l : List Did) : List Ev := l.filterMap fun
  | .event d' e => if d' = d then some e else none
  | _ => none

end Libinput.Dispatch.Spec
