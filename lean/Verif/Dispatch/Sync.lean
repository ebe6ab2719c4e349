import Verif.Dispatch.Whole
/-
A device in the kernel and libevdev's idea of it: what `libevdev_next_event` gives, as far as libevdev's documentation says.  This
is the environment, not libinput's code: the kernel's buffer of a client overflows and then has `SYN_DROPPED` and the latest event
(evdev(7)); libevdev then drains it and makes up the events by which what it knew differs from the device's state.
-/
namespace Libinput.Dispatch
open Spec

/-- What is in the kernel's buffer. -/
inductive Item where
  | ev (e : Ev)
  | lost (time : Nat)
deriving DecidableEq, Repr

structure Kernel where
  /-- what the device has -/
  codes : List (Nat × Nat)
  /-- the size of the buffer -/
  cap : Nat
  state : Nat × Nat → Int
  /-- what libevdev knows -/
  known : Nat × Nat → Int
  buf : List Item := []

/-- The device sends an event. -/
def Kernel.write (k : Kernel) (e : Ev) : Kernel :=
  { k with state := apply k.state e, buf := if k.buf.length < k.cap then k.buf ++ [.ev e] else [.lost e.time, .ev e] }

/-- The events of a sync. -/
def syncEvents (codes : List (Nat × Nat)) (known state : Nat × Nat → Int) (time : Nat) : List Ev :=
  codes.filterMap (fun c => if known c = state c then none else some ⟨time, c.1, c.2, state c⟩) ++ [⟨time, 0, 0, 0⟩]

/-- What reading the buffer to its end gives, and what is known afterwards. -/
def readBuf (codes : List (Nat × Nat)) (state : Nat × Nat → Int) : (Nat × Nat → Int) → List Item → List Read × (Nat × Nat → Int)
  | known, [] => ([], known)
  | known, .ev e :: b => (.ev e :: (readBuf codes state (apply known e) b).1, (readBuf codes state (apply known e) b).2)
  | known, .lost t :: _ => ([.dropped ⟨t, 0, 3, 0⟩ (syncEvents codes known state t) 11], view known (syncEvents codes known state t))

def Kernel.reads (k : Kernel) : List Read := (readBuf k.codes k.state k.known k.buf).1
def Kernel.drained (k : Kernel) : Kernel := { k with known := (readBuf k.codes k.state k.known k.buf).2, buf := [] }

/-- The device sends an event, or the caller calls `libinput_dispatch` because of it.  `react` is what happens to other devices. -/
inductive Happens where
  | write (e : Ev)
  | dispatch (now : Nat) (react : Nat → List Act)

def happen (conv : Conv) (d : Nat) (s : Ctx × Kernel) : Happens → M (Ctx × Kernel)
  | .write e => .ok (s.1, s.2.write e)
  | .dispatch now react =>
    match dispatch conv s.1 now none [(.dev d, { reads := s.2.reads, rc := 11, react := react })] with
    | .ok t => .ok (t, s.2.drained)
    | .error e => .error e

def happens (conv : Conv) (d : Nat) : Ctx × Kernel → List Happens → M (Ctx × Kernel)
  | s, [] => .ok s
  | s, x :: xs =>
    match happen conv d s x with
    | .ok s => happens conv d s xs
    | .error e => .error e

/-- The device has what it sends. -/
def Has (codes : List (Nat × Nat)) (e : Ev) : Prop := e.type = 0 ∨ (e.type, e.code) ∈ codes

/-- What is asked of what happens. -/
def Ordinary (codes : List (Nat × Nat)) (d : Nat) : Happens → Prop
  | .write e => Has codes e
  | .dispatch _ react => ∀ n, ∀ a ∈ react n, about a ≠ some d ∧ Plain a

theorem apply_at {m m' : Nat × Nat → Int} {c} (e) (h : m c = m' c) : apply m e c = apply m' e c := by
  unfold apply; split
  · exact h
  · dsimp only; split
    · rfl
    · exact h

theorem view_append (m a b) : view m (a ++ b) = view (view m a) b := by simp [view, List.foldl_append]

/-- Syncing makes up for what is not known. -/
theorem sync_known (codes known state t) {c} (hc : c ∈ codes) (hz : ∀ c ∈ codes, c.1 ≠ 0) :
    view known (syncEvents codes known state t) c = state c := by
  have key : ∀ (l : List (Nat × Nat)) (m : Nat × Nat → Int), (∀ c ∈ l, c.1 ≠ 0) →
      view m (l.filterMap (fun c => if known c = state c then none else some ⟨t, c.1, c.2, state c⟩)) c =
        if c ∈ l ∧ known c ≠ state c then state c else m c := by
    intro l
    induction l with
    | nil => intro m _; simp [view]
    | cons x l ih =>
      intro m hl
      have hx := hl x List.mem_cons_self
      have ih' := fun m => ih m (fun c hc => hl c (List.mem_cons_of_mem _ hc))
      by_cases hk : known x = state x
      · rw [List.filterMap_cons_none (by simp [hk]), ih']
        by_cases hcx : c = x
        · subst hcx; simp [hk]
        · simp [hcx]
      · rw [List.filterMap_cons_some (b := ⟨t, x.1, x.2, state x⟩) (by simp [hk])]
        have : view m (⟨t, x.1, x.2, state x⟩ :: l.filterMap (fun c => if known c = state c then none else some ⟨t, c.1, c.2, state c⟩)) =
          view (apply m ⟨t, x.1, x.2, state x⟩) (l.filterMap (fun c => if known c = state c then none else some ⟨t, c.1, c.2, state c⟩)) := rfl
        rw [this, ih']
        by_cases hcx : c = x
        · subst hcx
          simp [apply, hx, hk]
        · have : apply m ⟨t, x.1, x.2, state x⟩ c = m c := by
            unfold apply
            rw [if_neg hx]; dsimp only
            rw [if_neg]; exact hcx
          rw [this]; simp [hcx]
  unfold syncEvents
  rw [view_append]
  have last : ∀ m : Nat × Nat → Int, view m [⟨t, 0, 0, 0⟩] = m := fun m => by simp [view, apply]
  rw [last, key codes known hz]
  by_cases hk : known c = state c
  · simp [hk]
  · simp [hc, hk]

/-- What is in the buffer makes what is known what is. -/
def Caught (state : Nat × Nat → Int) (codes : List (Nat × Nat)) : (Nat × Nat → Int) → List Item → Prop
  | known, [] => ∀ c ∈ codes, known c = state c
  | known, .ev e :: b => Caught state codes (apply known e) b
  | _, .lost _ :: _ => True

theorem caught_write {state codes} (e : Ev) : ∀ (b : List Item) (known : Nat × Nat → Int), Caught state codes known b →
    Caught (apply state e) codes known (b ++ [.ev e]) := by
  intro b
  induction b with
  | nil => intro known h c hc; exact apply_at e (h c hc)
  | cons x b ih =>
    intro known h
    cases x with
    | ev e' => exact ih _ h
    | lost t => trivial

theorem readBuf_known (codes state) : ∀ (b : List Item) known, (readBuf codes state known b).2 = view known (taken (readBuf codes state known b).1) := by
  intro b
  induction b with
  | nil => intro known; rfl
  | cons x b ih =>
    intro known
    cases x with
    | ev e => simp only [readBuf, taken]; rw [ih]; rfl
    | lost t =>
      simp only [readBuf, taken]
      simp only [if_true, List.append_nil]
      rfl

theorem readBuf_caught (codes state) (hz : ∀ c ∈ codes, c.1 ≠ 0) : ∀ (b : List Item) known, Caught state codes known b →
    ∀ c ∈ codes, (readBuf codes state known b).2 c = state c := by
  intro b
  induction b with
  | nil => intro known h; exact h
  | cons x b ih =>
    intro known h c hc
    cases x with
    | ev e => exact ih _ h c hc
    | lost t => exact sync_known codes known state t hc hz

theorem readBuf_ending (codes state) : ∀ (b : List Item) known, ending 11 (readBuf codes state known b).1 = 11 := by
  intro b
  induction b with
  | nil => intro known; rfl
  | cons x b ih =>
    intro known
    cases x with
    | ev e => exact ih _
    | lost t => simp [readBuf, ending]

theorem eventsOf_handled (d l) : eventsOf d (handled l) = eventsOf d l := by
  induction l with
  | nil => rfl
  | cons x l ih =>
    cases x with
    | flush t => exact ih
    | event e' e =>
      by_cases hd : e' = d
      · have : handled (.event e' e :: l) = .event e' e :: handled l := rfl
        rw [this]; simp only [eventsOf, List.filterMap_cons, hd, if_pos]; congr 1
      · have : handled (.event e' e :: l) = .event e' e :: handled l := rfl
        rw [this]; simp only [eventsOf, List.filterMap_cons, hd, if_false]; exact ih
    | watch => exact ih
    | unwatch => exact ih
    | free => exact ih
    | call => exact ih
    | lag => exact ih
    | resumed => exact ih

theorem eventsOf_append (d a b) : eventsOf d (a ++ b) = eventsOf d a ++ eventsOf d b := by simp [eventsOf]

theorem eventsOf_work (d : Nat) (es : List Ev) : eventsOf d (es.flatMap (handling d)) = es := by
  induction es with
  | nil => rfl
  | cons e es ih =>
    rw [List.flatMap_cons, eventsOf_append, ih]
    simp [handling, eventsOf]

end Libinput.Dispatch
