import Verif.Tap.Model
import Verif.Common.Alternation
/-
The tap state machine on its own: which button is held in which state, how many fingers each state
stands for, and which states have the timer armed.
-/
set_option linter.unusedSimpArgs false
set_option linter.unusedVariables false
namespace Libinput.Tap
open Libinput.Buttons (Call)

/-- The finger count whose button is held in a state. -/
def heldOf : TSt → Option Fg
  | .tapped n | .dragOrDoubletap n | .dragOrTap n | .dragging n | .draggingWait n | .dragging2 n =>
    some n
  | _ => none

/-- The number of fingers a state stands for; `dead` stands for any. -/
def fingersOf : TSt → Option Nat
  | .idle | .tapped _ | .draggingWait _ => some 0
  | .touch | .hold | .touch2Release | .touch3Release2 | .dragOrDoubletap _ | .dragOrTap _
  | .dragging _ => some 1
  | .touch2 | .touch2Hold | .touch3Release | .dragging2 _ => some 2
  | .touch3 | .touch3Hold => some 3
  | .dead => none

/-- States that wait for the timer. -/
def needsTimer : TSt → Bool
  | .touch | .tapped _ | .touch2 | .touch2Release | .touch3 | .touch3Release | .touch3Release2
  | .dragOrDoubletap _ | .dragOrTap _ | .draggingWait _ => true
  | _ => false

/-- `nf` fingers fit state `st`. -/
def Fits (st : TSt) (nf : Nat) : Prop := ∀ k, fingersOf st = some k → nf = k

/-- The edges of a list of calls. -/
def edges (cs : List Call) : List (Edge Nat) := cs.map fun c => ⟨c.code, c.pressed⟩

/-- Codes held in a state. -/
def heldCode (f : Fsm) : Nat → Bool := fun c =>
  match heldOf f.st with
  | some n => decide (button f.map n = c)
  | none => false

/-- `buttons_pressed` agrees with the state. -/
def PressedOk (f : Fsm) : Prop := ∀ n, f.pressed n = decide (heldOf f.st = some n)

/-- A state waiting for the timer has it armed. -/
def TimerOk (f : Fsm) : Prop := needsTimer f.st = true → f.timer.isSome = true

theorem edges_append (a b : List Call) : edges (a ++ b) = edges a ++ edges b := by simp [edges]

/-- What every event does, whatever its preconditions. -/
structure Keeps (f g : Fsm) (cs : List Call) : Prop where
  valid : Alt.Valid (heldCode f) (edges cs)
  after : Alt.after (heldCode f) (edges cs) = heldCode g
  pressed : PressedOk g
  map : g.map = f.map
  wantMap : g.wantMap = f.wantMap
  drag : g.drag = f.drag
  dragLock : g.dragLock = f.dragLock

theorem Keeps.refl {f : Fsm} (h : PressedOk f) : Keeps f f [] :=
  ⟨trivial, rfl, h, rfl, rfl, rfl, rfl⟩

theorem Keeps.trans {f g h : Fsm} {a b : List Call} (x : Keeps f g a) (y : Keeps g h b) :
    Keeps f h (a ++ b) := by
  refine ⟨?_, ?_, y.pressed, y.map.trans x.map, y.wantMap.trans x.wantMap, y.drag.trans x.drag,
    y.dragLock.trans x.dragLock⟩
  · rw [edges_append, Alt.valid_append]; exact ⟨x.valid, by rw [x.after]; exact y.valid⟩
  · rw [edges_append, Alt.after_append, x.after]; exact y.after

theorem keeps_move {f g : Fsm} (hp : PressedOk f) (h : heldOf g.st = heldOf f.st)
    (h1 : g.pressed = f.pressed) (h2 : g.map = f.map) (h3 : g.wantMap = f.wantMap)
    (h4 : g.drag = f.drag) (h5 : g.dragLock = f.dragLock) : Keeps f g [] := by
  refine ⟨trivial, ?_, ?_, h2, h3, h4, h5⟩
  · funext c; simp only [edges, List.map_nil, Alt.after_nil, heldCode, h, h2]
  · intro n; rw [h1, h]; exact hp n

theorem keeps_press {f g : Fsm} {n : Fg} {t : Nat} (hp : PressedOk f) (h0 : heldOf f.st = none)
    (h : heldOf g.st = some n) (h1 : g.pressed = (mark f n true).pressed) (h2 : g.map = f.map)
    (h3 : g.wantMap = f.wantMap) (h4 : g.drag = f.drag) (h5 : g.dragLock = f.dragLock) :
    Keeps f g [notify f t n true] := by
  refine ⟨?_, ?_, ?_, h2, h3, h4, h5⟩
  · simp [edges, notify, Alt.Valid, heldCode, h0]
  · funext c; simp [edges, notify, Alt.after, heldCode, h0, h, h2]
  · intro m
    have := hp m
    rw [h1, h]; simp only [mark, h0] at *
    by_cases e : m = n <;> simp [e, this]; exact fun x => e x.symm

theorem keeps_release {f g : Fsm} {n : Fg} {t : Nat} (hp : PressedOk f) (h0 : heldOf f.st = some n)
    (h : heldOf g.st = none) (h1 : g.pressed = (mark f n false).pressed) (h2 : g.map = f.map)
    (h3 : g.wantMap = f.wantMap) (h4 : g.drag = f.drag) (h5 : g.dragLock = f.dragLock) :
    Keeps f g [notify f t n false] := by
  refine ⟨?_, ?_, ?_, h2, h3, h4, h5⟩
  · simp [edges, notify, Alt.Valid, heldCode, h0]
  · funext c; simp [edges, notify, Alt.after, heldCode, h0, h]
  · intro m
    have := hp m
    rw [h1, h]; simp only [mark, h0] at *
    by_cases e : m = n <;> simp [e, this]; exact fun x => e x.symm

theorem keeps_click {f g : Fsm} {n : Fg} {t t' : Nat} (hp : PressedOk f) (h0 : heldOf f.st = none)
    (h : heldOf g.st = none) (h1 : g.pressed = (mark (mark f n true) n false).pressed)
    (h2 : g.map = f.map) (h3 : g.wantMap = f.wantMap) (h4 : g.drag = f.drag)
    (h5 : g.dragLock = f.dragLock) :
    Keeps f g [notify f t n true, notify f t' n false] := by
  refine ⟨?_, ?_, ?_, h2, h3, h4, h5⟩
  · simp [edges, notify, Alt.Valid, heldCode, h0]
  · funext c; simp [edges, notify, Alt.after, heldCode, h0, h]
  · intro m
    have := hp m
    rw [h1, h]; simp only [mark, h0] at *
    by_cases e : m = n <;> simp [e, this]

theorem keeps_reclick {f g : Fsm} {n : Fg} {t t' : Nat} (hp : PressedOk f)
    (h0 : heldOf f.st = some n) (h : heldOf g.st = some .one)
    (h1 : g.pressed = (mark (mark f n false) .one true).pressed)
    (h2 : g.map = f.map) (h3 : g.wantMap = f.wantMap) (h4 : g.drag = f.drag)
    (h5 : g.dragLock = f.dragLock) :
    Keeps f g [notify f t n false, notify f t' .one true] := by
  refine ⟨?_, ?_, ?_, h2, h3, h4, h5⟩
  · by_cases e : button f.map n = button f.map .one <;>
      simp [edges, notify, Alt.Valid, heldCode, h0, e]
  · funext c
    by_cases e : button f.map n = c <;> by_cases e' : button f.map .one = c <;>
      simp [edges, notify, Alt.after, heldCode, h0, h, h2, e, e']
  · intro m
    have := hp m
    rw [h1, h]; simp only [mark, h0] at *
    cases n <;> cases m <;> simp_all

theorem handle_keeps (f : Fsm) (t : Nat) (e : TEv) (hp : PressedOk f) :
    Keeps f (handle f t e).1 (handle f t e).2.1 := by
  obtain ⟨st, timer, pressed, sp, sr, map, wm, drag, dl, nf, bugs, faults⟩ := f
  cases nf <;> cases drag <;> cases dl <;> cases st <;> cases e <;>
  first
  | exact keeps_move hp rfl rfl rfl rfl rfl rfl
  | exact keeps_press hp rfl rfl rfl rfl rfl rfl rfl
  | exact keeps_release hp rfl rfl rfl rfl rfl rfl rfl
  | exact keeps_click hp rfl rfl rfl rfl rfl rfl rfl
  | exact keeps_reclick hp rfl rfl rfl rfl rfl rfl rfl

/-- Events that come from a finger that is down. -/
def needsFinger : TEv → Bool
  | .motion | .release | .thumb | .palm => true
  | _ => false

theorem timerOk_no {g : Fsm} (h : needsTimer g.st = false) : TimerOk g := by
  intro h'; rw [h] at h'; cases h'

theorem timerOk_set {g : Fsm} {k : Nat} (h : g.timer = some k) : TimerOk g := by
  intro _; rw [h]; rfl

theorem timerOk_keep {f g : Fsm} (hf : TimerOk f) (h1 : needsTimer f.st = true)
    (h : g.timer = f.timer) : TimerOk g := by
  intro _; rw [h]; exact hf h1

theorem handle_timer (f : Fsm) (t : Nat) (e : TEv) (ht : TimerOk f) (he : e ≠ .timeout) :
    TimerOk (handle f t e).1 := by
  obtain ⟨st, timer, pressed, sp, sr, map, wm, drag, dl, nf, bugs, faults⟩ := f
  cases nf <;> cases drag <;> cases dl <;> cases st <;> cases e <;>
  first
  | exact absurd rfl he
  | exact timerOk_no rfl
  | exact timerOk_set rfl
  | exact timerOk_keep ht rfl rfl

theorem timeout_timer (f : Fsm) (t : Nat) : TimerOk (handle f t .timeout).1 := by
  obtain ⟨st, timer, pressed, sp, sr, map, wm, drag, dl, nf, bugs, faults⟩ := f
  cases st <;> exact timerOk_no rfl

theorem handle_bugs (f : Fsm) (t : Nat) (e : TEv)
    (hn : needsFinger e = true → fingersOf f.st ≠ some 0) :
    (handle f t e).1.bugs = f.bugs := by
  obtain ⟨st, timer, pressed, sp, sr, map, wm, drag, dl, nf, bugs, faults⟩ := f
  cases nf <;> cases drag <;> cases dl <;> cases st <;> cases e <;>
  first
  | rfl
  | exact absurd rfl (hn rfl)

theorem handle_nf (f : Fsm) (t : Nat) (e : TEv) (he : e ≠ .thumb) :
    (handle f t e).1.nf = f.nf ∧ (handle f t e).1.faults = f.faults ∧ (handle f t e).2.2 = false := by
  obtain ⟨st, timer, pressed, sp, sr, map, wm, drag, dl, nf, bugs, faults⟩ := f
  cases nf <;> cases drag <;> cases dl <;> cases st <;> cases e <;>
  first
  | exact absurd rfl he
  | exact ⟨rfl, rfl, rfl⟩

theorem thumb_nf (f : Fsm) (t : Nat) (h : 0 < f.nf) :
    (handle f t .thumb).1.nf = f.nf - (handle f t .thumb).2.2.toNat ∧
    (handle f t .thumb).1.faults = f.faults := by
  obtain ⟨st, timer, pressed, sp, sr, map, wm, drag, dl, nf, bugs, faults⟩ := f
  cases nf
  · exact absurd h (Nat.lt_irrefl 0)
  · cases st <;> exact ⟨rfl, rfl⟩

theorem fits_none {st : TSt} {n : Nat} (h : fingersOf st = none) : Fits st n := by
  intro k hk; rw [h] at hk; cases hk

theorem fits_some {st : TSt} {n k : Nat} (h : fingersOf st = some k) (e : n = k) : Fits st n := by
  intro j hj; rw [h] at hj; cases hj; exact e

theorem touch_fits (f : Fsm) (t m : Nat) (h : Fits f.st m) :
    Fits (handle f t .touch).1.st (m + 1) := by
  obtain ⟨st, timer, pressed, sp, sr, map, wm, drag, dl, nf, bugs, faults⟩ := f
  cases st <;>
  first
  | exact fits_none rfl
  | exact fits_some rfl (by have := h _ rfl; omega)

theorem release_fits (f : Fsm) (t : Nat) (h : Fits f.st (f.nf + 1)) :
    Fits (handle f t .release).1.st f.nf := by
  obtain ⟨st, timer, pressed, sp, sr, map, wm, drag, dl, nf, bugs, faults⟩ := f
  cases nf <;> cases drag <;> cases dl <;> cases st <;>
  first
  | exact fits_none rfl
  | exact fits_some rfl rfl
  | (have h' := h _ rfl; simp only at h'; first | omega | exact fits_some rfl (by simp only; omega))

theorem palm_fits (f : Fsm) (t : Nat) (h : Fits f.st f.nf) (h0 : 0 < f.nf) :
    Fits (handle f t .palm).1.st (f.nf - 1) := by
  obtain ⟨st, timer, pressed, sp, sr, map, wm, drag, dl, nf, bugs, faults⟩ := f
  cases nf
  · exact absurd h0 (Nat.lt_irrefl 0)
  cases drag <;> cases dl <;> cases st <;>
  first
  | exact fits_none rfl
  | (have h' := h _ rfl; simp only at h'; first | omega | exact fits_some rfl (by simp only; omega))

theorem other_fits (f : Fsm) (t : Nat) (e : TEv) (h : Fits f.st f.nf)
    (he : e = .motion ∨ e = .timeout ∨ e = .button ∨ e = .palmUp) :
    Fits (handle f t e).1.st f.nf := by
  obtain ⟨st, timer, pressed, sp, sr, map, wm, drag, dl, nf, bugs, faults⟩ := f
  rcases he with rfl | rfl | rfl | rfl <;> cases nf <;> cases st <;>
  first
  | exact fits_none rfl
  | exact fits_some rfl rfl
  | (have h' := h _ rfl; simp only at h'; first | omega | exact fits_some rfl (by simp only; omega))

theorem thumb_fits (f : Fsm) (t : Nat) (h : Fits f.st f.nf) (h0 : 0 < f.nf) :
    Fits (handle f t .thumb).1.st (handle f t .thumb).1.nf := by
  obtain ⟨st, timer, pressed, sp, sr, map, wm, drag, dl, nf, bugs, faults⟩ := f
  rcases nf with _ | k
  · exact absurd h0 (Nat.lt_irrefl 0)
  cases st <;>
  first
  | exact fits_none rfl
  | (have h' : k + 1 = _ := h _ rfl
     first | omega | exact fits_some rfl h' | exact fits_some rfl (show k = 0 by omega))
end Libinput.Tap
