import Verif.SoftButtons.Fingers
/-
Proofs about the software buttons: what a finger with a given record counts as.
-/
namespace Libinput.SoftButtons
open Spec

/-- The state of a finger with a record. -/
def after (is : List Item) : Core := (is.foldl feel {}).core

/-- What an item does to the state of a finger. -/
def Core.feel (c : Core) (i : Item) : Core := (SoftButtons.feel c.touch i).core

theorem touch_core (c : Core) : c.touch.core = c := rfl

theorem after_append (a b : List Item) : after (a ++ b) = b.foldl Core.feel (after a) := by
  unfold after
  rw [List.foldl_append]
  generalize a.foldl feel {} = t
  induction b generalizing t with
  | nil => rfl
  | cons i b ih =>
    rw [List.foldl_cons, List.foldl_cons, ih]
    congr 1
    exact feel_core (touch_core _).symm i

theorem after_nil : after [] = ⟨.none, none, none⟩ := rfl

theorem after_cons (i : Item) (is : List Item) : after (i :: is) = is.foldl Core.feel (after [i]) :=
  after_append [i] is

/-- The main area is for ever. -/
theorem feel_area (i : Item) : Core.feel ⟨.area, some .area, none⟩ i = ⟨.area, some .area, none⟩ := by
  cases i <;> rfl

theorem foldl_area (is : List Item) : is.foldl Core.feel ⟨.area, some .area, none⟩ = ⟨.area, some .area, none⟩ := by
  induction is with
  | nil => rfl
  | cons i is ih => rw [List.foldl_cons, feel_area, ih]

theorem foldl_bottom (is : List Item) (z : Zone) :
    is.foldl Core.feel ⟨.bottom, some z, none⟩ =
      if (zones is).all isBottom then ⟨.bottom, some ((zones is).getLastD z), none⟩
      else ⟨.area, some .area, none⟩ := by
  induction is generalizing z with
  | nil => simp [zones]
  | cons i is ih =>
    cases i with
    | click t =>
      rw [List.foldl_cons]
      exact ih z
    | tick t =>
      rw [List.foldl_cons]
      exact ih z
    | «at» w t =>
      rw [List.foldl_cons]
      have hw : Core.feel ⟨.bottom, some z, none⟩ (.at w t) =
          if isBottom w then ⟨.bottom, some w, none⟩ else ⟨.area, some .area, none⟩ := by
        cases w <;> simp [Core.feel, feel, handleEvent, bottomEvent, Zone.part, setState, isBottom, Core.touch,
          Touch.core] <;> split <;> simp_all
      rw [hw]
      simp only [zones, List.all_cons]
      by_cases hb : isBottom w = true
      · rw [if_pos hb, ih w]
        simp only [List.getLastD_cons, hb, Bool.true_and]
      · rw [if_neg hb, foldl_area]
        simp [hb]

/-- A finger that did not land on a top button. -/
theorem after_counts (z : Zone) (t : Nat) (is : List Item) (hz : isTop z = false) :
    (after (.at z t :: is)).cur = counts (zones (.at z t :: is)) := by
  rw [after_cons]
  cases hb : isBottom z with
  | true =>
    have : after [.at z t] = ⟨.bottom, some z, none⟩ := by
      cases z <;> first | rfl | simp [isBottom] at hb
    rw [this, foldl_bottom]
    simp only [zones, counts, List.all_cons, hb, Bool.true_and]
    split
    · simp [List.getLast_eq_getLastD]
    · rfl
  | false =>
    have : z = .area := by cases z <;> simp [isBottom, isTop] at hb hz ⊢
    subst this
    have : after [.at .area t] = ⟨.area, some .area, none⟩ := rfl
    rw [this, foldl_area]
    simp [zones, counts, isBottom]

/-- The state of a finger on top buttons. -/
def Stay.core (s : Stay) : Core :=
  if s.settled then ⟨.top, some s.on, none⟩ else ⟨.topNew, some s.on, some (s.since + 100000)⟩

theorem top_part {z : Zone} (h : isTop z = true) : z.part = .top := by
  cases z <;> first | rfl | simp [isTop] at h

theorem nottop_part {z : Zone} (h : isTop z = false) : z.part = .bottom ∨ z.part = .main := by
  cases z <;> first | exact Or.inl rfl | exact Or.inr rfl | simp [isTop] at h

theorem stay_feel (s : Stay) (i : Item) (hi : ∀ z t, i = .at z t → isTop z = true) :
    Core.feel (Stay.core s) i = Stay.core (s.next i) := by
  cases i with
  | «at» z t =>
    have hz := top_part (hi z t rfl)
    unfold Stay.core Stay.next
    by_cases hzs : z = s.on
    · subst hzs
      cases hs : s.settled <;>
        simp [Core.feel, feel, handleEvent, topEvent, topNewEvent, hz, Core.touch, Touch.core, hs]
    · cases s.settled <;>
        simp [Core.feel, feel, handleEvent, topEvent, topNewEvent, hz, Core.touch, Touch.core, hzs, setState,
          enterTimeout]
  | click t =>
    unfold Stay.core Stay.next
    cases s.settled <;> rfl
  | tick now =>
    unfold Stay.core Stay.next
    by_cases h : s.since + 100000 ≤ now <;> cases hs : s.settled <;>
      simp [h, hs, Core.feel, feel, Core.touch, Touch.core, handleEvent, topNewEvent, setState]

theorem stay_core (z : Zone) (t : Nat) (is : List Item) (hz : isTop z = true) (h : (zones is).all isTop = true) :
    after (.at z t :: is) = Stay.core (stay z t is) := by
  rw [after_cons]
  have h0 : after [.at z t] = Stay.core ⟨z, t, false⟩ := by
    cases z <;> first | rfl | simp [isTop] at hz
  rw [h0]
  unfold stay
  generalize (⟨z, t, false⟩ : Stay) = s
  induction is generalizing s with
  | nil => rfl
  | cons i is ih =>
    rw [List.foldl_cons, List.foldl_cons]
    have hi : ∀ z t, i = .at z t → isTop z = true := by
      rintro z t rfl
      simp only [zones, List.all_cons, Bool.and_eq_true] at h
      exact h.1
    rw [stay_feel s i hi]
    apply ih
    cases i with
    | «at» => simp only [zones, List.all_cons, Bool.and_eq_true] at h; exact h.2
    | click => exact h
    | tick => exact h

theorem stay_on (z : Zone) (t : Nat) (is : List Item) : (stay z t is).on = (zones is).getLastD z := by
  unfold stay
  generalize hs : (⟨z, t, false⟩ : Stay) = s
  have hz : z = s.on := by rw [← hs]
  rw [hz]
  clear hs hz
  induction is generalizing s with
  | nil => rfl
  | cons i is ih =>
    rw [List.foldl_cons, ih]
    cases i with
    | «at» w t =>
      simp only [Stay.next, zones, List.getLastD_cons]
      split
      · next h => rw [h]
      · rfl
    | click => rfl
    | tick => simp only [Stay.next, zones]; split <;> rfl

/-- Leaving the top buttons before having settled. -/
theorem leave_early (s : Stay) (h : s.settled = false) (w : Zone) (tw : Nat) (hw : isTop w = false)
    (post : List Item) : (.at w tw :: post).foldl Core.feel (Stay.core s) = ⟨.area, some .area, none⟩ := by
  rw [List.foldl_cons]
  have : Core.feel (Stay.core s) (.at w tw) = ⟨.area, some .area, none⟩ := by
    unfold Stay.core
    rw [h]
    rcases nottop_part hw with hp | hp <;>
      simp [Core.feel, feel, handleEvent, topNewEvent, hp, Core.touch, Touch.core, setState]
  rw [this, foldl_area]

/-- The state of a finger that left a top button after having settled. -/
theorem leave_settled (s : Stay) (h : s.settled = true) (w : Zone) (tw : Nat) (hw : isTop w = false) :
    Core.feel (Stay.core s) (.at w tw) = ⟨.topToIgnore, some s.on, some (tw + 300000)⟩ := by
  unfold Stay.core
  rw [h]
  rcases nottop_part hw with hp | hp <;>
    simp [Core.feel, feel, handleEvent, topEvent, hp, Core.touch, Touch.core, setState, leaveTimeout]

theorem away (b : Zone) (due : Nat) (is : List Item) (hz : (zones is).all (fun z => !isTop z) = true)
    (ht : ticksBefore due is) :
    is.foldl Core.feel ⟨.topToIgnore, some b, some due⟩ = ⟨.topToIgnore, some b, some due⟩ := by
  induction is with
  | nil => rfl
  | cons i is ih =>
    have ht' : ticksBefore due is := fun now hn => ht now (List.mem_cons_of_mem _ hn)
    rw [List.foldl_cons]
    cases i with
    | «at» w t =>
      simp only [zones, List.all_cons, Bool.and_eq_true, Bool.not_eq_true'] at hz
      have : Core.feel ⟨.topToIgnore, some b, some due⟩ (.at w t) = ⟨.topToIgnore, some b, some due⟩ := by
        rcases nottop_part hz.1 with hp | hp <;>
          simp [Core.feel, feel, handleEvent, topToIgnoreEvent, hp, Core.touch, Touch.core]
      rw [this]
      exact ih hz.2 ht'
    | click t => exact ih hz ht'
    | tick now =>
      have hlt := ht now List.mem_cons_self
      have : Core.feel ⟨.topToIgnore, some b, some due⟩ (.tick now) = ⟨.topToIgnore, some b, some due⟩ := by
        simp [Core.feel, feel, Core.touch, Touch.core, Nat.not_le.mpr hlt]
      rw [this]
      exact ih hz ht'

theorem expire (b : Zone) (due now : Nat) (h : due ≤ now) :
    Core.feel ⟨.topToIgnore, some b, some due⟩ (.tick now) = ⟨.ignore, none, none⟩ := by
  simp [Core.feel, feel, Core.touch, Touch.core, h, handleEvent, topToIgnoreEvent, setState]

theorem ignored (is : List Item) (c : Option Zone) :
    is.foldl Core.feel ⟨.ignore, c, none⟩ = ⟨.ignore, if is.any isClick then some .area else c, none⟩ := by
  induction is generalizing c with
  | nil => rfl
  | cons i is ih =>
    rw [List.foldl_cons]
    cases i with
    | «at» => exact ih c
    | tick => exact ih c
    | click t =>
      have : Core.feel ⟨.ignore, c, none⟩ (.click t) = ⟨.ignore, some .area, none⟩ := rfl
      rw [this, ih]
      simp [isClick]

theorem come_back (b : Zone) (due : Nat) (w : Zone) (t : Nat) (hw : isTop w = true) :
    Core.feel ⟨.topToIgnore, some b, some due⟩ (.at w t) =
      if w = b then Stay.core ⟨b, 0, true⟩ else Stay.core ⟨w, t, false⟩ := by
  have hp := top_part hw
  by_cases hwb : w = b
  · subst hwb
    simp [Core.feel, feel, handleEvent, topToIgnoreEvent, hp, Core.touch, Touch.core, setState, Stay.core]
  · simp [Core.feel, feel, handleEvent, topToIgnoreEvent, hp, Core.touch, Touch.core, setState, Stay.core, hwb,
      enterTimeout]

end Libinput.SoftButtons
