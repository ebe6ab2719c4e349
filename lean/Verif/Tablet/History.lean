import Verif.Tablet.Model
/-
The samples of a tablet are kept in a ring.  Here the ring is shown to be the list `Verif/Tablet/Model.lean` uses, and the
division of the code, which mixes signed and unsigned numbers, to be the division of the model.
-/
namespace Libinput.Tablet

/-- The history of the code.  Models: /repo/src/evdev-tablet.h:56-115. -/
structure Ring where
  samples : Nat → Axes := fun _ => {}
  index : Nat := 0
  count : Nat := 0

/-- `tablet_history_push`, which calls itself until the ring is full.  Models: /repo/src/evdev-tablet.c:101-115. -/
def Ring.push (n : Nat) (r : Ring) (a : Axes) : Ring :=
  let i := (r.index + 1) % n
  let r' : Ring := { samples := fun j => if j = i then a else r.samples j, index := i, count := min (r.count + 1) n }
  if min (r.count + 1) n < n then Ring.push n r' a else r'
termination_by n - r.count
decreasing_by simp_wf; omega

/-- `tablet_history_reset`.  Models: /repo/src/evdev-tablet.c:95-99. -/
def Ring.reset (r : Ring) : Ring := { r with count := 0 }

/-- `tablet_history_get`.  Models: /repo/src/evdev-tablet.c:121-131. -/
def Ring.get (n : Nat) (r : Ring) (i : Nat) : Axes := r.samples ((r.index + n - i) % n)

/-- The ring holds the samples of the list, the newest first. -/
def Ring.Holds (n : Nat) (r : Ring) (h : List Axes) : Prop :=
  (r.count = 0 ∧ h = []) ∨ (r.count = n ∧ h = (List.range n).map (r.get n))

theorem ring_fill (n : Nat) (a : Axes) : ∀ (d : Nat) (r : Ring), n - r.count = d + 1 →
    (r.push n a).count = n ∧ (r.push n a).index = (r.index + (d + 1)) % n ∧
    (∀ p, r.samples p = a → (r.push n a).samples p = a) ∧
    ∀ j, 1 ≤ j → j ≤ d + 1 → (r.push n a).samples ((r.index + j) % n) = a := by
  intro d
  induction d with
  | zero =>
    intro r h
    rw [Ring.push]
    have h1 : ¬ min (r.count + 1) n < n := by omega
    simp only [h1, if_false]
    refine ⟨by omega, trivial, fun p hp => ?_, fun j h1 h2 => ?_⟩
    · split
      · rfl
      · exact hp
    · obtain rfl : j = 1 := by omega
      simp
  | succ d ih =>
    intro r h
    rw [Ring.push]
    have h1 : min (r.count + 1) n < n := by omega
    simp only [h1, if_true]
    obtain ⟨i1, i2, i3, i4⟩ := ih { samples := fun j => if j = (r.index + 1) % n then a else r.samples j, index := (r.index + 1) % n, count := min (r.count + 1) n } (by dsimp only; omega)
    dsimp only at i1 i2 i3 i4
    refine ⟨i1, ?_, fun p hp => i3 p ?_, fun j j1 j2 => ?_⟩
    · rw [i2, Nat.mod_add_mod, show r.index + 1 + (d + 1) = r.index + (d + 1 + 1) by omega]
    · split
      · rfl
      · exact hp
    · by_cases hj : j = 1
      · subst hj
        exact i3 _ (by simp)
      · have := i4 (j - 1) (by omega) (by omega)
        rw [Nat.mod_add_mod, show r.index + 1 + (j - 1) = r.index + j by omega] at this
        exact this

theorem range_split (n : Nat) (h : 0 < n) (f : Nat → Axes) :
    (List.range n).map f = f 0 :: (List.range (n - 1)).map (fun i => f (i + 1)) := by
  obtain ⟨m, rfl⟩ : ∃ m, n = m + 1 := ⟨n - 1, by omega⟩
  rw [List.range_succ_eq_map]
  simp [List.map_map, Function.comp_def]

/-- A push to the ring is a push to the list. -/
theorem ring_push (n : Nat) (hn : 0 < n) (r : Ring) (h : List Axes) (a : Axes) (H : r.Holds n h) :
    (r.push n a).Holds n (push n h a) := by
  unfold push
  rcases H with ⟨h0, rfl⟩ | ⟨hc, rfl⟩
  · rw [if_pos rfl]
    obtain ⟨i1, i2, _, i4⟩ := ring_fill n a (n - 1) r (by omega)
    refine .inr ⟨i1, ?_⟩
    rw [show n - 1 + 1 = n by omega] at i2 i4
    apply List.ext_getElem
    · simp
    · intro i h1 h2
      simp only [List.length_replicate] at h1
      simp only [List.getElem_replicate, List.getElem_map, List.getElem_range, Ring.get, i2, Nat.add_mod_right]
      have : (r.index % n + n - i) % n = (r.index + (n - i)) % n := by
        rw [show r.index % n + n - i = r.index % n + (n - i) by omega, Nat.mod_add_mod]
      rw [this]
      exact (i4 (n - i) (by omega) (by omega)).symm
  · rw [if_neg (by rw [range_split n hn]; simp)]
    rw [Ring.push]
    have h1 : ¬ min (r.count + 1) n < n := by omega
    simp only [h1, if_false]
    refine .inr ⟨by dsimp only; omega, ?_⟩
    conv => rhs; rw [range_split n hn]
    obtain ⟨m, rfl⟩ : ∃ m, n = m + 1 := ⟨n - 1, by omega⟩
    rw [List.take_succ_cons]
    congr 1
    · simp [Ring.get]
    · rw [← List.map_take, List.take_range, show min m (m + 1) = m by omega, show m + 1 - 1 = m by omega]
      apply List.map_congr_left
      intro i hi
      have hi' : i < m := List.mem_range.1 hi
      simp only [Ring.get]
      have e : ((r.index + 1) % (m + 1) + (m + 1) - (i + 1)) % (m + 1) = (r.index + (m + 1) - i) % (m + 1) := by
        rw [show (r.index + 1) % (m + 1) + (m + 1) - (i + 1) = (r.index + 1) % (m + 1) + (m - i) by omega, Nat.mod_add_mod,
          show r.index + 1 + (m - i) = r.index + (m + 1) - i by omega]
      rw [e, if_neg]
      intro hc
      have h2 : (r.index + (m + 1) - i) % (m + 1) = (r.index + 1) % (m + 1) := hc
      rw [show r.index + (m + 1) - i = (r.index + 1) + (m - i) by omega] at h2
      have h3 := Nat.mod_add_mod (r.index + 1) (m + 1) (m - i)
      rw [h2] at h3
      generalize (r.index + 1) % (m + 1) = x at h3 h2
      have hx : x < m + 1 := by rw [← h2]; exact Nat.mod_lt _ (by omega)
      by_cases hlt : x + (m - i) < m + 1
      · rw [Nat.mod_eq_of_lt hlt] at h3; omega
      · rw [Nat.mod_eq_sub_mod (by omega), Nat.mod_eq_of_lt (by omega)] at h3; omega

/-- A reset empties the list. -/
theorem ring_reset (n : Nat) (r : Ring) : r.reset.Holds n [] := .inl ⟨rfl, rfl⟩

/-- The loop of `tablet_smoothen_axes` adds up the samples of the list.  Models: /repo/src/evdev-tablet.c:671-694. -/
theorem ring_sum (n : Nat) (r : Ring) (h : List Axes) (f : Axes → Int) (H : r.Holds n h) (hne : h ≠ []) :
    (List.range n).foldl (fun s i => s + f (r.get n i)) 0 = (h.map f).sum := by
  rcases H with ⟨_, rfl⟩ | ⟨_, rfl⟩
  · exact absurd rfl hne
  · rw [List.map_map]
    have : ∀ (l : List Nat) (z : Int), l.foldl (fun s i => s + f (r.get n i)) z = z + (l.map (f ∘ r.get n)).sum := by
      intro l
      induction l with
      | nil => intro z; simp
      | cons x l ih => intro z; simp only [List.foldl_cons, ih, List.map_cons, List.sum_cons, Function.comp]; omega
    rw [this]; simp

example : (({} : Ring).push 4 { x := 7 }).Holds 4 (push 4 [] { x := 7 }) := ring_push 4 (by decide) _ _ _ (.inl ⟨rfl, rfl⟩)

/-- `(int)((size_t)v / n)`: an `int` divided by a `size_t` is first made unsigned. -/
def cDiv (v : Int) (n : Nat) : Int := Int.bmod ((v % 2 ^ 64) / n) (2 ^ 32)

/-- For the two sizes a history can have the code's division is the one of the model, which rounds down. -/
theorem cDiv_four (v : Int) (h : -2 ^ 31 ≤ v ∧ v < 2 ^ 31) : cDiv v 4 = v / (4 : Nat) ∧ cDiv v 1 = v / (1 : Nat) := by
  unfold cDiv
  constructor
  · by_cases h0 : 0 ≤ v
    · rw [Int.emod_eq_of_lt h0 (by omega), Int.bmod_eq_of_le] <;> omega
    · have : v % 2 ^ 64 = v + 2 ^ 64 := by omega
      rw [this]
      have : (v + 2 ^ 64) / ((4 : Nat) : Int) = v / 4 + 2 ^ 62 := by omega
      rw [this, show (2 : Int) ^ 62 = (2 ^ 32 : Nat) * 2 ^ 30 by decide, Int.add_mul_bmod_self_left, Int.bmod_eq_of_le] <;> omega
  · by_cases h0 : 0 ≤ v
    · rw [Int.emod_eq_of_lt h0 (by omega), Int.bmod_eq_of_le] <;> omega
    · have : v % 2 ^ 64 = v + 2 ^ 64 := by omega
      rw [this]
      have : (v + 2 ^ 64) / ((1 : Nat) : Int) = v + 2 ^ 64 := by omega
      rw [this, show (2 : Int) ^ 64 = (2 ^ 32 : Nat) * 2 ^ 32 by decide, Int.add_mul_bmod_self_left, Int.bmod_eq_of_le] <;> omega

example : cDiv (-7) 4 = -2 := by decide

end Libinput.Tablet
