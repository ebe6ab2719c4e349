/- General list facts (no libinput content). -/
namespace Libinput.ListL

theorem nodup_subset_length {α : Type} [DecidableEq α] (a b : List α) (hn : a.Nodup)
    (h : ∀ x ∈ a, x ∈ b) : a.length ≤ b.length := by
  induction a generalizing b with
  | nil => simp
  | cons x xs ih =>
    rw [List.nodup_cons] at hn
    have hx := h x (by simp)
    have := ih (b.erase x) hn.2 (by
      intro y hy
      have hne : y ≠ x := fun he => hn.1 (he ▸ hy)
      exact (List.mem_erase_of_ne hne).mpr (h y (List.mem_cons_of_mem _ hy)))
    rw [List.length_erase_of_mem hx] at this
    have hpos : 0 < b.length := List.length_pos_of_mem hx
    simp only [List.length_cons]; omega

end Libinput.ListL
