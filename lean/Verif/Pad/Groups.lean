import Verif.Pad.Buttons
/-
The mode groups of tablet pads.
-/
namespace Libinput.Pad

attribute [local irreducible] codes

/-! ### Modes -/

theorem readMode_range' (lit : Nat → Option Nat) (m : Nat) (len : Nat) : ∀ k, readMode lit (List.range' k len) = some m ↔
    k ≤ m ∧ m < k + len ∧ (∃ b, lit m = some b ∧ b ≠ 0) ∧ ∀ j, k ≤ j → j < m → lit j = some 0 := by
  induction len with
  | zero => intro k; simp only [List.range'_zero, readMode]; constructor
            · intro h; cases h
            · intro h; omega
  | succ len ih =>
    intro k
    rw [List.range'_succ]
    unfold readMode
    cases hk : lit k with
    | none =>
      simp only
      constructor
      · intro h; cases h
      · rintro ⟨h1, h2, ⟨b, hb, _⟩, h4⟩
        by_cases hm : k = m
        · subst hm; rw [hk] at hb; cases hb
        · have := h4 k (Nat.le_refl _) (by omega); rw [hk] at this; cases this
    | some b =>
      simp only
      split
      · rename_i hb
        constructor
        · intro h; injection h with h; subst h
          exact ⟨Nat.le_refl _, by omega, ⟨b, hk, hb⟩, fun j _ _ => by omega⟩
        · rintro ⟨h1, h2, _, h4⟩
          by_cases hm : k = m
          · rw [hm]
          · have := h4 k (Nat.le_refl _) (by omega); rw [hk] at this; injection this with this; exact absurd this hb
      · rename_i hb
        have hb : b = 0 := Classical.not_not.1 hb
        rw [ih]
        constructor
        · rintro ⟨h1, h2, h3, h4⟩
          refine ⟨by omega, by omega, h3, fun j hj hjm => ?_⟩
          by_cases hj' : j = k
          · rw [hj', hk, hb]
          · exact h4 j (by omega) hjm
        · rintro ⟨h1, h2, h3, h4⟩
          refine ⟨?_, by omega, h3, fun j hj hjm => h4 j (by omega) hjm⟩
          have : k ≠ m := by
            rintro rfl
            obtain ⟨b', hb', hn⟩ := h3
            rw [hk] at hb'; injection hb' with hb'; exact hn (hb' ▸ hb)
          omega

theorem readMode_iff (lit : Nat → Option Nat) (n m : Nat) : readMode lit (List.range n) = some m ↔ FirstLit lit n m := by
  rw [List.range_eq_range', readMode_range']
  unfold FirstLit
  constructor
  · rintro ⟨_, h2, h3, h4⟩; exact ⟨by omega, h3, fun j hj => h4 j (Nat.zero_le _) hj⟩
  · rintro ⟨h2, h3, h4⟩; exact ⟨Nat.zero_le _, by omega, h3, fun j _ hj => h4 j hj⟩

/-! ### Groups as they are made -/

structure GOk (gs : List Group) : Prop where
  nodup : (gs.map Group.index).Nodup
  mode : ∀ g ∈ gs, g.mode < g.numModes ∧ g.leds ≤ g.numModes

theorem newGroup_spec (cfg : Cfg) (lit : Lit) (i n : Nat) (g : Group) (h : newGroup cfg lit i n = some g) :
    g.index = i ∧ g.numModes = n ∧ g.leds = n ∧ FirstLit (lit i) n g.mode ∧ (∀ k, g.buttons k = false) ∧ (∀ k, g.rings k = false) ∧
      (∀ k, g.strips k = false) ∧ ∀ k, g.toggles k = false := by
  unfold newGroup at h
  split at h
  · split at h
    · rename_i m hm
      injection h with h; subst h
      exact ⟨rfl, rfl, rfl, (readMode_iff _ _ _).1 hm, fun _ => rfl, fun _ => rfl, fun _ => rfl, fun _ => rfl⟩
    · cases h
  · cases h

/-- A group that no button, ring or strip is in. -/
def Empty (g : Group) : Prop := (∀ k, g.buttons k = false) ∧ (∀ k, g.rings k = false) ∧ (∀ k, g.strips k = false) ∧ ∀ k, g.toggles k = false

theorem ledGroups_spec (cfg : Cfg) (lit : Lit) (w : Wacom) (ls : List Led) : ∀ i gs r, ledGroups cfg lit w i ls gs = some r →
    GOk gs → (∀ g ∈ gs, g.index < i ∧ Empty g ∧ g.leds = g.numModes ∧ FirstLit (lit g.index) g.numModes g.mode) →
    GOk r ∧ (∀ g ∈ r, g.index < i + ls.length ∧ Empty g ∧ g.leds = g.numModes ∧ FirstLit (lit g.index) g.numModes g.mode) ∧
      (∀ g ∈ gs, g ∈ r) ∧
      (∀ j l, ls[j]? = some l → l ≠ .unavailable ∧ (l ≠ .other → ∃ g ∈ r, g.index = i + j ∧ g.numModes = w.modes l)) ∧
      ((∀ l ∈ ls, l ≠ .other) → r.length = gs.length + ls.length) := by
  induction ls with
  | nil =>
    intro i gs r h G B
    injection h with h; subst h
    exact ⟨G, B, fun g h => h, fun j l h => (by simp at h), fun _ => rfl⟩
  | cons l ls ih =>
    intro i gs r h G B
    have none_case : ∀ l', l' = l → (∀ g, newGroup cfg lit i (w.modes l') = some g → ledGroups cfg lit w (i + 1) ls (g :: gs) = some r →
        GOk r ∧ (∀ g ∈ r, g.index < i + (l :: ls).length ∧ Empty g ∧ g.leds = g.numModes ∧ FirstLit (lit g.index) g.numModes g.mode) ∧
      (∀ g ∈ gs, g ∈ r) ∧ (l ≠ .unavailable →
      (∀ j l1, (l :: ls)[j]? = some l1 → l1 ≠ .unavailable ∧ (l1 ≠ .other → ∃ g ∈ r, g.index = i + j ∧ g.numModes = w.modes l1))) ∧
      ((∀ l1 ∈ l :: ls, l1 ≠ .other) → r.length = gs.length + (l :: ls).length)) := by
      intro l' hl g hg hr
      subst hl
      obtain ⟨n1, n2, n3, n4, n5, n6, n7, n8⟩ := newGroup_spec cfg lit i _ g hg
      have G' : GOk (g :: gs) := by
        refine ⟨?_, ?_⟩
        · rw [List.map_cons, List.nodup_cons]
          refine ⟨fun hm => ?_, G.nodup⟩
          obtain ⟨x, hx, he⟩ := List.mem_map.1 hm
          have := (B x hx).1; omega
        · intro x hx
          rcases List.mem_cons.1 hx with rfl | hx
          · exact ⟨by rw [n2]; exact n4.1, by omega⟩
          · exact G.mode x hx
      have B' : ∀ x ∈ g :: gs, x.index < i + 1 ∧ Empty x ∧ x.leds = x.numModes ∧ FirstLit (lit x.index) x.numModes x.mode := by
        intro x hx
        rcases List.mem_cons.1 hx with rfl | hx
        · exact ⟨by omega, ⟨n5, n6, n7, n8⟩, by omega, by rw [n1, n2]; exact n4⟩
        · have := B x hx; exact ⟨by omega, this.2⟩
      obtain ⟨i1, i2, i3, i4, i5⟩ := ih (i + 1) _ r hr G' B'
      refine ⟨i1, fun x hx => ?_, fun x hx => i3 x (by simp [hx]), fun hu j l1 hj => ?_, fun ho => ?_⟩
      · have := i2 x hx
        rw [List.length_cons]
        exact ⟨by omega, this.2⟩
      · cases j with
        | zero =>
          simp only [List.getElem?_cons_zero, Option.some.injEq] at hj
          subst hj
          exact ⟨hu, fun _ => ⟨g, i3 g (by simp), by omega, n2⟩⟩
        | succ j =>
          simp only [List.getElem?_cons_succ] at hj
          obtain ⟨k1, k2⟩ := i4 j l1 hj
          refine ⟨k1, fun h => ?_⟩
          obtain ⟨x, hx, h1, h2⟩ := k2 h
          exact ⟨x, hx, by omega, h2⟩
      · rw [i5 (fun l hl => ho l (by simp [hl])), List.length_cons, List.length_cons]; omega
    cases l with
    | unavailable => cases h
    | other =>
      simp only [ledGroups] at h
      obtain ⟨i1, i2, i3, i4, i5⟩ := ih (i + 1) gs r h G (fun x hx => ⟨by have := (B x hx).1; omega, (B x hx).2⟩)
      refine ⟨i1, fun x hx => ?_, i3, fun j l1 hj => ?_, fun ho => absurd rfl (ho .other (by simp))⟩
      · have := i2 x hx
        rw [List.length_cons]
        exact ⟨by omega, this.2⟩
      · cases j with
        | zero =>
          simp only [List.getElem?_cons_zero, Option.some.injEq] at hj
          subst hj
          exact ⟨by simp, fun h => absurd rfl h⟩
        | succ j =>
          simp only [List.getElem?_cons_succ] at hj
          obtain ⟨k1, k2⟩ := i4 j l1 hj
          refine ⟨k1, fun h => ?_⟩
          obtain ⟨x, hx, h1, h2⟩ := k2 h
          exact ⟨x, hx, by omega, h2⟩
    | ring | ring2 | strip | strip2 =>
      simp only [ledGroups] at h
      split at h
      · rename_i g hg
        obtain ⟨a1, a2, a3, a4, a5⟩ := none_case _ rfl g hg h
        exact ⟨a1, a2, a3, a4 (by simp), a5⟩
      · cases h

/-- What makes two lists of groups the same but for what is in them. -/
def skel (g : Group) : Nat × Nat × Nat × Nat := (g.index, g.numModes, g.mode, g.leds)

theorem skel_gok {gs gs' : List Group} (h : gs'.map skel = gs.map skel) (G : GOk gs) : GOk gs' := by
  have hi : gs'.map Group.index = gs.map Group.index := by
    have := congrArg (List.map Prod.fst) h
    simpa [List.map_map, Function.comp_def, skel] using this
  refine ⟨hi ▸ G.nodup, fun g hg => ?_⟩
  have : skel g ∈ gs.map skel := h ▸ List.mem_map_of_mem hg
  obtain ⟨x, hx, he⟩ := List.mem_map.1 this
  simp only [skel, Prod.mk.injEq] at he
  have := G.mode x hx
  omega

theorem onGroup_skel (i : Nat) (f : Group → Group) (gs : List Group) (hf : ∀ g, skel (f g) = skel g) : (onGroup i f gs).map skel = gs.map skel := by
  unfold onGroup
  rw [List.map_map]
  apply List.map_congr_left
  intro g _
  simp only [Function.comp]
  split
  · exact hf g
  · rfl

theorem modeButtons_skel (all : List WButton) (bs : List WButton) : ∀ i gs r, modeButtons all bs i gs = some r → r.map skel = gs.map skel := by
  induction bs with
  | nil => intro i gs r h; injection h with h; rw [h]
  | cons b bs ih =>
    intro i gs r h
    simp only [modeButtons] at h
    split at h
    · cases h
    · split at h
      · rw [ih _ _ _ h, onGroup_skel]
        intro g; rfl
      · cases h

theorem modeRings_skel (ls : List Led) : ∀ i gs, (modeRings ls i gs).map skel = gs.map skel := by
  induction ls with
  | nil => intro i gs; rfl
  | cons l ls ih =>
    intro i gs
    unfold modeRings
    rw [ih]
    cases l <;> first | rfl | (dsimp only; rw [onGroup_skel]; intro g; rfl)

theorem modeRings_buttons (ls : List Led) : ∀ i gs, (modeRings ls i gs).map (fun g => (g.buttons, g.toggles)) = gs.map (fun g => (g.buttons, g.toggles)) := by
  induction ls with
  | nil => intro i gs; rfl
  | cons l ls ih =>
    intro i gs
    unfold modeRings
    rw [ih]
    have key : ∀ f : Group → Group, (∀ g, (f g).buttons = g.buttons ∧ (f g).toggles = g.toggles) →
        (onGroup i f gs).map (fun g => (g.buttons, g.toggles)) = gs.map (fun g => (g.buttons, g.toggles)) := by
      intro f hf
      unfold onGroup
      rw [List.map_map]
      apply List.map_congr_left
      intro g _
      simp only [Function.comp]
      split
      · rw [(hf g).1, (hf g).2]
      · rfl
    cases l <;> first | rfl | exact key _ (fun g => ⟨rfl, rfl⟩)

/-- Which groups a button is in. -/
def Owns (gs : List Group) (n : Nat) : List Nat := (gs.filter (fun g => g.buttons n)).map Group.index

theorem onGroup_addButton_other (gs : List Group) (i n m : Nat) (t : Bool) (h : m ≠ n) :
    Owns (onGroup i (fun x => x.addButton n t) gs) m = Owns gs m := by
  unfold Owns onGroup
  induction gs with
  | nil => rfl
  | cons g gs ih =>
    simp only [List.map_cons, List.filter_cons]
    have : (if g.index = i then g.addButton n t else g).buttons m = g.buttons m := by
      split
      · simp [Group.addButton, h]
      · rfl
    rw [this]
    have hi : (if g.index = i then g.addButton n t else g).index = g.index := by split <;> rfl
    split
    · simp only [List.map_cons, hi, ih]
    · exact ih

theorem owns_nil_iff (gs : List Group) (n : Nat) : Owns gs n = [] ↔ ∀ g ∈ gs, g.buttons n = false := by
  unfold Owns
  simp [List.filter_eq_nil_iff]

theorem onGroup_addButton_self (gs : List Group) (i n : Nat) (t : Bool) (nd : (gs.map Group.index).Nodup) (hi : i ∈ gs.map Group.index)
    (h0 : Owns gs n = []) : Owns (onGroup i (fun x => x.addButton n t) gs) n = [i] := by
  have e0 := (owns_nil_iff gs n).1 h0
  clear h0
  induction gs with
  | nil => cases hi
  | cons g gs ih =>
    rw [List.map_cons, List.nodup_cons] at nd
    unfold Owns onGroup
    simp only [List.map_cons, List.filter_cons]
    by_cases hg : g.index = i
    · have hb : (g.addButton n t).buttons n = true := by simp [Group.addButton]
      rw [if_pos hg, if_pos hb]
      simp only [List.map_cons]
      have rest : Owns (onGroup i (fun x => x.addButton n t) gs) n = [] := by
        rw [owns_nil_iff]
        intro x hx
        unfold onGroup at hx
        obtain ⟨y, hy, rfl⟩ := List.mem_map.1 hx
        have : y.index ≠ i := fun h => nd.1 (by rw [hg, ← h]; exact List.mem_map_of_mem hy)
        rw [if_neg this]
        exact e0 y (by simp [hy])
      unfold Owns onGroup at rest
      rw [rest]
      show [g.index] = [i]
      rw [hg]
    · rw [if_neg hg, if_neg (by rw [e0 g (by simp)]; simp)]
      rcases List.mem_cons.1 hi with h | h
      · exact absurd h.symm hg
      · exact ih nd.2 h (fun x hx => e0 x (by simp [hx]))

theorem skel_index {gs gs' : List Group} (h : gs'.map skel = gs.map skel) : gs'.map Group.index = gs.map Group.index := by
  have := congrArg (List.map Prod.fst) h
  simpa [List.map_map, Function.comp_def, skel] using this

/-- Every button is in exactly one group, and switches modes only of its own group. -/
theorem modeButtons_owns (all : List WButton) (bs : List WButton) : ∀ i gs r, modeButtons all bs i gs = some r →
    (gs.map Group.index).Nodup → (∀ n, i ≤ n → Owns gs n = []) → (∀ n < i, ∃ g, Owns gs n = [g]) →
    (∀ g ∈ gs, ∀ n, g.toggles n = true → g.buttons n = true) →
    (∀ n < i + bs.length, ∃ g, Owns r n = [g]) ∧ (∀ n, i + bs.length ≤ n → Owns r n = []) ∧
      ∀ g ∈ r, ∀ n, g.toggles n = true → g.buttons n = true := by
  induction bs with
  | nil =>
    intro i gs r h nd h1 h2 h3
    injection h with h; subst h
    exact ⟨h2, h1, h3⟩
  | cons b bs ih =>
    intro i gs r h nd h1 h2 h3
    simp only [modeButtons] at h
    split at h
    · cases h
    · rename_i k hk
      split at h
      · rename_i hany
        have hi : k ∈ gs.map Group.index := by
          obtain ⟨x, hx, he⟩ := List.any_eq_true.1 hany
          exact List.mem_map.2 ⟨x, hx, by simpa using he⟩
        have sk : (onGroup k (fun x => x.addButton i b.toggle) gs).map skel = gs.map skel := onGroup_skel _ _ _ (fun g => rfl)
        have := ih (i + 1) _ r h (by rw [skel_index sk]; exact nd)
          (fun n hn => by rw [onGroup_addButton_other _ _ _ _ _ (by omega)]; exact h1 n (by omega))
          (fun n hn => by
            by_cases hni : n = i
            · subst hni; exact ⟨k, onGroup_addButton_self gs k n b.toggle nd hi (h1 n (Nat.le_refl _))⟩
            · rw [onGroup_addButton_other _ _ _ _ _ hni]; exact h2 n (by omega))
          (by
            intro g hg n hn
            unfold onGroup at hg
            obtain ⟨y, hy, rfl⟩ := List.mem_map.1 hg
            have key := h3 y hy n
            by_cases hy' : y.index = k
            · rw [if_pos hy'] at hn ⊢
              by_cases hni : n = i
              · simp [Group.addButton, hni]
              · simp only [Group.addButton, hni, decide_false, Bool.false_and, Bool.false_eq_true, if_false] at hn ⊢
                exact key hn
            · rw [if_neg hy'] at hn ⊢; exact key hn)
        rw [List.length_cons]
        have e : i + (bs.length + 1) = i + 1 + bs.length := by omega
        rw [e]
        exact this
      · cases h

end Libinput.Pad
