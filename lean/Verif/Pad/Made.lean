import Verif.Pad.Groups
/-
The mode groups of a new pad.
-/
namespace Libinput.Pad

attribute [local irreducible] codes

/-- The group has the ring or strip next to the LED. -/
def Beside : Led → Group → Prop
  | .ring, g => g.rings 0 = true
  | .ring2, g => g.rings 1 = true
  | .strip, g => g.strips 0 = true
  | .strip2, g => g.strips 1 = true
  | _, _ => True

theorem onGroup_mono (i : Nat) (f : Group → Group) (gs : List Group) (P : Group → Prop) (hf : ∀ g, P g → P (f g))
    (h : ∃ g ∈ gs, P g) : ∃ g ∈ onGroup i f gs, P g := by
  obtain ⟨g, hg, hp⟩ := h
  refine ⟨if g.index = i then f g else g, List.mem_map.2 ⟨g, hg, rfl⟩, ?_⟩
  split
  · exact hf g hp
  · exact hp

theorem modeRings_mono (l : Led) (ls : List Led) : ∀ i gs, (∃ g ∈ gs, Beside l g) → ∃ g ∈ modeRings ls i gs, Beside l g := by
  induction ls with
  | nil => intro i gs h; exact h
  | cons l' ls ih =>
    intro i gs h
    unfold modeRings
    apply ih
    cases l' with
    | unavailable => exact h
    | other => exact h
    | ring | ring2 | strip | strip2 =>
      dsimp only
      refine onGroup_mono _ _ _ _ (fun g hg => ?_) h
      cases l <;> first | trivial | (simp only [Beside] at hg ⊢; first | exact hg | simp [hg] | rfl)

theorem modeRings_beside (l : Led) (ls : List Led) : ∀ i gs, l ∈ ls → (∀ j, ls[j]? = some l → ∃ g ∈ gs, g.index = i + j) →
    ∃ g ∈ modeRings ls i gs, Beside l g := by
  induction ls with
  | nil => intro i gs h; cases h
  | cons l' ls ih =>
    intro i gs hl hj
    unfold modeRings
    by_cases he : l' = l
    · subst he
      apply modeRings_mono
      obtain ⟨g, hg, hi⟩ := hj 0 (by simp)
      have key : ∀ f : Group → Group, Beside l' (f g) → ∃ g ∈ onGroup i f gs, Beside l' g := by
        intro f hf
        refine ⟨f g, List.mem_map.2 ⟨g, hg, ?_⟩, hf⟩
        rw [if_pos (by omega)]
      cases l' with
      | unavailable => exact ⟨g, hg, trivial⟩
      | other => exact ⟨g, hg, trivial⟩
      | ring | ring2 | strip | strip2 => exact key _ (by simp [Beside])
    · rcases List.mem_cons.1 hl with h | h
      · exact absurd h.symm he
      · refine ih (i + 1) _ h (fun j h1 => ?_)
        obtain ⟨g, hg, hi⟩ := hj (j + 1) (by simpa using h1)
        have key : ∀ f : Group → Group, (∀ g, (f g).index = g.index) → ∃ g ∈ onGroup i f gs, g.index = i + 1 + j := by
          intro f hf
          refine ⟨if g.index = i then f g else g, List.mem_map.2 ⟨g, hg, rfl⟩, ?_⟩
          split
          · rw [hf]; omega
          · omega
        cases l' with
        | unavailable => exact ⟨g, hg, by omega⟩
        | other => exact ⟨g, hg, by omega⟩
        | ring | ring2 | strip | strip2 => exact key _ (fun g => rfl)

theorem fromWacom_count (bs : List WButton) : ∀ n m, (fromWacom bs n m).2 ≤ n + bs.length := by
  induction bs with
  | nil => intro n m; exact Nat.le_refl _
  | cons b bs ih =>
    intro n m
    unfold fromWacom
    rw [List.length_cons]
    split
    · have := ih n m; omega
    · have := ih (n + 1) (m.set b.code (.button n)); omega

theorem skel_mem {gs gs' : List Group} (h : gs'.map skel = gs.map skel) {g : Group} (hg : g ∈ gs) : ∃ x ∈ gs', skel x = skel g := by
  have : skel g ∈ gs'.map skel := h ▸ List.mem_map_of_mem hg
  obtain ⟨x, hx, he⟩ := List.mem_map.1 this
  exact ⟨x, hx, he⟩

theorem owns_one {gs : List Group} {n i : Nat} (nd : (gs.map Group.index).Nodup) (h : Owns gs n = [i]) :
    ∃ g ∈ gs, g.buttons n = true ∧ ∀ g' ∈ gs, g'.buttons n = true → g' = g := by
  unfold Owns at h
  have hl : (gs.filter (fun g => g.buttons n)).length = 1 := by
    have := congrArg List.length h; simpa using this
  obtain ⟨g, hg⟩ := List.length_eq_one_iff.1 hl
  have hm : g ∈ gs.filter (fun g => g.buttons n) := by rw [hg]; simp
  obtain ⟨h1, h2⟩ := List.mem_filter.1 hm
  refine ⟨g, h1, h2, fun g' h3 h4 => ?_⟩
  have : g' ∈ gs.filter (fun g => g.buttons n) := List.mem_filter.2 ⟨h3, h4⟩
  rw [hg] at this
  simpa using this

/-- Everything about the groups made from LEDs. -/
theorem fromLeds_spec (cfg : Cfg) (lit : Lit) (gs : List Group) (h : fromLeds cfg lit = some gs) : ∃ w, cfg.byPath = some w ∧ w.leds ≠ [] ∧
    GOk gs ∧ (∀ n < w.buttons.length, ∃ i, Owns gs n = [i]) ∧ (∀ n, w.buttons.length ≤ n → Owns gs n = []) ∧
    (∀ g ∈ gs, ∀ n, g.toggles n = true → g.buttons n = true) ∧
    (∀ l ∈ w.leds, l ≠ .unavailable) ∧
    (∀ l ∈ w.leds, l ≠ .other → ∃ g ∈ gs, Beside l g) ∧
    (∀ g ∈ gs, g.index < w.leds.length ∧ g.leds = g.numModes ∧ FirstLit (lit g.index) g.numModes g.mode) ∧
    (∀ j l, w.leds[j]? = some l → l ≠ .other → ∃ g ∈ gs, g.index = j ∧ g.numModes = w.modes l) ∧
    ((∀ l ∈ w.leds, l ≠ .other) → gs.length = w.leds.length) := by
  unfold fromLeds at h
  split at h
  · cases h
  · rename_i w hw
    split at h
    · cases h
    · rename_i hne
      split at h
      · cases h
      · split at h
        · cases h
        · rename_i g1 h1
          split at h
          · cases h
          · rename_i g2 h2
            injection h with h
            obtain ⟨a1, a2, _, a4, a5⟩ := ledGroups_spec cfg lit w w.leds 0 [] g1 h1 ⟨List.nodup_nil, fun g hg => (by cases hg)⟩
              (fun g hg => (by cases hg))
            have sb := modeButtons_skel _ _ _ _ _ h2
            have sr := modeRings_skel w.leds 0 g2
            have sall : gs.map skel = g1.map skel := by rw [← h, sr, sb]
            have E : ∀ g ∈ g1, Empty g := fun g hg => (a2 g hg).2.1
            obtain ⟨b1, b2, b3⟩ := modeButtons_owns _ _ _ _ _ h2 a1.nodup (fun n _ => (owns_nil_iff _ _).2 (fun g hg => (E g hg).1 n))
              (fun n hn => by omega) (fun g hg n hn => by rw [(E g hg).2.2.2 n] at hn; cases hn)
            have bt := modeRings_buttons w.leds 0 g2
            rw [h] at bt sr
            have so : ∀ n, Owns gs n = Owns g2 n := by
              intro n
              have hx : gs.map (fun g => (g.index, g.buttons n)) = g2.map (fun g => (g.index, g.buttons n)) := by
                have q1 : gs.map Group.index = g2.map Group.index := skel_index sr
                have q2 : gs.map (fun g => g.buttons n) = g2.map (fun g => g.buttons n) := by
                  have := congrArg (List.map (fun p : (Nat → Bool) × (Nat → Bool) => p.1 n)) bt
                  simpa [List.map_map, Function.comp_def] using this
                clear bt sr sall h h1 h2 a1 a2 a4 a5 b1 b2 b3 sb E
                induction gs generalizing g2 with
                | nil => cases g2 with
                  | nil => rfl
                  | cons _ _ => cases q1
                | cons x xs ih =>
                  cases g2 with
                  | nil => cases q1
                  | cons y ys =>
                    simp only [List.map_cons, List.cons.injEq] at q1 q2 ⊢
                    exact ⟨by rw [q1.1, q2.1], ih ys q1.2 q2.2⟩
              have own : ∀ l : List Group, Owns l n = ((l.map (fun g => (g.index, g.buttons n))).filter (fun p => p.2)).map Prod.fst := by
                intro l; unfold Owns; rw [List.filter_map, List.map_map]; rfl
              rw [own, own, hx]
            refine ⟨w, hw, hne, skel_gok sall a1, fun n hn => ?_, fun n hn => ?_, ?_, ?_, ?_, ?_, ?_, ?_⟩
            · rw [so]; exact b1 n (by omega)
            · rw [so]; exact b2 n (by omega)
            · intro g hg n ht
              have : (g.buttons, g.toggles) ∈ g2.map (fun g => (g.buttons, g.toggles)) := bt ▸ List.mem_map_of_mem hg
              obtain ⟨y, hy, he⟩ := List.mem_map.1 this
              injection he with e1 e2
              rw [← e1]; exact b3 y hy n (by rw [e2]; exact ht)
            · intro l hl
              obtain ⟨j, hj⟩ := List.mem_iff_getElem?.1 hl
              exact (a4 j l hj).1
            · intro l hl ho
              rw [← h]
              refine modeRings_beside l _ 0 g2 hl (fun j hj => ?_)
              obtain ⟨x, hx, h3, _⟩ := (a4 j l hj).2 ho
              obtain ⟨y, hy, h4⟩ := skel_mem sb hx
              simp only [skel, Prod.mk.injEq] at h4
              exact ⟨y, hy, by omega⟩
            · intro g hg
              obtain ⟨x, hx, h3⟩ := skel_mem sall.symm hg
              simp only [skel, Prod.mk.injEq] at h3
              obtain ⟨c1, _, c2, c3⟩ := a2 x hx
              rw [h3.1, h3.2.1, h3.2.2.1] at c3
              exact ⟨by omega, by omega, c3⟩
            · intro j l hj ho
              obtain ⟨x, hx, h3, h4⟩ := (a4 j l hj).2 ho
              obtain ⟨y, hy, h5⟩ := skel_mem sall hx
              simp only [skel, Prod.mk.injEq] at h5
              exact ⟨y, hy, by omega, by omega⟩
            · intro ho
              have := congrArg List.length sall
              simp only [List.length_map] at this
              rw [this, a5 ho, List.length_nil]; omega

/-- The groups of a new pad. -/
theorem groups_cases (cfg : Cfg) (lit : Lit) (gs : List Group) (h : cfg.groups lit = some gs) :
    cfg.numButtons ≤ 32 ∧ (fromLeds cfg lit = some gs ∨ fromLeds cfg lit = none ∧ gs = [fallback]) := by
  unfold Cfg.groups at h
  split at h
  · cases h
  · refine ⟨by omega, ?_⟩
    split at h
    · rename_i g hg; injection h with h; exact .inl (h ▸ hg)
    · rename_i hg; injection h with h; exact .inr ⟨hg, h.symm⟩

theorem groups_gok (cfg : Cfg) (lit : Lit) (gs : List Group) (h : cfg.groups lit = some gs) : GOk gs := by
  rcases (groups_cases cfg lit gs h).2 with h | ⟨_, rfl⟩
  · exact (fromLeds_spec cfg lit gs h).choose_spec.2.2.1
  · refine ⟨by simp, fun g hg => ?_⟩
    simp only [List.mem_singleton] at hg
    subst hg
    exact ⟨by decide, by decide⟩

theorem groups_toggles (cfg : Cfg) (lit : Lit) (gs : List Group) (h : cfg.groups lit = some gs) :
    ∀ g ∈ gs, ∀ n, g.toggles n = true → g.buttons n = true := by
  rcases (groups_cases cfg lit gs h).2 with h | ⟨_, rfl⟩
  · exact (fromLeds_spec cfg lit gs h).choose_spec.2.2.2.2.2.1
  · intro g hg n hn
    simp only [List.mem_singleton] at hg
    subst hg
    cases hn

end Libinput.Pad
