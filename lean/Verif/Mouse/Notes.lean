import Verif.Mouse.Core
set_option linter.unusedSimpArgs false
set_option linter.unusedVariables false
/-
One debounced button notification: left-handed mapping and middle-button emulation on top of `Core`.
-/
namespace Libinput.Mouse
open Libinput.Spec Libinput.Alt
open Libinput.Buttons (Call Ev Stop Counts exec)
open Libinput.MiddleButton (MSt MEv)

variable {R : Type}

/-! ### The calls middle-button emulation makes -/

/-- The calls made for one button event while emulation is in effect. -/
theorem mb_calls {s : MiddleButton.State} {w : MiddleButton.Spec.World} {cnt : Counts} (t c : Nat) (d : Bool)
    (hi : MiddleButton.Inv s w cnt) (he : w.eff = true) (hc : 0x110 ≤ c ∧ c < 0x130) (hp : w.held c = !d) :
    (MiddleButton.physicalButton s t c d).2 =
      (MiddleButton.handle s t (MiddleButton.eventOf c d)).2.1 ++
        if (MiddleButton.handle s t (MiddleButton.eventOf c d)).2.2 then [] else [⟨t, c, d⟩] := by
  obtain ⟨hm, hph, hcnt, hpt⟩ := hi.on he
  have hen : s.enabled = true := by rw [hi.eff, he]
  have hr : MiddleButton.inRange c = true := by
    have h2 : c < 0x110 + 32 := by omega
    simp [MiddleButton.inRange, BTN_LEFT, hc.1, h2]
  obtain ⟨_, hph', ht', _, hm', _, _⟩ := MiddleButton.handle_ok s w.held t c d hc hp hph hi.tmr
  simp only [MiddleButton.physicalButton, MiddleButton.filterButton, hen, hr, Bool.not_true, Bool.false_eq_true, if_false]
  generalize MiddleButton.handle s t (MiddleButton.eventOf c d) = r at *
  obtain ⟨s1, o1, rc⟩ := r
  simp only at hph' ht' hm' ⊢
  have hmask : (fun b => if b = c then d else s1.mask b) = MiddleButton.upd w.held c d := by
    rw [hm', hm]; rfl
  simp only [hmask, MiddleButton.maskEmpty_eq]
  split
  · rename_i hz
    have hall := MiddleButton.allUp_ok { s1 with mask := MiddleButton.upd w.held c d } (MiddleButton.upd w.held c d) t
      hz.2 hph' ht'
    rw [hall.1]
    cases rc <;> simp
  · cases rc <;> simp

theorem mb_calls_off {s : MiddleButton.State} {w : MiddleButton.Spec.World} {cnt : Counts} (t c : Nat) (d : Bool)
    (hi : MiddleButton.Inv s w cnt) (he : w.eff = false) :
    (MiddleButton.physicalButton s t c d).2 = [⟨t, c, d⟩] := by
  have hen : s.enabled = false := by rw [hi.eff, he]
  simp [MiddleButton.physicalButton, MiddleButton.filterButton, hen]

/-- The events of any one button alternate, except for the middle button when a physical and the emulated
one overlap. -/
theorem mb_lone {s : MiddleButton.State} {w : MiddleButton.Spec.World} {cnt : Counts} (t c : Nat) (d : Bool)
    (hi : MiddleButton.Inv s w cnt) (hc : 0x110 ≤ c ∧ c < 0x130) (hp : w.held c = !d) (b : Nat)
    (hb : b ≠ BTN_MIDDLE ∨ w.eff = false ∨ (w.held BTN_MIDDLE = false ∧ c ≠ BTN_MIDDLE)) :
    Lone b (cnt b) (MiddleButton.physicalButton s t c d).2 := by
  cases he : w.eff with
  | false =>
    rw [mb_calls_off t c d hi he]
    obtain ⟨_, _, _, hcnt⟩ := hi.off he
    simp only [Lone, hcnt]
    split
    · rename_i h
      subst h
      rw [hp]; cases d <;> simp
    · trivial
  | true =>
    rw [he] at hb
    rw [mb_calls t c d hi he hc hp]
    obtain ⟨_, hph, hcnt, _⟩ := hi.on he
    rw [hcnt]
    have hpass : ∀ st, (b ≠ BTN_MIDDLE ∨ c ≠ BTN_MIDDLE) → c ≠ BTN_LEFT → c ≠ BTN_RIGHT →
        Lone b (MiddleButton.expected st w.held b) [⟨t, c, d⟩] := by
      intro st h1 h2 h3
      simp only [Lone]
      split
      · rename_i h
        subst h
        have h4 : c ≠ BTN_MIDDLE := by rcases h1 with h | h <;> exact h
        simp only [MiddleButton.expected, h2, h3, h4, if_false, hp]
        cases d <;> simp
      · trivial
    have hbc : b ≠ BTN_MIDDLE ∨ c ≠ BTN_MIDDLE := by
      rcases hb with h | h | h
      · exact Or.inl h
      · cases h
      · exact Or.inr h.2
    have hM : b = BTN_MIDDLE → w.held BTN_MIDDLE = false := by
      intro h
      rcases hb with h1 | h1 | h1
      · exact absurd h h1
      · cases h1
      · exact h1.1
    rcases s with ⟨en, want, st, tm, mask, ft, er⟩
    simp only at hph ⊢
    by_cases hL : c = BTN_LEFT
    · subst hL
      cases st <;> cases d <;> simp only [MiddleButton.Phys, Bool.not_true, Bool.not_false] at hph hp <;>
        (try (simp [hp] at hph; done)) <;>
        simp only [MiddleButton.handle, MiddleButton.eventOf, MiddleButton.idleH, MiddleButton.ldownH,
          MiddleButton.rdownH, MiddleButton.middleH, MiddleButton.lupPendingH, MiddleButton.rupPendingH,
          MiddleButton.passthroughH, MiddleButton.ignoreLRH, MiddleButton.ignoreLH, MiddleButton.ignoreRH,
          if_true, if_false, Bool.false_eq_true, List.append_nil, List.nil_append, Lone] <;>
        (by_cases h1 : b = BTN_LEFT
         · subst h1; simp [MiddleButton.expected, MiddleButton.passL, MiddleButton.passR, BTN_LEFT, BTN_RIGHT, BTN_MIDDLE, hp]
           try (simp [BTN_LEFT] at hp; simp [hp])
         · by_cases h2 : b = BTN_MIDDLE
           · have := hM h2
             subst h2
             simp [MiddleButton.expected, MiddleButton.passL, MiddleButton.passR, BTN_LEFT, BTN_RIGHT, BTN_MIDDLE] at this ⊢
             try simp [this]
           · have h1' : ¬ BTN_LEFT = b := fun h => h1 h.symm
             have h2' : ¬ BTN_MIDDLE = b := fun h => h2 h.symm
             simp [h1', h2'])
    · by_cases hR : c = BTN_RIGHT
      · subst hR
        cases st <;> cases d <;> simp only [MiddleButton.Phys, Bool.not_true, Bool.not_false] at hph hp <;>
          (try (simp [hp] at hph; done)) <;>
          simp only [MiddleButton.handle, MiddleButton.eventOf, MiddleButton.idleH, MiddleButton.ldownH,
            MiddleButton.rdownH, MiddleButton.middleH, MiddleButton.lupPendingH, MiddleButton.rupPendingH,
            MiddleButton.passthroughH, MiddleButton.ignoreLRH, MiddleButton.ignoreLH, MiddleButton.ignoreRH, hL,
            if_true, if_false, Bool.false_eq_true, List.append_nil, List.nil_append, Lone] <;>
          (by_cases h1 : b = BTN_RIGHT
           · subst h1; simp [MiddleButton.expected, MiddleButton.passL, MiddleButton.passR, BTN_LEFT, BTN_RIGHT, BTN_MIDDLE, hp]
             try (simp [BTN_RIGHT] at hp; simp [hp])
           · by_cases h2 : b = BTN_MIDDLE
             · have := hM h2
               subst h2
               simp [MiddleButton.expected, MiddleButton.passL, MiddleButton.passR, BTN_LEFT, BTN_RIGHT, BTN_MIDDLE] at this ⊢
               try simp [this]
             · have h1' : ¬ BTN_RIGHT = b := fun h => h1 h.symm
               have h2' : ¬ BTN_MIDDLE = b := fun h => h2 h.symm
               simp [h1', h2'])
      · have hcons : ∀ (x : Call) (st st2 : MSt), x.code ≠ c →
            (x.code = b → MiddleButton.expected st w.held b = (if x.pressed then 0 else 1)) →
            Lone b (MiddleButton.expected st w.held b) [x, ⟨t, c, d⟩] := by
          intro x st st2 hx hxb
          simp only [Lone]
          split
          · rename_i h
            refine ⟨hxb h, ?_⟩
            have : ¬ c = b := fun h2 => hx (h.trans h2.symm)
            simp [this]
          · have := hpass st hbc hL hR
            simpa [Lone] using this
        cases st <;> simp only [MiddleButton.Phys] at hph <;>
          simp only [MiddleButton.handle, MiddleButton.eventOf, MiddleButton.idleH, MiddleButton.ldownH,
            MiddleButton.rdownH, MiddleButton.middleH, MiddleButton.lupPendingH, MiddleButton.rupPendingH,
            MiddleButton.passthroughH, MiddleButton.ignoreLRH, MiddleButton.ignoreLH, MiddleButton.ignoreRH, hL, hR,
            if_true, if_false, Bool.false_eq_true, List.append_nil, List.nil_append, List.cons_append] <;>
          first
          | exact hpass _ hbc hL hR
          | (by_cases hcm : c = BTN_MIDDLE
             · have hbm : b ≠ BTN_MIDDLE := by
                 rcases hbc with h | h
                 · exact h
                 · exact absurd hcm h
               subst hcm
               by_cases h1 : b = BTN_LEFT
               · subst h1; simp [Lone, MiddleButton.expected, MiddleButton.passL, BTN_LEFT, BTN_RIGHT, BTN_MIDDLE]
               · by_cases h2 : b = BTN_RIGHT
                 · subst h2; simp [Lone, MiddleButton.expected, MiddleButton.passR, BTN_LEFT, BTN_RIGHT, BTN_MIDDLE]
                 · have h1' : ¬ BTN_LEFT = b := fun h => h1 h.symm
                   have h2' : ¬ BTN_RIGHT = b := fun h => h2 h.symm
                   have h3' : ¬ BTN_MIDDLE = b := fun h => hbm h.symm
                   simp [Lone, h1', h2', h3']
             · refine hcons _ _ .idle ?_ ?_
               · first | exact Ne.symm hL | exact Ne.symm hR | exact Ne.symm hcm
               · intro h
                 simp only at h
                 subst h
                 first
                 | (simp [MiddleButton.expected, MiddleButton.passL, MiddleButton.passR, BTN_LEFT, BTN_RIGHT, BTN_MIDDLE]; done)
                 | (have := hM rfl
                    simp [MiddleButton.expected, BTN_LEFT, BTN_RIGHT, BTN_MIDDLE] at this ⊢
                    simp [this]))

/-- When the only held button is released, only the last call is a release. -/
theorem mb_last {s : MiddleButton.State} {w : MiddleButton.Spec.World} {cnt : Counts} (t c : Nat)
    (hi : MiddleButton.Inv s w cnt) (hc : 0x110 ≤ c ∧ c < 0x130) (hp : w.held c = true)
    (honly : ∀ b, w.held b = true → b = c) :
    LastRelease (MiddleButton.physicalButton s t c false).2 := by
  cases he : w.eff with
  | false => rw [mb_calls_off t c false hi he]; trivial
  | true =>
    rw [mb_calls t c false hi he hc (by rw [hp]; rfl)]
    obtain ⟨_, hph, _, _⟩ := hi.on he
    have hnot : ∀ b, b ≠ c → w.held b = false := by
      intro b hb
      cases h : w.held b with
      | false => rfl
      | true => exact absurd (honly b h) hb
    rcases s with ⟨en, want, st, tm, mask, ft, er⟩
    simp only at hph ⊢
    by_cases hL : c = BTN_LEFT
    · subst hL
      have hR := hnot BTN_RIGHT (by decide)
      cases st <;> simp only [MiddleButton.Phys] at hph <;>
        (try (simp [hp, hR] at hph; done)) <;>
        simp [MiddleButton.handle, MiddleButton.eventOf, MiddleButton.ldownH,
          MiddleButton.lupPendingH, MiddleButton.passthroughH, MiddleButton.ignoreLH, LastRelease]
    · by_cases hR : c = BTN_RIGHT
      · subst hR
        have hL' := hnot BTN_LEFT (by decide)
        cases st <;> simp only [MiddleButton.Phys] at hph <;>
          (try (simp [hp, hL'] at hph; done)) <;>
          simp [MiddleButton.handle, MiddleButton.eventOf, hL, MiddleButton.rdownH,
            MiddleButton.rupPendingH, MiddleButton.passthroughH, MiddleButton.ignoreRH, LastRelease]
      · have h1 := hnot BTN_LEFT (fun h => hL h.symm)
        have h2 := hnot BTN_RIGHT (fun h => hR h.symm)
        cases st <;> simp only [MiddleButton.Phys] at hph <;>
          (try (simp [h1, h2] at hph; done)) <;>
          simp [MiddleButton.handle, MiddleButton.eventOf, hL, hR, MiddleButton.idleH, MiddleButton.passthroughH,
            LastRelease]

theorem mb_fire_presses (s : MiddleButton.State) (now : Nat)
    (h : MiddleButton.TimerOk s) : ∀ c ∈ (MiddleButton.fire s now).2, c.pressed = true := by
  intro c hc
  unfold MiddleButton.fire at hc
  split at hc
  · cases hc
  · split at hc
    · rcases s with ⟨en, want, st, tm, mask, ft, er⟩
      cases st <;> simp [MiddleButton.TimerOk] at h <;> simp_all [MiddleButton.handle, MiddleButton.ldownH, MiddleButton.rdownH]
    · cases hc

end Libinput.Mouse
