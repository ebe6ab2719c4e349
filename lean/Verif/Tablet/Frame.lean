import Verif.Tablet.Flush
/-
What the kernel's events of a frame do before the frame is processed.
-/
namespace Libinput.Tablet

/-- What the events leave alone. -/
structure Same (s s' : Pen) : Prop where
  prev : s'.t.prev = s.t.prev
  kind : s'.t.kind = s.t.kind
  tools : s'.t.tools = s.t.tools
  prevButtons : s'.prevButtons = s.prevButtons
  hung : s'.hung = s.hung
  tip : s'.st.inContact = s.st.inContact
  leaving : s'.st.leaving = s.st.leaving
  prox : s'.st.outOfProx = s.st.outOfProx
  entering : s'.st.entering = s.st.entering
  range : s'.st.outOfRange = s.st.outOfRange

theorem absEvent_shape (cfg : Cfg) (s : Pen) (a : Axis) (x : Int) :
    ∃ v b, absEvent cfg s a x = { s with v := v, st.axesUpdated := b } := by
  unfold absEvent
  dsimp only
  split <;> exact ⟨_, _, rfl⟩

theorem kev_same (cfg : Cfg) (s : Pen) (e : KEv) : Same s (kev cfg s e) := by
  cases e with
  | abs a x => obtain ⟨v, b, h⟩ := absEvent_shape cfg s a x; rw [kev, h]; constructor <;> rfl
  | wheel x => constructor <;> rfl
  | id x => constructor <;> rfl
  | serial x => simp only [kev]; split <;> constructor <;> rfl
  | key c x =>
    simp only [kev, keyEvent]
    split
    · constructor <;> rfl
    · split
      · constructor <;> rfl
      · repeat' split
        all_goals constructor <;> rfl

theorem fold_same (cfg : Cfg) (evs : List KEv) : ∀ s, Same s (evs.foldl (kev cfg) s) := by
  induction evs with
  | nil => intro s; constructor <;> rfl
  | cons e evs ih =>
    intro s
    have h1 := kev_same cfg s e
    have h2 := ih (kev cfg s e)
    exact ⟨h2.1.trans h1.1, h2.2.trans h1.2, h2.3.trans h1.3, h2.4.trans h1.4, h2.5.trans h1.5, h2.6.trans h1.6,
      h2.7.trans h1.7, h2.8.trans h1.8, h2.9.trans h1.9, h2.10.trans h1.10⟩

/-! ### Buttons -/

/-- How the buttons change. -/
structure Btn (s s' : Pen) : Prop where
  pressed : s.st.pressed = true → s'.st.pressed = true
  released : s.st.released = true → s'.st.released = true
  each : ∀ c, s'.buttons c = s.buttons c ∨ (s'.buttons c = true ∧ s'.st.pressed = true) ∨
    (s'.buttons c = false ∧ s'.st.released = true)
  small : ∀ c, s'.buttons c = true → s.buttons c = true ∨ c < 768

theorem isButton_small (c : Nat) (h : isButton c = true) : c < 768 := by
  unfold isButton at h
  simp at h
  omega

theorem kev_btn (cfg : Cfg) (s : Pen) (e : KEv) : Btn s (kev cfg s e) := by
  have base : ∀ s' : Pen, s'.buttons = s.buttons → s'.st.pressed = s.st.pressed → s'.st.released = s.st.released → Btn s s' := by
    intro s' h1 h2 h3
    exact ⟨fun h => h2.trans h, fun h => h3.trans h, fun c => .inl (by rw [h1]), fun c h => .inl (by rw [← h1]; exact h)⟩
  cases e with
  | abs a x => obtain ⟨v, b, h⟩ := absEvent_shape cfg s a x; rw [kev, h]; exact base _ rfl rfl rfl
  | wheel x => exact base _ rfl rfl rfl
  | id x => exact base _ rfl rfl rfl
  | serial x => simp only [kev]; split <;> exact base _ rfl rfl rfl
  | key k x =>
    simp only [kev, keyEvent]
    split
    · exact base _ rfl rfl rfl
    · split
      · exact base _ rfl rfl rfl
      · split
        · split
          · exact base _ rfl rfl rfl
          · split <;> exact base _ rfl rfl rfl
        · split
          · rename_i hb
            have := isButton_small k hb
            split
            · refine ⟨fun _ => rfl, id, fun c => ?_, fun c h => ?_⟩
              · dsimp only; by_cases hc : c = k <;> simp [hc]
              · dsimp only at h; by_cases hc : c = k
                · right; omega
                · left; simpa [hc] using h
            · refine ⟨id, fun _ => rfl, fun c => ?_, fun c h => ?_⟩
              · dsimp only; by_cases hc : c = k <;> simp [hc]
              · dsimp only at h; by_cases hc : c = k
                · right; omega
                · left; simpa [hc] using h
          · exact base _ rfl rfl rfl

theorem fold_btn (cfg : Cfg) (evs : List KEv) : ∀ s, Btn s (evs.foldl (kev cfg) s) := by
  induction evs with
  | nil => intro s; exact ⟨id, id, fun _ => .inl rfl, fun _ => .inl⟩
  | cons e evs ih =>
    intro s
    have h1 := kev_btn cfg s e
    have h2 := ih (kev cfg s e)
    refine ⟨h2.1 ∘ h1.1, h2.2 ∘ h1.2, fun c => ?_, fun c h => ?_⟩
    · have e1 := h1.each c
      have e2 := h2.each c
      have p := h2.pressed
      have r := h2.released
      simp only [List.foldl_cons]
      grind
    · rcases h2.small c h with h' | h'
      · exact h1.small c h'
      · exact .inr h'

theorem fold_noPress (cfg : Cfg) (evs : List KEv) (h : ∀ e ∈ evs, isPress e = false) :
    ∀ s c, (evs.foldl (kev cfg) s).buttons c = true → s.buttons c = true := by
  induction evs with
  | nil => intro s c h; exact h
  | cons e evs ih =>
    intro s c hc
    have h1 := ih (fun x hx => h x (by simp [hx])) (kev cfg s e) c hc
    have hp := h e (by simp)
    cases e with
    | abs a x => obtain ⟨v, b, h⟩ := absEvent_shape cfg s a x; rw [kev, h] at h1; exact h1
    | wheel x => exact h1
    | id x => exact h1
    | serial x => simp only [kev] at h1; split at h1 <;> exact h1
    | key k x =>
      simp only [kev, keyEvent] at h1
      split at h1
      · exact h1
      · rename_i x2
        split at h1
        · exact h1
        · split at h1
          · split at h1
            · exact h1
            · split at h1 <;> exact h1
          · split at h1
            · rename_i hb
              split at h1
              · rename_i x0
                simp only [isPress, isButton] at hp hb
                simp [hb, x0, x2] at hp
              · dsimp only at h1; split at h1
                · cases h1
                · exact h1
            · exact h1

/-! ### Tools -/

theorem toolOfCode_key (c : Nat) (k : Kind) (h : toolOfCode c = some k) (x : Nat) :
    isToolKey (.key c x) = true ∧ (isCursorKey (.key c x) = false → k.isCursor = false) := by
  unfold toolOfCode at h
  split at h <;> cases h <;> simp [isToolKey, isCursorKey, Kind.isCursor]

theorem kev_noTool (cfg : Cfg) (s : Pen) (e : KEv) (h : isToolKey e = false) :
    (kev cfg s e).t.now = s.t.now ∧ (s.st.toolUpdated = true → (kev cfg s e).st.toolUpdated = true) := by
  cases e with
  | abs a x => obtain ⟨v, b, h⟩ := absEvent_shape cfg s a x; rw [kev, h]; exact ⟨rfl, id⟩
  | wheel x => exact ⟨rfl, id⟩
  | id x => exact ⟨rfl, id⟩
  | serial x => simp only [kev]; split <;> exact ⟨rfl, id⟩
  | key c x =>
    simp only [kev, keyEvent]
    split
    · exact ⟨rfl, id⟩
    · split
      · rename_i k hk
        have := (toolOfCode_key c k hk x).1
        rw [h] at this; cases this
      · repeat' split
        all_goals exact ⟨rfl, id⟩

theorem fold_noTool (cfg : Cfg) (evs : List KEv) (h : ∀ e ∈ evs, isToolKey e = false) :
    ∀ s, (evs.foldl (kev cfg) s).t.now = s.t.now ∧ (s.st.toolUpdated = true → (evs.foldl (kev cfg) s).st.toolUpdated = true) := by
  induction evs with
  | nil => intro s; exact ⟨rfl, id⟩
  | cons e evs ih =>
    intro s
    have h1 := kev_noTool cfg s e (h e (by simp))
    have h2 := ih (fun x hx => h x (by simp [hx])) (kev cfg s e)
    exact ⟨h2.1.trans h1.1, h2.2 ∘ h1.2⟩

theorem fold_tool (cfg : Cfg) (evs : List KEv) (h : (evs.filter isToolKey).length ≤ 1)
    (hc : ∀ e ∈ evs, isCursorKey e = false) :
    ∀ s, (evs.foldl (kev cfg) s).t.now = s.t.now ∨
      ((evs.foldl (kev cfg) s).st.toolUpdated = true ∧ (∃ e ∈ evs, isToolKey e = true) ∧
        ∃ (k : Kind) (b : Bool), k.isCursor = false ∧
          (evs.foldl (kev cfg) s).t.now = if b then s.t.now ||| k.bit else s.t.now &&& (255 ^^^ k.bit)) := by
  induction evs with
  | nil => intro s; exact .inl rfl
  | cons e evs ih =>
    intro s
    cases ht : isToolKey e with
    | false =>
      have h1 := kev_noTool cfg s e ht
      rw [List.filter_cons_of_neg (by simp [ht])] at h
      rcases ih h (fun x hx => hc x (by simp [hx])) (kev cfg s e) with h2 | ⟨h2, ⟨x, hx, h3⟩, k, b, h4, h5⟩
      · exact .inl (h2.trans h1.1)
      · refine .inr ⟨h2, ⟨x, by simp [hx], h3⟩, k, b, h4, ?_⟩
        rw [← h1.1]; exact h5
    | true =>
      rw [List.filter_cons_of_pos ht] at h
      have hn : ∀ x ∈ evs, isToolKey x = false := by
        have : evs.filter isToolKey = [] := List.length_eq_zero_iff.1 (by simpa using h)
        intro x hx
        cases hxt : isToolKey x
        · rfl
        · have := List.mem_filter.2 ⟨hx, hxt⟩
          simp_all
      have h2 := fold_noTool cfg evs hn (kev cfg s e)
      have hce := hc e (by simp)
      simp only [List.foldl_cons]
      cases e with
      | key c x =>
        simp only [kev, keyEvent] at h2 ⊢
        by_cases hx : x = 2
        · rw [if_pos hx] at h2 ⊢; exact .inl h2.1
        · rw [if_neg hx] at h2 ⊢
          cases hk : toolOfCode c with
          | none =>
            exfalso
            simp only [isToolKey, Bool.and_eq_true, decide_eq_true_eq, bne_iff_ne] at ht
            have h1 : c = 320 ∨ c = 321 ∨ c = 322 ∨ c = 323 ∨ c = 324 ∨ c = 326 ∨ c = 327 := by omega
            rcases h1 with h | h | h | h | h | h | h <;> subst h <;> simp [toolOfCode] at hk
          | some k =>
            rw [hk] at h2
            refine .inr ⟨h2.2 rfl, ⟨_, by simp, ht⟩, k, decide (x ≠ 0), (toolOfCode_key c k hk x).2 hce, ?_⟩
            rw [h2.1]
            dsimp only
            by_cases h0 : x = 0 <;> simp [h0]
      | _ => cases ht

theorem fold_serial (cfg : Cfg) (evs : List KEv) :
    ∀ s, (∀ n, .serial n ∈ evs → n = s.t.serial ∨ n = 4294967295) → (evs.foldl (kev cfg) s).t.serial = s.t.serial := by
  induction evs with
  | nil => intro s _; rfl
  | cons e evs ih =>
    intro s h
    have h1 : (kev cfg s e).t.serial = s.t.serial := by
      cases e with
      | abs a x => obtain ⟨v, b, h⟩ := absEvent_shape cfg s a x; rw [kev, h]
      | wheel x => rfl
      | id x => rfl
      | serial x =>
        simp only [kev]
        rcases h x (by simp) with rfl | rfl
        · split <;> rfl
        · rfl
      | key c x =>
        simp only [kev, keyEvent]
        repeat' split
        all_goals rfl
    have h2 := ih (kev cfg s e) (fun n hn => by rw [h1]; exact h n (by simp [hn]))
    exact h2.trans h1

/-! ### The tip -/

theorem kev_touch (cfg : Cfg) (s : Pen) (e : KEv) :
    ((kev cfg s e).st.enterContact = true → s.st.enterContact = true ∨ (cfg.has .pressure = false ∧ isTouchKey 1 e = true)) ∧
    ((kev cfg s e).st.leaveContact = true → s.st.leaveContact = true ∨ (cfg.has .pressure = false ∧ isTouchKey 0 e = true)) := by
  cases e with
  | abs a x => obtain ⟨v, b, h⟩ := absEvent_shape cfg s a x; rw [kev, h]; exact ⟨.inl, .inl⟩
  | wheel x => exact ⟨.inl, .inl⟩
  | id x => exact ⟨.inl, .inl⟩
  | serial x => simp only [kev]; split <;> exact ⟨.inl, .inl⟩
  | key c x =>
    simp only [kev, keyEvent]
    split
    · exact ⟨.inl, .inl⟩
    · rename_i h2
      split
      · exact ⟨.inl, .inl⟩
      · split
        · rename_i hc
          split
          · exact ⟨.inl, .inl⟩
          · rename_i hp
            simp only [Bool.not_eq_true] at hp
            split
            · rename_i h0
              exact ⟨fun _ => .inr ⟨hp, by simp [isTouchKey, hc, h0, h2]⟩, .inl⟩
            · rename_i h0
              exact ⟨.inl, fun _ => .inr ⟨hp, by simp only [ne_eq, Decidable.not_not] at h0; simp [isTouchKey, hc, h0]⟩⟩
        · split
          · split <;> exact ⟨.inl, .inl⟩
          · exact ⟨.inl, .inl⟩

theorem fold_touch (cfg : Cfg) (evs : List KEv) :
    ∀ s, ((evs.foldl (kev cfg) s).st.enterContact = true → s.st.enterContact = true ∨
        (cfg.has .pressure = false ∧ ∃ e ∈ evs, isTouchKey 1 e = true)) ∧
      ((evs.foldl (kev cfg) s).st.leaveContact = true → s.st.leaveContact = true ∨
        (cfg.has .pressure = false ∧ ∃ e ∈ evs, isTouchKey 0 e = true)) := by
  induction evs with
  | nil => intro s; exact ⟨.inl, .inl⟩
  | cons e evs ih =>
    intro s
    have h1 := kev_touch cfg s e
    have h2 := ih (kev cfg s e)
    constructor
    · intro h
      rcases h2.1 h with h | ⟨hp, x, hx, h⟩
      · rcases h1.1 h with h | ⟨hp, h⟩
        · exact .inl h
        · exact .inr ⟨hp, e, by simp, h⟩
      · exact .inr ⟨hp, x, by simp [hx], h⟩
    · intro h
      rcases h2.2 h with h | ⟨hp, x, hx, h⟩
      · rcases h1.2 h with h | ⟨hp, h⟩
        · exact .inl h
        · exact .inr ⟨hp, e, by simp, h⟩
      · exact .inr ⟨hp, x, by simp [hx], h⟩

theorem touch_once (evs : List KEv) (h : (evs.filter (fun e => isTouchKey 0 e || isTouchKey 1 e)).length ≤ 1)
    (h1 : ∃ e ∈ evs, isTouchKey 1 e = true) (h0 : ∃ e ∈ evs, isTouchKey 0 e = true) : False := by
  obtain ⟨x, hx, x1⟩ := h1
  obtain ⟨y, hy, y0⟩ := h0
  have mx : x ∈ evs.filter (fun e => isTouchKey 0 e || isTouchKey 1 e) := List.mem_filter.2 ⟨hx, by simp [x1]⟩
  have my : y ∈ evs.filter (fun e => isTouchKey 0 e || isTouchKey 1 e) := List.mem_filter.2 ⟨hy, by simp [y0]⟩
  have hxy : x = y := by
    revert h mx my
    generalize evs.filter (fun e => isTouchKey 0 e || isTouchKey 1 e) = l
    intro h mx my
    match l, h with
    | [], _ => simp at mx
    | [z], _ => simp at mx my; rw [mx, my]
  subst hxy
  cases x with
  | key c w =>
    simp only [isTouchKey, Bool.and_eq_true] at x1 y0
    have a := x1.1.2
    have b := y0.1.2
    cases hw : w == 0 <;> simp_all
  | _ => cases x1

end Libinput.Tablet
