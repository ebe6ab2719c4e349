import Verif.SendEvents.Keyboard
namespace Libinput.SendEvents.Keyboard

theorem setMode_zero (d : Dev) : setMode d 0 =
    if 0 = d.mode then (.success, d, []) else (.success, { (resume d).1 with mode := 0 }, (resume d).2) := rfl

theorem setMode_one (d : Dev) : setMode d 1 =
    if 1 = d.mode then (.success, d, []) else (.success, { (suspend d).1 with mode := 1 }, (suspend d).2) := rfl

theorem setMode_other (d : Dev) {m : Nat} (h0 : m ≠ 0) (h1 : m ≠ 1) : setMode d m = (.unsupported, d, []) := by
  have hc : (ENABLED ||| DISABLED) &&& m ≠ m := by
    intro hc
    have : (ENABLED ||| DISABLED) &&& m ≤ 1 := Nat.and_le_left
    omega
  unfold setMode
  rw [if_pos hc]

/-! ### All histories -/

structure Weak (d : Dev) (w : World) : Prop where
  mode : d.mode = w.mode
  range : w.mode = 0 ∨ w.mode = 1
  off : w.mode = 1 → d.isOpen = false

theorem pair_mode (d : Dev) (s : Sw) : (pair d s).1.mode = d.mode ∧ (d.isOpen = false → (pair d s).1.isOpen = false) ∧
    (d.eligible = false → (pair d s).1 = d) := by
  unfold pair suspend
  cases d.eligible <;> cases s.on <;> by_cases h : d.sw = none <;> simp [h]

theorem weak_step {d : Dev} {w : World} (h : Weak d w) (op : Op) : Weak (step d op).1 (next w op) := by
  obtain ⟨h1, h2, h3⟩ := h
  cases op with
  | setMode m =>
    simp only [step, next]
    by_cases h0 : m = 0
    · subst h0
      rw [setMode_zero]
      by_cases he : 0 = d.mode
      · rw [if_pos he]; constructor <;> simp_all
      · rw [if_neg he]; constructor <;> simp_all
    · by_cases h0 : m = 1
      · subst h0
        rw [setMode_one]
        by_cases he : 1 = d.mode
        · rw [if_pos he]; constructor <;> simp_all
        · rw [if_neg he]; constructor <;> simp_all [suspend]
      · rw [setMode_other d (by assumption) h0, if_neg (by omega)]
        exact ⟨h1, h2, h3⟩
  | add id on =>
    have hw : (next w (.add id on)).mode = w.mode := by simp only [next]; split <;> rfl
    simp only [step]
    split
    · exact ⟨by rw [hw]; exact h1, by rw [hw]; exact h2, by rw [hw]; exact h3⟩
    · have := pair_mode { d with switches := d.switches ++ [⟨id, on, false⟩] } ⟨id, on, false⟩
      exact ⟨by rw [hw, this.1]; exact h1, by rw [hw]; exact h2, by rw [hw]; exact fun hm => this.2.1 (h3 hm)⟩
  | remove id =>
    simp only [step, next, removed]
    split <;> exact ⟨h1, h2, h3⟩
  | suspend id =>
    simp only [step, next, removed]
    split <;> exact ⟨h1, h2, h3⟩
  | resume id =>
    simp only [step, next]
    split
    · exact ⟨h1, h2, h3⟩
    · rename_i s _
      split
      · have := pair_mode d s
        exact ⟨this.1.trans h1, h2, fun hm => this.2.1 (h3 hm)⟩
      · exact ⟨h1, h2, h3⟩
  | tablet id on =>
    simp only [step, next]
    split
    · exact ⟨h1, h2, h3⟩
    · split
      · exact ⟨h1, h2, h3⟩
      · split
        · split
          · exact ⟨h1, h2, fun _ => rfl⟩
          · unfold resumeIfEnabled
            split
            · exact ⟨h1, h2, h3⟩
            · rename_i hne
              unfold resume
              split
              · exact ⟨h1, h2, h3⟩
              · refine ⟨h1, h2, fun hm => absurd (h1.trans hm) hne⟩
        · exact ⟨h1, h2, h3⟩

theorem weak_run {d : Dev} {w : World} (h : Weak d w) (ops : List Op) : Weak (run d ops).1 (ops.foldl next w) := by
  induction ops generalizing d w with
  | nil => exact h
  | cons op ops ih => exact ih (weak_step h op)

/-- C34, any device that is not a touchpad, every history: a device whose mode is "disabled" is closed. -/
theorem disabled_is_closed (eligible : Bool) (ops : List Op) (hm : (world ops).mode = 1) :
    (run (create eligible) ops).1.isOpen = false ∧ (run (create eligible) ops).1.mode = 1 := by
  have h : Weak (run (create eligible) ops).1 (world ops) :=
    weak_run (d := create eligible) (w := ⟨0, none⟩) ⟨rfl, Or.inl rfl, by simp⟩ ops
  exact ⟨h.off hm, h.mode.trans hm⟩

/-- It was tested on a history where tablet mode ends while the device is disabled. -/
example : (world [.add 7 true, .setMode 1, .tablet 7 false]).mode = 1 := by decide

/-! ### A device that ignores tablet mode -/

theorem plain_step {d : Dev} {w : World} (he : d.eligible = false) (hs : d.sw = none) (h : Weak d w)
    (ho : w.mode = 0 → d.isOpen = true) (op : Op) :
    (step d op).1.eligible = false ∧ (step d op).1.sw = none ∧
    ((next w op).mode = 0 → (step d op).1.isOpen = true) := by
  cases op with
  | setMode m =>
    simp only [step, next]
    have hr := h.range
    have hmo := h.mode
    by_cases h0 : m = 0
    · subst h0
      rw [setMode_zero]
      by_cases hx : 0 = d.mode
      · rw [if_pos hx]; exact ⟨he, hs, fun _ => ho (by omega)⟩
      · have : d.isOpen = false := h.off (by omega)
        rw [if_neg hx]
        simp [he, hs, resume, this]
    · by_cases h0 : m = 1
      · subst h0
        rw [setMode_one]
        by_cases hx : 1 = d.mode
        · rw [if_pos hx]; exact ⟨he, hs, by simp⟩
        · rw [if_neg hx]; simp [he, hs, suspend]
      · rw [setMode_other d (by assumption) h0, if_neg (by omega)]
        exact ⟨he, hs, ho⟩
  | add id on =>
    have hw : (next w (.add id on)).mode = w.mode := by simp only [next]; split <;> rfl
    rw [hw]
    simp only [step]
    split
    · exact ⟨he, hs, ho⟩
    · rw [(pair_mode { d with switches := d.switches ++ [⟨id, on, false⟩] } ⟨id, on, false⟩).2.2 he]
      exact ⟨he, hs, ho⟩
  | remove id => simp only [step, next, removed, hs]; exact ⟨he, hs, ho⟩
  | suspend id => simp only [step, next, removed, hs]; exact ⟨he, hs, ho⟩
  | resume id =>
    simp only [step, next]
    split
    · exact ⟨he, hs, ho⟩
    · rename_i s _
      split
      · rw [(pair_mode d s).2.2 he]; exact ⟨he, hs, ho⟩
      · exact ⟨he, hs, ho⟩
  | tablet id on =>
    simp only [step, next]
    split
    · exact ⟨he, hs, ho⟩
    · split
      · exact ⟨he, hs, ho⟩
      · rw [if_neg (by simp [update, hs])]; exact ⟨he, hs, ho⟩

/-- C34, every history: a device that tablet mode does not concern is open exactly while it is enabled. -/
theorem plain_device_follows_mode (ops : List Op) :
    (run (create false) ops).1.isOpen = decide ((world ops).mode = 0) := by
  have key : ∀ (ops : List Op) (d : Dev) (w : World), d.eligible = false → d.sw = none → Weak d w →
      (w.mode = 0 → d.isOpen = true) →
      Weak (run d ops).1 (ops.foldl next w) ∧ ((ops.foldl next w).mode = 0 → (run d ops).1.isOpen = true) := by
    intro ops
    induction ops with
    | nil => intro d w _ _ h ho; exact ⟨h, ho⟩
    | cons op ops ih =>
      intro d w he hs h ho
      obtain ⟨p1, p2, p3⟩ := plain_step he hs h ho op
      exact ih _ _ p1 p2 (weak_step h op) p3
  obtain ⟨h1, h2⟩ := key ops (create false) ⟨0, none⟩ rfl rfl ⟨rfl, Or.inl rfl, by simp⟩ (fun _ => rfl)
  rcases h1.range with hr | hr
  · have := h2 hr
    show (run (create false) ops).1.isOpen = decide ((ops.foldl next ⟨0, none⟩).mode = 0)
    rw [this, hr]; rfl
  · have := h1.off hr
    show (run (create false) ops).1.isOpen = decide ((ops.foldl next ⟨0, none⟩).mode = 0)
    rw [this, hr]; rfl

/-! ### Internal keyboards -/

structure Inv (d : Dev) (w : World) : Prop where
  eligible : d.eligible = true
  mode : d.mode = w.mode
  range : w.mode = 0 ∨ w.mode = 1
  switches : d.switches = w.sw.toList
  sw : d.sw = (w.sw.filter fun s => !s.suspended).map (·.id)
  isOpen : d.isOpen = (decide (w.mode = 0) && !tabletMode w)

theorem inv_step {d : Dev} {w : World} (h : Inv d w) (op : Op) (ho : OrdinaryOp w op) :
    Inv (step d op).1 (next w op) := by
  obtain ⟨h1, h2, h3, h4, h5, h6⟩ := h
  cases op with
  | setMode m =>
    simp only [step, next]
    by_cases h0 : m = 0
    · subst h0
      rw [setMode_zero, if_pos (Or.inl rfl)]
      by_cases he : 0 = d.mode
      · have : w.mode = 0 := by omega
        rw [if_pos he]
        exact ⟨h1, he.symm, by simp, h4, h5, by rw [h6, this]; rfl⟩
      · have hw : w.mode = 1 := by omega
        have ht : tabletMode w = false := by
          cases hx : tabletMode w with
          | false => rfl
          | true => have := ho hx rfl; omega
        have hop : d.isOpen = false := by rw [h6, hw]; rfl
        rw [if_neg he]
        simp only [resume, hop, Bool.false_eq_true, if_false]
        exact ⟨h1, rfl, by simp, h4, h5, by show true = (true && !tabletMode w); rw [ht]; rfl⟩
    · by_cases h0 : m = 1
      · subst h0
        rw [setMode_one, if_pos (Or.inr rfl)]
        by_cases he : 1 = d.mode
        · have : w.mode = 1 := by omega
          rw [if_pos he]
          exact ⟨h1, he.symm, by simp, h4, h5, by rw [h6, this]; rfl⟩
        · rw [if_neg he]
          exact ⟨h1, rfl, by simp, h4, h5, rfl⟩
      · rw [setMode_other d (by assumption) h0, if_neg (by omega)]
        exact ⟨h1, h2, h3, h4, h5, h6⟩
  | add id on =>
    have hw : w.sw = none := ho
    rw [hw] at h4 h5
    simp only [Option.toList, Option.filter, Option.map] at h4 h5
    have h6' : d.isOpen = decide (w.mode = 0) := by rw [h6]; simp [tabletMode, hw]
    simp only [step, next, find, h4, hw, pair, suspend, h1, h5]
    cases on
    · simp
      exact ⟨rfl, h2, h3, rfl, rfl, by rw [h6']; simp [tabletMode]⟩
    · simp
      exact ⟨rfl, h2, h3, rfl, rfl, by simp [tabletMode]⟩
  | remove id =>
    cases hw : w.sw with
    | none =>
      rw [hw] at h4 h5
      simp only [Option.toList, Option.filter, Option.map] at h4 h5
      simp only [step, next, removed, h4, h5, hw]
      exact ⟨h1, h2, h3, rfl, h5, by simpa [tabletMode, hw] using h6⟩
    | some s =>
      rw [hw] at h4 h5
      by_cases hi : s.id = id
      · have ht : tabletMode w = false := by
          cases hx : tabletMode w with
          | false => rfl
          | true => exact absurd hi (ho hx s hw)
        have h6' : d.isOpen = decide (w.mode = 0) := by rw [h6, ht]; simp
        subst hi
        simp only [step, next, removed, h4, h5, hw]
        cases hss : s.suspended <;> simp [Option.filter, hss, h1] <;>
          exact ⟨by first | rfl | exact h1, by first | rfl | exact h2, h3, by simp, by simp [h5, hss, Option.filter], by rw [show _ = _ from h6']; simp [tabletMode]⟩
      · simp only [step, next, removed, h4, h5, hw]
        cases hss : s.suspended <;> simp [Option.filter, hss, hi, h1] <;>
          exact ⟨by first | rfl | exact h1, by first | rfl | exact h2, h3, by simp, by simp [h5, hss, Option.filter], by rw [show _ = _ from h6]; simp [tabletMode, hw, hss]⟩
  | suspend id =>
    cases hw : w.sw with
    | none =>
      rw [hw] at h4 h5
      simp only [Option.toList, Option.filter, Option.map] at h4 h5
      simp only [step, next, removed, update, h4, h5, hw]
      exact ⟨h1, h2, h3, by simp [h4], h5, by simpa [tabletMode, hw] using h6⟩
    | some s =>
      rw [hw] at h4 h5
      by_cases hi : s.id = id
      · have ht : tabletMode w = false := by
          cases hx : tabletMode w with
          | false => rfl
          | true => exact absurd hi (ho hx s hw)
        have h6' : d.isOpen = decide (w.mode = 0) := by rw [h6, ht]; simp
        subst hi
        simp only [step, next, removed, update, h5, hw]
        cases hss : s.suspended <;> simp [Option.filter, hss, h1, h4] <;>
          exact ⟨by first | rfl | exact h1, by first | rfl | exact h2, h3, by simp, by simp [h5, hss, Option.filter], by rw [show _ = _ from h6']; simp [tabletMode]⟩
      · simp only [step, next, removed, update, h5, hw]
        cases hss : s.suspended <;> simp [Option.filter, hss, hi, h1, h4] <;>
          exact ⟨by first | rfl | exact h1, by first | rfl | exact h2, h3, by simp [hi], by simp [h5, hss, Option.filter], by rw [show _ = _ from h6]; simp [tabletMode, hw, hss]⟩
  | resume id =>
    cases hw : w.sw with
    | none =>
      rw [hw] at h4 h5
      simp only [Option.toList, Option.filter, Option.map] at h4 h5
      simp only [step, next, find, h4, hw]
      exact ⟨h1, h2, h3, by simp [h4], h5, by simpa [tabletMode, hw] using h6⟩
    | some s =>
      rw [hw] at h4 h5
      by_cases hi : s.id = id
      · subst hi
        cases hss : s.suspended with
        | false =>
          simp only [step, next, find, h4, hw]
          simp [hss]
          exact ⟨h1, h2, h3, by simp [h4, ← hss], by simp [h5, Option.filter, hss], by rw [h6]; simp [tabletMode, hw, hss]⟩
        | true =>
          have h5' : d.sw = none := by simpa [Option.filter, hss] using h5
          have h6' : d.isOpen = decide (w.mode = 0) := by rw [h6]; simp [tabletMode, hw, hss]
          simp only [step, next, find, h4, hw]
          cases hon : s.on
          · simp [hss, pair, suspend, h1, h5', update, h4, hon]
            exact ⟨rfl, h2, h3, by simp [hon], by simp [Option.filter], by rw [show _ = _ from h6']; simp [tabletMode]⟩
          · simp [hss, pair, suspend, h1, h5', update, h4, hon]
            exact ⟨rfl, h2, h3, by simp [hon], by simp [Option.filter], by simp [tabletMode]⟩
      · have hf : find d id = none := by simp [find, h4, hi]
        simp only [step, next, hf, hw]
        simp [hi]
        exact ⟨h1, h2, h3, by simp [h4], h5, by rw [h6]; simp [tabletMode, hw]⟩
  | tablet id on =>
    cases hw : w.sw with
    | none =>
      rw [hw] at h4 h5
      simp only [Option.toList, Option.filter, Option.map] at h4 h5
      simp only [step, next, find, h4, hw]
      exact ⟨h1, h2, h3, by simp [h4], h5, by simpa [tabletMode, hw] using h6⟩
    | some s =>
      rw [hw] at h4 h5
      by_cases hi : s.id = id
      · subst hi
        cases hss : s.suspended with
        | true =>
          simp only [step, next, find, h4, hw]
          simp [hss]
          exact ⟨h1, h2, h3, by simp [h4], by simp [h5, Option.filter, hss], by rw [h6]; simp [tabletMode, hw]⟩
        | false =>
          have h5' : d.sw = some s.id := by simpa [Option.filter, hss] using h5
          simp only [step, next, find, h4, hw]
          cases on
          · simp [hss, suspend, h1, h5', update, h4, resumeIfEnabled]
            by_cases hm : d.mode = 1
            · rw [if_pos hm]
              have hw1 : w.mode = 1 := by omega
              exact ⟨rfl, h2, h3, by simp, by simp [Option.filter], by rw [show _ = _ from h6, hw1]; rfl⟩
            · rw [if_neg hm]
              have hw0 : w.mode = 0 := by omega
              unfold resume
              simp only
              split
              · exact ⟨rfl, h2, h3, by simp, by simp [Option.filter], by simp_all [tabletMode]⟩
              · exact ⟨rfl, h2, h3, by simp, by simp [Option.filter], by simp_all [tabletMode]⟩
          · simp [hss, suspend, h1, h5', update, h4]
            exact ⟨rfl, h2, h3, by simp, by simp [Option.filter], by simp [tabletMode]⟩
      · have hf : find d id = none := by simp [find, h4, hi]
        simp only [step, next, hf, hw]
        simp [hi]
        exact ⟨h1, h2, h3, by simp [h4], h5, by rw [h6]; simp [tabletMode, hw]⟩

/-- C34 for an internal keyboard or trackpoint: in ordinary histories it is open exactly while its mode is
"enabled" and tablet mode is off. -/
theorem keyboard_open_iff (ops : List Op) (h : Ordinary ⟨0, none⟩ ops) :
    (run (create true) ops).1.isOpen = (decide ((world ops).mode = 0) && !tabletMode (world ops)) := by
  have key : ∀ (ops : List Op) (d : Dev) (w : World), Inv d w → Ordinary w ops →
      Inv (run d ops).1 (ops.foldl next w) := by
    intro ops
    induction ops with
    | nil => intro d w h _; exact h
    | cons op ops ih => intro d w h ho; exact ih _ _ (inv_step h op ho.1) ho.2
  exact (key ops (create true) ⟨0, none⟩ ⟨rfl, rfl, Or.inl rfl, rfl, rfl, rfl⟩ h).isOpen

/-- An ordinary history: tablet mode on and off, disabled and enabled, the switch unplugged. -/
example : Ordinary ⟨0, none⟩ [.add 3 false, .tablet 3 true, .setMode 1, .tablet 3 false, .setMode 0, .remove 3] := by
  simp [Ordinary, OrdinaryOp, tabletMode, next]

/-- Everything is released before the file descriptor is closed. -/
theorem closing_releases (d : Dev) (op : Op) (h1 : d.isOpen = true) (h2 : (step d op).1.isOpen = false) :
    (step d op).2 = [.neutral, .close] := by
  have hp : ∀ d s, d.isOpen = true → (pair d s).1.isOpen = false → (pair d s).2 = [.neutral, .close] := by
    intro d s h1
    unfold pair suspend
    cases d.eligible <;> cases s.on <;> by_cases h : d.sw = none <;> simp [h, h1]
  cases op with
  | setMode m =>
    simp only [step] at h2 ⊢
    by_cases h0 : m = 0
    · subst h0
      rw [setMode_zero] at h2
      split at h2
      · simp [h1] at h2
      · simp [resume, h1] at h2
    · by_cases h0 : m = 1
      · subst h0
        rw [setMode_one] at h2 ⊢
        split at h2
        · simp [h1] at h2
        · rename_i hx; rw [if_neg hx]; simp [suspend, h1]
      · rw [setMode_other d (by assumption) h0] at h2
        simp [h1] at h2
  | add id on =>
    simp only [step] at h2 ⊢
    split at h2
    · simp [h1] at h2
    · rename_i hx; rw [if_neg hx]; exact hp _ _ h1 h2
  | remove id =>
    simp only [step, removed] at h2
    split at h2 <;> simp [h1] at h2
  | suspend id =>
    simp only [step, removed, update] at h2
    split at h2 <;> simp [h1] at h2
  | resume id =>
    simp only [step, update] at h2 ⊢
    cases hf : find d id with
    | none => simp [hf, h1] at h2
    | some s =>
      simp only [hf] at h2 ⊢
      split at h2
      · rename_i hx; rw [if_pos hx]; exact hp _ _ h1 h2
      · simp [h1] at h2
  | tablet id on =>
    simp only [step, update] at h2 ⊢
    cases hf : find d id with
    | none => simp [hf, h1] at h2
    | some s =>
      simp only [hf] at h2 ⊢
      cases hs : s.suspended <;> by_cases hd : d.sw = some id <;> cases on <;>
        simp [hs, hd, h1, suspend, resumeIfEnabled, resume] at h2 ⊢

/-- Enabling a disabled keyboard opens it although tablet mode is on. -/
theorem enabling_overrides_tablet_mode :
    (run (create true) [.add 3 false, .tablet 3 true, .setMode 1, .setMode 0]).1.isOpen = true := by decide

/-- The switch goes away while tablet mode is on: the keyboard stays closed. -/
theorem keyboard_lost_with_switch :
    (run (create true) [.add 3 true, .remove 3]).1.isOpen = false ∧
    (run (create true) [.add 3 true, .suspend 3, .resume 3, .suspend 3]).1.isOpen = false := by decide

end Libinput.SendEvents.Keyboard
