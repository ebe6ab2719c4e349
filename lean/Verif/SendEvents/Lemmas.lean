import Verif.SendEvents.Spec
set_option linter.unusedSimpArgs false
namespace Libinput.SendEvents
open Libinput.SendEvents.Spec

/-- The device state agrees with the reasons. -/
def Sync (d : Tp) : Prop := d.isSuspended = d.reasons.any ∧ d.isOpen = (d.topButtons || !d.reasons.any)

/-- The device with other reasons. -/
def put (d : Tp) (r : Reasons) : Tp :=
  { d with reasons := r, isSuspended := r.any, isOpen := d.topButtons || !r.any }

theorem put_self {d : Tp} (h : Sync d) : put d d.reasons = d := by
  obtain ⟨h1, h2⟩ := h
  cases d
  simp only [put] at *
  simp [h1, h2]

theorem sync_put (d : Tp) (r : Reasons) : Sync (put d r) := ⟨rfl, rfl⟩

theorem put_put (d : Tp) (r r' : Reasons) : put (put d r) r' = put d r' := rfl

theorem set_has {r : Reasons} {tr : Trigger} (h : r.has tr = true) : r.set true tr = r := by
  cases r; cases tr <;> simp_all [Reasons.has, Reasons.set]

theorem any_set_true (r : Reasons) (tr : Trigger) : (r.set true tr).any = true := by
  cases tr <;> simp [Reasons.set, Reasons.any]

theorem suspend_put {d : Tp} (h : Sync d) (tr : Trigger) : (tpSuspend d tr).1 = put d (d.reasons.set true tr) := by
  unfold tpSuspend
  split
  · rename_i hh; rw [set_has hh, put_self h]
  · obtain ⟨h1, h2⟩ := h
    split
    · rename_i ha
      simp only [put, any_set_true]
      rw [ha] at h1 h2
      simp [h1, h2]
    · simp only
      split
      · rename_i ha ht
        rw [ht] at h2
        simp [put, any_set_true, ht, h2]
      · rename_i ha ht
        simp [put, any_set_true, deviceSuspend, ht]

theorem resume_put {d : Tp} (h : Sync d) (tr : Trigger) : (tpResume d tr).1 = put d (d.reasons.set false tr) := by
  unfold tpResume
  obtain ⟨h1, h2⟩ := h
  simp only
  split
  · rename_i ha
    have : d.reasons.any = true := by
      revert ha
      cases d.reasons; cases tr <;> simp [Reasons.set, Reasons.any] <;> grind
    rw [this] at h1 h2
    simp [put, ha, h1, h2]
  · rename_i ha
    have ha' : (d.reasons.set false tr).any = false := by simpa using ha
    split
    · rename_i ht
      rw [ht] at h2
      simp only [put, ha']
      simp [ht, h2]
    · rename_i ht
      have ht' : d.topButtons = false := by simpa using ht
      rw [ht'] at h2
      simp only [put, deviceResume, ha']
      by_cases ho : d.isOpen = true
      · have : d.reasons.any = false := by rw [ho] at h2; simpa using h2.symm
        simp [ho, h1, this]
      · simp [ho]

theorem seq_fst (r : Tp × List Act) (f : Tp → Tp × List Act) : (seq r f).1 = (f r.1).1 := rfl

theorem unlid_put {d : Tp} (h : Sync d) (id : Nat) :
    (if d.lidDev = some id then tpResume { d with lidDev := none } .lid else (d, [])).1 =
      put { d with lidDev := if d.lidDev = some id then none else d.lidDev }
        { d.reasons with lid := if d.lidDev = some id then false else d.reasons.lid } := by
  by_cases hl : d.lidDev = some id
  · rw [if_pos hl, resume_put (d := { d with lidDev := none }) h]
    simp [hl, Reasons.set]
  · rw [if_neg hl]; simp only [hl, if_false]; exact (put_self h).symm

theorem untablet_put {d : Tp} (h : Sync d) (id : Nat) :
    (if d.tabletDev = some id then tpResume { d with tabletDev := none } .tablet else (d, [])).1 =
      put { d with tabletDev := if d.tabletDev = some id then none else d.tabletDev }
        { d.reasons with tablet := if d.tabletDev = some id then false else d.reasons.tablet } := by
  by_cases hl : d.tabletDev = some id
  · rw [if_pos hl, resume_put (d := { d with tabletDev := none }) h]
    simp [hl, Reasons.set]
  · rw [if_neg hl]; simp only [hl, if_false]; exact (put_self h).symm

theorem unmouse_put {d : Tp} (h : Sync d) (id : Nat) :
    (if d.mode = 2 then
        if d.others.any (fun o => o.id != id && o.mouse) then (d, []) else tpResume d .mouse
      else (d, [])).1 =
      put d { d.reasons with mouse :=
        if d.mode = 2 ∧ d.others.any (fun o => o.id != id && o.mouse) = false then false else d.reasons.mouse } := by
  by_cases hm : d.mode = 2
  · rw [if_pos hm]
    cases ha : d.others.any (fun o => o.id != id && o.mouse) with
    | true => simp [put_self h]
    | false => simp [hm, resume_put h, Reasons.set]
  · rw [if_neg hm]; simp [hm, put_self h]

/-- `removed` in closed form. -/
theorem removed_put {d : Tp} (h : Sync d) (id : Nat) :
    (removed d id).1 = put { d with
        lidDev := if d.lidDev = some id then none else d.lidDev,
        tabletDev := if d.tabletDev = some id then none else d.tabletDev }
      { lid := if d.lidDev = some id then false else d.reasons.lid,
        tablet := if d.tabletDev = some id then false else d.reasons.tablet,
        mouse := if d.mode = 2 ∧ d.others.any (fun o => o.id != id && o.mouse) = false then false else d.reasons.mouse,
        sendevents := d.reasons.sendevents } := by
  unfold removed
  rw [seq_fst, seq_fst, unlid_put h, untablet_put (sync_put _ _)]
  exact unmouse_put (sync_put _ _) id

theorem pairLid_eq (d : Tp) (o : Other) :
    pairLid d o = { d with lidDev := if o.lid = true ∧ d.internal = true ∧ d.lidDev = none then some o.id else d.lidDev } := by
  unfold pairLid
  cases o.lid <;> cases hi : d.internal <;> by_cases hl : d.lidDev = none <;> simp [hl, ← hi]
  all_goals (cases d; simp_all)

theorem pairTablet_put {d : Tp} (h : Sync d) (o : Other) :
    (pairTablet d o).1 = put { d with
        tabletDev := if o.tablet = true ∧ d.tabletDev = none ∧ d.internal = true ∧ d.noSuspend = false then some o.id else d.tabletDev }
      { d.reasons with
        tablet := d.reasons.tablet ||
          (o.tablet && d.tabletDev == none && d.internal && !d.noSuspend && o.tabletOn) } := by
  unfold pairTablet
  by_cases hc : o.tablet = true ∧ d.tabletDev = none ∧ d.internal = true ∧ d.noSuspend = false
  · obtain ⟨h1, h2, h3, h4⟩ := hc
    have e1 : ¬ (!o.tablet) = true := by simp [h1]
    have e2 : ¬ d.tabletDev ≠ none := by simp [h2]
    have e3 : ¬ ((!d.internal) || d.noSuspend) = true := by simp [h3, h4]
    simp only [h1, h2, h3, h4]
    cases hon : o.tabletOn
    · simp
      exact (put_self (d := { d with tabletDev := some o.id, internal := true, noSuspend := false }) h).symm
    · simp
      have := suspend_put (d := { d with tabletDev := some o.id, internal := true, noSuspend := false }) h .tablet
      simpa [Reasons.set] using this
  · have hb : (o.tablet && d.tabletDev == none && d.internal && !d.noSuspend && o.tabletOn) = false := by
      cases h1 : o.tablet <;> cases h2 : d.tabletDev <;> cases h3 : d.internal <;> cases h4 : d.noSuspend <;> simp_all
    rw [hb, if_neg hc]
    have : put { d with tabletDev := d.tabletDev } { d.reasons with tablet := d.reasons.tablet || false } = d := by
      simpa using put_self h
    rw [this]
    cases h1 : o.tablet <;> cases h2 : d.tabletDev <;> cases h3 : d.internal <;> cases h4 : d.noSuspend <;> simp_all

theorem mouse_put {d : Tp} (h : Sync d) (o : Other) :
    (if d.mode ≠ 2 then (d, []) else if o.mouse then tpSuspend d .mouse else (d, [])).1 =
      put d { d.reasons with mouse := d.reasons.mouse || (d.mode == 2 && o.mouse) } := by
  by_cases hm : d.mode = 2
  · rw [if_neg (by simp [hm])]
    cases hom : o.mouse
    · simp [put_self h]
    · simp [suspend_put h, hm, Reasons.set]
  · rw [if_pos hm]
    have : (d.mode == 2) = false := by simp [hm]
    simp [this, put_self h]

/-- `added` in closed form. -/
theorem added_put {d : Tp} (h : Sync d) (o : Other) :
    (added d o).1 = put { d with
        lidDev := if o.lid = true ∧ d.internal = true ∧ d.lidDev = none then some o.id else d.lidDev,
        tabletDev := if o.tablet = true ∧ d.tabletDev = none ∧ d.internal = true ∧ d.noSuspend = false then some o.id else d.tabletDev }
      { lid := d.reasons.lid,
        tablet := d.reasons.tablet ||
          (o.tablet && d.tabletDev == none && d.internal && !d.noSuspend && o.tabletOn),
        mouse := d.reasons.mouse || (d.mode == 2 && o.mouse),
        sendevents := d.reasons.sendevents } := by
  unfold added
  rw [seq_fst, pairLid_eq, pairTablet_put (by exact h)]
  exact mouse_put (sync_put _ _) o

end Libinput.SendEvents
