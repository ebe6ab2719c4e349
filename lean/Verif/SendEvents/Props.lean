import Verif.SendEvents.Inv
import Verif.SendEvents.KeyboardProps
set_option linter.unusedSimpArgs false
namespace Libinput.SendEvents
open Libinput.SendEvents.Spec

/-! ### What never changes -/

def Same (d e : Tp) : Prop :=
  e.internal = d.internal ∧ e.noSuspend = d.noSuspend ∧ e.topButtons = d.topButtons

theorem suspend_same (d : Tp) (tr : Trigger) : Same d (tpSuspend d tr).1 := by
  unfold tpSuspend deviceSuspend
  simp only
  split
  · exact ⟨rfl, rfl, rfl⟩
  · split
    · exact ⟨rfl, rfl, rfl⟩
    · split <;> exact ⟨rfl, rfl, rfl⟩

theorem resume_same (d : Tp) (tr : Trigger) : Same d (tpResume d tr).1 := by
  unfold tpResume deviceResume
  simp only
  split
  · exact ⟨rfl, rfl, rfl⟩
  · split
    · exact ⟨rfl, rfl, rfl⟩
    · split <;> exact ⟨rfl, rfl, rfl⟩

theorem Same.trans {a b c : Tp} (h : Same a b) (h' : Same b c) : Same a c :=
  ⟨h'.1.trans h.1, h'.2.1.trans h.2.1, h'.2.2.trans h.2.2⟩

theorem removed_same (d : Tp) (id : Nat) : Same d (removed d id).1 := by
  unfold removed
  rw [seq_fst, seq_fst]
  have e1 : Same d (if d.lidDev = some id then tpResume { d with lidDev := none } .lid else (d, [])).1 := by
    split
    · exact resume_same { d with lidDev := none } .lid
    · exact ⟨rfl, rfl, rfl⟩
  generalize (if d.lidDev = some id then tpResume { d with lidDev := none } .lid else (d, [])).1 = a at *
  have e2 : Same a (if a.tabletDev = some id then tpResume { a with tabletDev := none } .tablet else (a, [])).1 := by
    split
    · exact resume_same { a with tabletDev := none } .tablet
    · exact ⟨rfl, rfl, rfl⟩
  generalize (if a.tabletDev = some id then tpResume { a with tabletDev := none } .tablet else (a, [])).1 = b at *
  refine (e1.trans e2).trans ?_
  split
  · split
    · exact ⟨rfl, rfl, rfl⟩
    · exact resume_same b .mouse
  · exact ⟨rfl, rfl, rfl⟩

theorem added_same (d : Tp) (o : Other) : Same d (added d o).1 := by
  unfold added
  rw [seq_fst]
  have e1 : Same d (pairLid d o) := by rw [pairLid_eq]; exact ⟨rfl, rfl, rfl⟩
  generalize pairLid d o = a at *
  have e2 : Same a (pairTablet a o).1 := by
    unfold pairTablet
    simp only
    split
    · exact ⟨rfl, rfl, rfl⟩
    · split
      · exact ⟨rfl, rfl, rfl⟩
      · split
        · exact ⟨rfl, rfl, rfl⟩
        · split
          · exact ⟨rfl, rfl, rfl⟩
          · split
            · exact suspend_same { a with tabletDev := some o.id } .tablet
            · exact ⟨rfl, rfl, rfl⟩
  generalize (pairTablet a o).1 = b at *
  refine (e1.trans e2).trans ?_
  split
  · exact ⟨rfl, rfl, rfl⟩
  · split
    · exact suspend_same b .mouse
    · exact ⟨rfl, rfl, rfl⟩

theorem setMode_same (d : Tp) (m : Nat) : Same d (setMode d m).2.1 := by
  unfold setMode tpSetMode
  split
  · exact ⟨rfl, rfl, rfl⟩
  · simp only
    generalize (if m &&& DISABLED ≠ 0 ∧ m &&& ON_EXTERNAL_MOUSE ≠ 0 then m ^^^ ON_EXTERNAL_MOUSE else m) = m'
    split
    · exact ⟨rfl, rfl, rfl⟩
    · split
      · exact (resume_same d _).trans (resume_same _ .mouse)
      · split
        · exact (suspend_same d _).trans (resume_same _ .mouse)
        · split
          · have : Same d (suspendConditional d).1 := by
              unfold suspendConditional
              split
              · exact suspend_same d _
              · exact ⟨rfl, rfl, rfl⟩
            exact this.trans (resume_same _ .sendevents)
          · exact ⟨rfl, rfl, rfl⟩

theorem step_same (d : Tp) (op : Op) : Same d (step d op).1 := by
  cases op with
  | setMode m => exact setMode_same d m
  | add o =>
    simp only [step]
    split
    · exact ⟨rfl, rfl, rfl⟩
    · exact added_same { d with others := d.others ++ [{ o with suspended := false }] } { o with suspended := false }
  | remove id =>
    simp only [step]
    split
    · exact ⟨rfl, rfl, rfl⟩
    · refine Same.trans (removed_same d id) ?_
      rw [seq_fst]
      split
      · exact ⟨rfl, rfl, rfl⟩
      · exact removed_same (removed d id).1 id
  | suspend id =>
    simp only [step]
    split
    · exact ⟨rfl, rfl, rfl⟩
    · split
      · exact ⟨rfl, rfl, rfl⟩
      · exact removed_same d id
  | resume id =>
    simp only [step]
    split
    · exact ⟨rfl, rfl, rfl⟩
    · split
      · exact added_same d _
      · exact ⟨rfl, rfl, rfl⟩
  | lid id on =>
    simp only [step]
    split
    · exact ⟨rfl, rfl, rfl⟩
    · split
      · split
        · exact suspend_same d _
        · exact resume_same d _
      · exact ⟨rfl, rfl, rfl⟩
  | tablet id on =>
    simp only [step]
    split
    · exact ⟨rfl, rfl, rfl⟩
    · split
      · split
        · split
          · exact suspend_same (update d id _) _
          · exact resume_same (update d id _) _
        · exact ⟨rfl, rfl, rfl⟩
      · exact ⟨rfl, rfl, rfl⟩

/-! ### Ordinary histories -/

theorem run_inv (ops : List Op) : ∀ (d : Tp) (w : World), Inv d w → Ordinary d.internal w ops →
    Inv (run d ops).1 (ops.foldl (next d.internal) w) ∧ Same d (run d ops).1 := by
  induction ops with
  | nil => intro d w h _; exact ⟨h, rfl, rfl, rfl⟩
  | cons op ops ih =>
    intro d w h ho
    have hs := step_same d op
    have := ih (step d op).1 (next d.internal w op) (step_inv h op ho.1) (by rw [hs.1]; exact ho.2)
    rw [hs.1] at this
    exact ⟨this.1, hs.trans this.2⟩

theorem silent_of_inv {d : Tp} {w : World} (h : Inv d w) : d.reasons.any = silent d.internal d.noSuspend w := by
  rw [Bool.eq_iff_iff]
  unfold Reasons.any silent
  simp only [Bool.or_eq_true]
  rw [h.rMouse, h.rSend, h.rLid, h.rTablet]
  simp only [Bool.and_eq_true, beq_iff_eq, List.any_eq_true, Bool.not_eq_true', Bool.not_eq_eq_eq_not, Bool.not_true]
  constructor
  · rintro (((⟨a, b⟩ | a) | ⟨a, o, b, c, e, f⟩) | ⟨a, b, o, c, e, f, g⟩)
    · exact Or.inl (Or.inl (Or.inr ⟨a, b⟩))
    · exact Or.inl (Or.inl (Or.inl a))
    · exact Or.inl (Or.inr ⟨a, o, b, ⟨c, e⟩, f⟩)
    · exact Or.inr ⟨⟨a, b⟩, o, c, ⟨e, f⟩, g⟩
  · rintro (((a | ⟨a, b⟩) | ⟨a, o, b, ⟨c, e⟩, f⟩) | ⟨⟨a, b⟩, o, c, ⟨e, f⟩, g⟩)
    · exact Or.inl (Or.inl (Or.inr a))
    · exact Or.inl (Or.inl (Or.inl ⟨a, b⟩))
    · exact Or.inl (Or.inr ⟨a, o, b, c, e, f⟩)
    · exact Or.inr ⟨a, b, o, c, e, f, g⟩

/-- C34, touchpads: in ordinary histories the touchpad is suspended exactly when its mode, the external mice,
the lid and the tablet mode say so, and its file descriptor is closed exactly then, unless it must stay
open for the trackpoint's buttons. -/
theorem touchpad_suspended_iff (internal noSuspend topButtons : Bool) (ops : List Op)
    (h : Ordinary internal start ops) :
    (run (create internal noSuspend topButtons) ops).1.isSuspended = silent internal noSuspend (world internal ops) ∧
    (run (create internal noSuspend topButtons) ops).1.isOpen =
      (topButtons || !silent internal noSuspend (world internal ops)) := by
  obtain ⟨h1, h2⟩ := run_inv ops (create internal noSuspend topButtons) start (inv_start _ _ _) h
  have h3 := silent_of_inv h1
  rw [h2.1, h2.2.1] at h3
  obtain ⟨s1, s2⟩ := h1.sync
  rw [h3] at s1 s2
  rw [h2.2.2] at s2
  exact ⟨s1, s2⟩

/-- An ordinary history: a mouse comes and goes in mode 2, the lid closes, tablet mode, disabled, enabled. -/
def sample : List Op :=
  [.add ⟨1, false, false, true, false, false⟩, .setMode 2, .remove 1, .add ⟨2, true, false, false, false, false⟩,
   .lid 2 true, .lid 2 false, .add ⟨3, false, true, false, false, true⟩, .setMode 3, .tablet 3 false, .setMode 0]

example : Ordinary true start sample := by
  simp [sample, Ordinary, OrdinaryOp, next, start, working]

/-- Whether the touchpad is silent along the sample. -/
example : (List.range 11).map (fun n => silent true false (world true (sample.take n))) =
    [false, false, true, false, false, true, false, true, true, true, false] := by decide

/-! ### All histories -/

structure Weak (d : Tp) (m : Nat) : Prop where
  mode : d.mode = m
  sync : Sync d
  range : m = 0 ∨ m = 1 ∨ (m = 2 ∧ d.internal = true)
  rSend : d.reasons.sendevents = true ↔ m = 1
  rMouse : d.reasons.mouse = true → m = 2
  external : d.internal = false → d.lidDev = none ∧ d.tabletDev = none ∧ d.reasons.lid = false ∧ d.reasons.tablet = false

theorem Weak.congr {d e : Tp} {m : Nat} (h : Weak d m) (h0 : e.mode = d.mode) (h1 : Sync e) (h2 : e.internal = d.internal)
    (h3 : e.reasons.sendevents = d.reasons.sendevents) (h4 : e.reasons.mouse = true → m = 2)
    (h5 : d.internal = false → e.lidDev = none ∧ e.tabletDev = none ∧ e.reasons.lid = false ∧ e.reasons.tablet = false) :
    Weak e m :=
  ⟨h0.trans h.mode, h1, h2 ▸ h.range, h3 ▸ h.rSend, h4, fun hi => h5 (h2 ▸ hi)⟩

theorem removed_weak {d : Tp} {m : Nat} (h : Weak d m) (id : Nat) : Weak (removed d id).1 m := by
  rw [removed_put h.sync]
  refine Weak.congr h (e := put _ _) rfl (sync_put _ _) rfl rfl ?_ ?_
  · simp only [put]
    split
    · intro hx; cases hx
    · exact h.rMouse
  · intro hi
    obtain ⟨a, b, c, e⟩ := h.external hi
    simp [put, a, b, c, e]

theorem added_weak {d : Tp} {m : Nat} (h : Weak d m) (o : Other) : Weak (added d o).1 m := by
  rw [added_put h.sync]
  refine Weak.congr h (e := put _ _) rfl (sync_put _ _) rfl rfl ?_ ?_
  · simp only [put, Bool.or_eq_true, Bool.and_eq_true, beq_iff_eq]
    rintro (hx | ⟨hx, _⟩)
    · exact h.rMouse hx
    · exact h.mode.symm.trans hx
  · intro hi
    obtain ⟨a, b, c, e⟩ := h.external hi
    simp [put, a, b, c, e, hi]

theorem Weak.others {d : Tp} {m : Nat} (h : Weak d m) (l : List Other) : Weak { d with others := l } m :=
  ⟨h.mode, h.sync, h.range, h.rSend, h.rMouse, h.external⟩

/-- A later `set_mode` alone decides the mode. -/
theorem setMode_weak {d : Tp} {m0 : Nat} (h : Weak d m0) (m : Nat) :
    Weak (setMode d m).2.1 (accept d.internal m0 m) ∧
    ((setMode d m).1 = .success ↔ (m = 0 ∨ m = 1 ∨ (d.internal = true ∧ (m = 2 ∨ m = 3)))) ∧
    ((setMode d m).1 = .unsupported → (setMode d m).2 = (d, [])) := by
  have key : ∀ (m' : Nat) (r : Reasons), (m' = 0 ∨ m' = 1 ∨ (m' = 2 ∧ d.internal = true)) →
      (r.mouse = true → m' = 2) → (r.sendevents = true ↔ m' = 1) →
      r.lid = d.reasons.lid → r.tablet = d.reasons.tablet → Weak { put d r with mode := m' } m' := by
    intro m' r hm h1 h2 h3 h4
    refine ⟨rfl, ⟨rfl, rfl⟩, hm, h2, h1, fun hi => ?_⟩
    obtain ⟨a, b, c, e⟩ := h.external hi
    exact ⟨a, b, h3.trans c, h4.trans e⟩
  have s0 : tpSetMode d 0 = (if 0 = d.mode then (.success, d, []) else
      (.success, { (seq (tpResume d .sendevents) (tpResume · .mouse)).1 with mode := 0 },
        (seq (tpResume d .sendevents) (tpResume · .mouse)).2)) := rfl
  have s1 : tpSetMode d 1 = (if 1 = d.mode then (.success, d, []) else
      (.success, { (seq (tpSuspend d .sendevents) (tpResume · .mouse)).1 with mode := 1 },
        (seq (tpSuspend d .sendevents) (tpResume · .mouse)).2)) := rfl
  have s2 : tpSetMode d 2 = (if 2 = d.mode then (.success, d, []) else
      (.success, { (seq (suspendConditional d) (tpResume · .sendevents)).1 with mode := 2 },
        (seq (suspendConditional d) (tpResume · .sendevents)).2)) := rfl
  have i0 : Weak (tpSetMode d 0).2.1 0 ∧ (tpSetMode d 0).1 = .success := by
    rw [s0]
    split
    · rename_i he; rw [h.mode] at he; rw [he]; exact ⟨h, rfl⟩
    · simp only [seq_fst, resume_put h.sync, resume_put (sync_put _ _), put_put, and_true]
      apply key 0 _ (by simp) <;> simp [put, Reasons.set]
  have i1 : Weak (tpSetMode d 1).2.1 1 ∧ (tpSetMode d 1).1 = .success := by
    rw [s1]
    split
    · rename_i he; rw [h.mode] at he; rw [he]; exact ⟨h, rfl⟩
    · simp only [seq_fst, suspend_put h.sync, resume_put (sync_put _ _), put_put, and_true]
      apply key 1 _ (by simp) <;> simp [put, Reasons.set]
  have i2 : d.internal = true → Weak (tpSetMode d 2).2.1 2 ∧ (tpSetMode d 2).1 = .success := by
    intro hi
    rw [s2]
    split
    · rename_i he; rw [h.mode] at he; rw [he]; exact ⟨h, rfl⟩
    · have hsc : ∃ b, (suspendConditional d).1 = put d { d.reasons with mouse := b } := by
        unfold suspendConditional
        split
        · exact ⟨true, by rw [suspend_put h.sync]; rfl⟩
        · exact ⟨d.reasons.mouse, (put_self h.sync).symm⟩
      obtain ⟨b, hb⟩ := hsc
      simp only [seq_fst, hb, resume_put (sync_put _ _), put_put, and_true]
      apply key 2 _ (by simp [hi]) <;> simp [put, Reasons.set]
  have nz : ∀ (k : Nat), 3 &&& m ≠ m → 1 &&& m ≠ m := by
    intro _ h3 h1
    have : 1 &&& m ≤ 1 := Nat.and_le_left
    have : m = 0 ∨ m = 1 := by omega
    rcases this with rfl | rfl <;> exact h3 rfl
  unfold setMode accept
  rcases hi : d.internal with _ | _
  · have hg : getModes d = 1 := by simp [getModes, hi, ENABLED, DISABLED]
    rw [hg]
    by_cases hm : m = 0 ∨ m = 1
    · rcases hm with rfl | rfl
      · exact ⟨i0.1, by simp [i0.2], by simp [i0.2]⟩
      · exact ⟨i1.1, by simp [i1.2], by simp [i1.2]⟩
    · have hc : 1 &&& m ≠ m := by
        intro hc
        have : 1 &&& m ≤ 1 := Nat.and_le_left
        omega
      rw [if_pos hc, if_neg hm, if_neg (by simp), if_neg (by simp)]
      refine ⟨h, ?_, fun _ => rfl⟩
      constructor
      · intro hx; cases hx
      · rintro (hx | hx | ⟨hx, _⟩)
        · exact absurd (Or.inl hx) hm
        · exact absurd (Or.inr hx) hm
        · cases hx
  · have hg : getModes d = 3 := by simp [getModes, hi, ENABLED, DISABLED, ON_EXTERNAL_MOUSE]
    rw [hg]
    by_cases hm : m = 0 ∨ m = 1
    · rcases hm with rfl | rfl
      · exact ⟨i0.1, by simp [i0.2], by simp [i0.2]⟩
      · exact ⟨i1.1, by simp [i1.2], by simp [i1.2]⟩
    · by_cases h2 : m = 2
      · subst h2; exact ⟨(i2 hi).1, by simp [(i2 hi).2], by simp [(i2 hi).2]⟩
      · by_cases h3 : m = 3
        · subst h3
          exact ⟨i1.1, by simp; exact i1.2, by simp; intro hx; have := i1.2; rw [show tpSetMode d 3 = tpSetMode d 1 from rfl] at hx; rw [this] at hx; cases hx⟩
        · have hc : 3 &&& m ≠ m := by
            intro hc
            have : 3 &&& m ≤ 3 := Nat.and_le_left
            omega
          rw [if_pos hc, if_neg hm, if_neg (by simp [h2]), if_neg (by simp [h3])]
          refine ⟨h, ?_, fun _ => rfl⟩
          constructor
          · intro hx; cases hx
          · rintro (hx | hx | ⟨_, hx | hx⟩)
            · exact absurd (Or.inl hx) hm
            · exact absurd (Or.inr hx) hm
            · exact absurd hx h2
            · exact absurd hx h3

theorem weak_step {d : Tp} {w : World} (h : Weak d w.mode) (op : Op) : Weak (step d op).1 (next d.internal w op).mode := by
  have lidw : ∀ (b : Bool), d.internal = true →
      Weak (if b then tpSuspend d .lid else tpResume d .lid).1 w.mode := by
    intro b hi
    cases b
    · simp only [Bool.false_eq_true, if_false]
      rw [resume_put h.sync]
      exact h.congr rfl (sync_put _ _) rfl rfl h.rMouse (fun hx => by rw [hi] at hx; cases hx)
    · simp only [if_true]
      rw [suspend_put h.sync]
      exact h.congr rfl (sync_put _ _) rfl rfl h.rMouse (fun hx => by rw [hi] at hx; cases hx)
  cases op with
  | setMode m => exact (setMode_weak h m).1
  | add o =>
    have : (next d.internal w (.add o)).mode = w.mode := by simp only [next]; split <;> rfl
    rw [this]
    simp only [step]
    split
    · exact h
    · exact added_weak (h.others _) _
  | remove id =>
    simp only [step, next]
    split
    · exact h
    · rename_i o _
      have h1 := removed_weak h id
      apply Weak.others
      rw [seq_fst]
      split
      · exact h1
      · exact removed_weak h1 id
  | suspend id =>
    simp only [step, next]
    split
    · exact h
    · split
      · exact h
      · exact (removed_weak h id).others _
  | resume id =>
    simp only [step, next]
    split
    · exact h
    · split
      · exact (added_weak h _).others _
      · exact h
  | lid id on =>
    have : (next d.internal w (.lid id on)).mode = w.mode := by simp only [next]; split <;> rfl
    rw [this]
    simp only [step]
    split
    · exact h
    · split
      · rename_i hc
        apply lidw
        cases hi : d.internal with
        | true => rfl
        | false =>
          have := (h.external hi).1
          simp [this] at hc
      · exact h
  | tablet id on =>
    simp only [step, next]
    split
    · exact h
    · split
      · have hu : Weak (update d id fun o => { o with tabletOn := on }) w.mode := h.others _
        split
        · rename_i hc
          have hi : d.internal = true := by
            cases hi : d.internal with
            | true => rfl
            | false =>
              have := (h.external hi).2.1
              simp [update, this] at hc
          split
          · rw [suspend_put hu.sync]
            exact hu.congr rfl (sync_put _ _) rfl rfl h.rMouse (fun hx => by have hx : d.internal = false := hx; rw [hi] at hx; cases hx)
          · rw [resume_put hu.sync]
            exact hu.congr rfl (sync_put _ _) rfl rfl h.rMouse (fun hx => by have hx : d.internal = false := hx; rw [hi] at hx; cases hx)
        · exact hu
      · exact h

theorem weak_run (ops : List Op) : ∀ (d : Tp) (w : World), Weak d w.mode →
    Weak (run d ops).1 (ops.foldl (next d.internal) w).mode ∧ Same d (run d ops).1 := by
  induction ops with
  | nil => intro d w h; exact ⟨h, rfl, rfl, rfl⟩
  | cons op ops ih =>
    intro d w h
    have hs := step_same d op
    have := ih (step d op).1 (next d.internal w op) (weak_step h op)
    rw [hs.1] at this
    exact ⟨this.1, hs.trans this.2⟩

theorem weak_create (i n t : Bool) : Weak (create i n t) start.mode := by
  constructor <;> simp [create, start, Sync, Reasons.any]

theorem weak_history (i n t : Bool) (ops : List Op) :
    Weak (run (create i n t) ops).1 (world i ops).mode ∧ Same (create i n t) (run (create i n t) ops).1 :=
  weak_run ops (create i n t) start (weak_create i n t)

/-- C34, touchpads, every history: the getter returns the last mode that was accepted; a disabled touchpad is
suspended, and closed unless it serves the trackpoint's buttons. -/
theorem disabled_is_suspended (i n t : Bool) (ops : List Op) :
    getMode (run (create i n t) ops).1 = (world i ops).mode ∧
    ((world i ops).mode = 1 →
      (run (create i n t) ops).1.isSuspended = true ∧ (run (create i n t) ops).1.isOpen = t) := by
  obtain ⟨h, hs⟩ := weak_history i n t ops
  refine ⟨h.mode, fun hm => ?_⟩
  have hr : (run (create i n t) ops).1.reasons.any = true := by
    unfold Reasons.any; rw [h.rSend.2 hm]; simp
  obtain ⟨s1, s2⟩ := h.sync
  rw [hr] at s1 s2
  refine ⟨s1, ?_⟩
  rw [s2, hs.2.2]; simp [create]

/-- C34, every history: an external touchpad is suspended exactly while it is disabled. -/
theorem external_touchpad_follows_mode (n t : Bool) (ops : List Op) :
    (run (create false n t) ops).1.isSuspended = decide ((world false ops).mode = 1) := by
  obtain ⟨h, hs⟩ := weak_history false n t ops
  have hi : (run (create false n t) ops).1.internal = false := hs.1
  obtain ⟨_, _, hl, ht⟩ := h.external hi
  rw [h.sync.1]
  have hm : (run (create false n t) ops).1.reasons.mouse = false := by
    cases hx : (run (create false n t) ops).1.reasons.mouse with
    | false => rfl
    | true =>
      have h2 := h.rMouse hx
      rcases h.range with hr | hr | ⟨_, hr⟩
      · omega
      · omega
      · rw [hi] at hr; cases hr
  unfold Reasons.any
  rw [hl, ht, hm]
  rw [Bool.eq_iff_iff]
  simp [h.rSend]

/-- C34: `set_mode` accepts 0 and 1, and for an internal touchpad also 2 and 3 (both flags; which means 1); a refused
mode changes nothing, whatever happened before. -/
theorem set_mode_status (i n t : Bool) (ops : List Op) (m : Nat) :
    ((setMode (run (create i n t) ops).1 m).1 = .success ↔ m = 0 ∨ m = 1 ∨ (i = true ∧ (m = 2 ∨ m = 3))) ∧
    ((setMode (run (create i n t) ops).1 m).1 = .unsupported →
      (setMode (run (create i n t) ops).1 m).2 = ((run (create i n t) ops).1, [])) ∧
    getMode (setMode (run (create i n t) ops).1 m).2.1 = accept i (world i ops).mode m := by
  obtain ⟨h, hs⟩ := weak_history i n t ops
  obtain ⟨h1, h2, h3⟩ := setMode_weak h m
  rw [show (run (create i n t) ops).1.internal = i from hs.1] at h1 h2
  exact ⟨h2, h3, h1.mode⟩

/-! ### Going silent releases everything -/

/-- In this list of actions everything is released before the device is closed. -/
def ClearedFirst (l : List Act) : Prop := ∀ pre post, l = pre ++ .close :: post → .clear ∈ pre

theorem ClearedFirst.append {a b : List Act} (ha : ClearedFirst a) (hb : ClearedFirst b) : ClearedFirst (a ++ b) := by
  intro pre post h
  rcases List.append_eq_append_iff.1 h with ⟨c, rfl, hc⟩ | ⟨c, hc, h'⟩
  · exact List.mem_append_right _ (hb c post hc)
  · cases c with
    | nil =>
      simp only [List.append_nil, List.nil_append] at hc h'
      rw [← hc]
      have := hb [] post h'.symm
      cases this
    | cons x xs =>
      simp only [List.cons_append, List.cons.injEq] at h'
      obtain ⟨rfl, _⟩ := h'
      exact ha pre xs hc

theorem clearedFirst_of_not_mem {a : List Act} (h : Act.close ∉ a) : ClearedFirst a := by
  rintro pre post rfl
  simp at h

/-- What every operation on the device does. -/
def Good (d : Tp) (r : Tp × List Act) : Prop :=
  Sync d → Sync r.1 ∧ ClearedFirst r.2 ∧ (d.isSuspended = false → r.1.isSuspended = true → .clear ∈ r.2)

theorem good_nil (d : Tp) : Good d (d, []) :=
  fun h => ⟨h, clearedFirst_of_not_mem (by simp), fun h1 h2 => by rw [h1] at h2; cases h2⟩

theorem Good.seq {d : Tp} {r : Tp × List Act} {f : Tp → Tp × List Act} (h : Good d r) (hf : Good r.1 (f r.1)) :
    Good d (SendEvents.seq r f) := by
  intro hs
  obtain ⟨a1, a2, a3⟩ := h hs
  obtain ⟨b1, b2, b3⟩ := hf a1
  refine ⟨b1, a2.append b2, fun h1 h2 => ?_⟩
  cases hm : r.1.isSuspended with
  | true => exact List.mem_append_left _ (a3 h1 hm)
  | false => exact List.mem_append_right _ (b3 hm h2)

/-- Only the device's own state matters. -/
theorem Good.congr {d d' : Tp} {r : Tp × List Act} (h : Good d r) (h1 : d'.reasons = d.reasons)
    (h2 : d'.isSuspended = d.isSuspended) (h3 : d'.isOpen = d.isOpen) (h4 : d'.topButtons = d.topButtons) : Good d' r := by
  intro hs
  have : Sync d := by
    unfold Sync at hs ⊢
    rw [← h1, ← h2, ← h3, ← h4]; exact hs
  rw [h2]; exact h this

theorem Good.out {d : Tp} {r r' : Tp × List Act} (h : Good d r) (h1 : r'.1.reasons = r.1.reasons)
    (h2 : r'.1.isSuspended = r.1.isSuspended) (h3 : r'.1.isOpen = r.1.isOpen) (h4 : r'.1.topButtons = r.1.topButtons)
    (h5 : r'.2 = r.2) : Good d r' := by
  intro hs
  obtain ⟨a1, a2, a3⟩ := h hs
  refine ⟨?_, by rw [h5]; exact a2, by rw [h2, h5]; exact a3⟩
  unfold Sync at a1 ⊢
  rw [h1, h2, h3, h4]; exact a1

theorem good_suspend (d : Tp) (tr : Trigger) : Good d (tpSuspend d tr) := by
  intro h
  refine ⟨by rw [suspend_put h]; exact sync_put _ _, ?_, ?_⟩
  · unfold tpSuspend
    split
    · exact clearedFirst_of_not_mem (by simp)
    · split
      · exact clearedFirst_of_not_mem (by simp)
      · rintro (_ | ⟨x, pre⟩) post hp
        · simp at hp
        · simp only [List.cons_append, List.nil_append, List.cons.injEq] at hp
          rw [← hp.1]; simp
  · intro h1 _
    have ha : d.reasons.any = false := h.1.symm.trans h1
    have hh : d.reasons.has tr = false := by
      revert ha; cases d.reasons; cases tr <;> simp [Reasons.any, Reasons.has] <;> grind
    unfold tpSuspend
    rw [if_neg (by simp [hh]), if_neg (by simp [ha])]
    simp

theorem good_resume (d : Tp) (tr : Trigger) : Good d (tpResume d tr) := by
  intro h
  refine ⟨by rw [resume_put h]; exact sync_put _ _, ?_, ?_⟩
  · apply clearedFirst_of_not_mem
    unfold tpResume deviceResume
    simp only
    split
    · simp
    · split
      · simp
      · split <;> simp
  · intro h1 h2
    rw [resume_put h] at h2
    have ha : d.reasons.any = false := h.1.symm.trans h1
    have : (d.reasons.set false tr).any = false := by
      revert ha; cases d.reasons; cases tr <;> simp [Reasons.any, Reasons.set] <;> grind
    simp [put, this] at h2

theorem good_removed (d : Tp) (id : Nat) : Good d (removed d id) := by
  unfold removed
  apply Good.seq
  · apply Good.seq
    · split
      · exact (good_resume { d with lidDev := none } .lid).congr rfl rfl rfl rfl
      · exact good_nil d
    · generalize (if d.lidDev = some id then tpResume { d with lidDev := none } .lid else (d, [])).1 = a
      split
      · exact (good_resume { a with tabletDev := none } .tablet).congr rfl rfl rfl rfl
      · exact good_nil a
  · generalize (SendEvents.seq _ _).1 = a
    split
    · split
      · exact good_nil a
      · exact good_resume a _
    · exact good_nil a

theorem good_added (d : Tp) (o : Other) : Good d (added d o) := by
  unfold added
  apply Good.seq
  · apply Good.congr (d := pairLid d o)
    · generalize pairLid d o = a
      unfold pairTablet
      simp only
      split
      · exact good_nil a
      · split
        · exact good_nil a
        · split
          · exact good_nil a
          · split
            · exact good_nil a
            · split
              · exact (good_suspend { a with tabletDev := some o.id } .tablet).congr rfl rfl rfl rfl
              · exact (good_nil { a with tabletDev := some o.id }).congr rfl rfl rfl rfl
    all_goals rw [pairLid_eq]
  · generalize (pairTablet (pairLid d o) o).1 = a
    split
    · exact good_nil a
    · split
      · exact good_suspend a _
      · exact good_nil a

theorem good_setMode (d : Tp) (m : Nat) : Good d (setMode d m).2 := by
  unfold setMode tpSetMode
  split
  · exact good_nil d
  · simp only
    generalize (if m &&& DISABLED ≠ 0 ∧ m &&& ON_EXTERNAL_MOUSE ≠ 0 then m ^^^ ON_EXTERNAL_MOUSE else m) = m'
    split
    · exact good_nil d
    · split
      · exact ((good_resume d .sendevents).seq (good_resume _ .mouse)).out rfl rfl rfl rfl rfl
      · split
        · exact ((good_suspend d .sendevents).seq (good_resume _ .mouse)).out rfl rfl rfl rfl rfl
        · split
          · have : Good d (suspendConditional d) := by
              unfold suspendConditional
              split
              · exact good_suspend d _
              · exact good_nil d
            exact (this.seq (good_resume _ .sendevents)).out rfl rfl rfl rfl rfl
          · exact good_nil d

theorem good_step (d : Tp) (op : Op) : Good d (step d op) := by
  cases op with
  | setMode m => exact good_setMode d m
  | add o =>
    simp only [step]
    split
    · exact good_nil d
    · exact (good_added { d with others := d.others ++ [{ o with suspended := false }] } { o with suspended := false }).congr
        rfl rfl rfl rfl
  | remove id =>
    simp only [step]
    split
    · exact good_nil d
    · rename_i o _
      refine Good.out (r := SendEvents.seq (removed d id) fun d => if o.suspended then (d, []) else removed d id) ?_
        rfl rfl rfl rfl rfl
      apply (good_removed d id).seq
      split
      · exact good_nil _
      · exact good_removed _ id
  | suspend id =>
    simp only [step]
    split
    · exact good_nil d
    · split
      · exact good_nil d
      · exact (good_removed d id).out rfl rfl rfl rfl rfl
  | resume id =>
    simp only [step]
    split
    · exact good_nil d
    · rename_i o _
      split
      · exact (good_added d o).out rfl rfl rfl rfl rfl
      · exact good_nil d
  | lid id on =>
    simp only [step]
    split
    · exact good_nil d
    · split
      · split
        · exact good_suspend d _
        · exact good_resume d _
      · exact good_nil d
  | tablet id on =>
    simp only [step]
    split
    · exact good_nil d
    · split
      · split
        · split
          · exact (good_suspend (update d id _) .tablet).congr rfl rfl rfl rfl
          · exact (good_resume (update d id _) .tablet).congr rfl rfl rfl rfl
        · exact (good_nil (update d id _)).congr rfl rfl rfl rfl
      · exact good_nil d

/-- C34, every history: when an operation suspends the touchpad, everything that was down is released, before the
device is closed. -/
theorem suspending_releases (i n t : Bool) (ops : List Op) (op : Op) :
    ClearedFirst (step (run (create i n t) ops).1 op).2 ∧
    ((run (create i n t) ops).1.isSuspended = false → (step (run (create i n t) ops).1 op).1.isSuspended = true →
      .clear ∈ (step (run (create i n t) ops).1 op).2) :=
  (good_step _ op (weak_history i n t ops).1.sync).2

/-- It happens: closing the lid of a laptop. -/
example : (step (run (create true false false) [.add ⟨2, true, false, false, false, false⟩]).1 (.lid 2 true)).2 =
    [.clear, .clear, .close] := by decide

/-! ### Where the touchpad's state is not what one would expect -/

/-- Two external mice, both disabled by the caller: a touchpad to be "disabled on external mouse" stays off,
although no mouse is left to use. -/
theorem disabled_mice_keep_touchpad_off :
    (run (create true false false)
      [.setMode 2, .add ⟨1, false, false, true, false, false⟩, .add ⟨2, false, false, true, false, false⟩,
       .suspend 1, .suspend 2]).1.isSuspended = true ∧
    -- with one mouse it comes back
    (run (create true false false)
      [.setMode 2, .add ⟨1, false, false, true, false, false⟩, .suspend 1]).1.isSuspended = false ∧
    -- unless the mode is set only then
    (run (create true false false)
      [.add ⟨1, false, false, true, false, false⟩, .suspend 1, .setMode 2]).1.isSuspended = true := by decide

/-- A second tablet-mode switch is not used when the first one goes away. -/
theorem second_switch_unused :
    (run (create true false false)
      [.add ⟨1, false, true, false, false, false⟩, .add ⟨2, false, true, false, false, false⟩, .remove 1,
       .tablet 2 true]).1.isSuspended = false := by decide

/-- In mode 2 the removal of any device, here a keyboard, drops the touches of an active touchpad with top buttons. -/
theorem unrelated_removal_clears :
    (step (run (create true false true) [.setMode 2, .add ⟨9, false, false, false, false, false⟩]).1 (.remove 9)).2 =
      [.clear, .topButtons false, .syncSlots, .clear, .topButtons false, .syncSlots] := by decide

end Libinput.SendEvents
