import Verif.SoftButtons.Spec
/-
Proofs about the software buttons: the life of a click.
-/
namespace Libinput.SoftButtons
open Spec

/-- What the code remembers of a click at a stage. -/
@[reducible] def Stage (s : Pad) (c : Click) : Prop :=
  match c with
    | .up => s.old = false ∧ s.pending = false ∧ s.active = 0
    | .waiting => s.old = true ∧ s.pending = true ∧ s.active = 0
    | .held d b => s.old = true ∧ s.pending = false ∧ s.active = b ∧ b ≠ 0 ∧
        (match d with
          | .trackpoint => s.trackpoint = true ∧ s.activeTop = true
          | .touchpad => ¬ (s.trackpoint = true ∧ s.activeTop = true) ∧ ¬ (s.trackpoint = true ∧ s.suspended = true))
    | .over => s.old = true ∧ s.pending = false ∧
        (s.active = 0 ∨ (s.trackpoint = true ∧ s.suspended = true ∧ s.activeTop = false))

/-- How the state of the code and the stage of the click belong together. -/
structure ClickInv (s : Pad) (e : Env) (c : Click) : Prop where
  down : s.down = e.down
  old : s.old = e.old
  susp : s.suspended = e.suspended
  shut : s.suspended = true → s.hasTop = false → c = .up
  stage : Stage s c

theorem applyMiddle_fields (s : Pad) : (applyMiddle s).down = s.down ∧ (applyMiddle s).old = s.old ∧
    (applyMiddle s).suspended = s.suspended ∧ (applyMiddle s).pending = s.pending ∧
    (applyMiddle s).active = s.active ∧ (applyMiddle s).activeTop = s.activeTop ∧
    (applyMiddle s).trackpoint = s.trackpoint ∧ (applyMiddle s).hasTop = s.hasTop ∧
    (applyMiddle s).qPress = s.qPress ∧ (applyMiddle s).touches = s.touches ∧ (applyMiddle s).geo = s.geo := by
  unfold applyMiddle initSoftbuttons
  split
  · simp
  · split
    · simp
    · dsimp only
      split
      · split <;> simp
      · simp

theorem choose_ne (s : Pad) : choose s ≠ 0 := by
  unfold choose toLeft
  simp only [BTN_LEFT, BTN_RIGHT, BTN_MIDDLE]
  repeat' split
  all_goals decide

theorem handleFrame_eq (s : Pad) (t : Nat) (vs : List View) :
    handleFrame s t vs = (applyMiddle (postProcess (postButtons (handleState s t vs) t vs).1),
      (postButtons (handleState s t vs) t vs).2) := rfl

theorem postButtons_hasTop (s : Pad) (t : Nat) (vs : List View) : (postButtons s t vs).1.hasTop = s.hasTop ∧
    (postButtons s t vs).1.touches = s.touches ∧ (postButtons s t vs).1.edges = s.edges ∧
    (postButtons s t vs).1.suspended = s.suspended := by
  unfold postButtons notify
  dsimp only
  repeat' split
  all_goals exact ⟨rfl, rfl, rfl, rfl⟩

theorem handleFrame_hasTop (s : Pad) (t : Nat) (vs : List View) : (handleFrame s t vs).1.hasTop = s.hasTop := by
  rw [handleFrame_eq]
  show (applyMiddle _).hasTop = _
  rw [(applyMiddle_fields _).2.2.2.2.2.2.2.1]
  exact (postButtons_hasTop _ t vs).1

/-- A frame takes the click one stage on. -/
theorem frame_click {s : Pad} {e : Env} {c : Click} (h : ClickInv s e c) (t : Nat) (vs : List View)
    (hre : s.suspended = true → s.hasTop = false → e.down = false) :
    ∃ c', Frame t e.down c (handleFrame s t vs).2 c' ∧
      ClickInv (handleFrame s t vs).1 { e with old := e.down } c' := by
  have hT := handleFrame_hasTop s t vs
  obtain ⟨hd, ho, hs, hsh, hst⟩ := h
  rw [handleFrame_eq] at hT ⊢
  generalize hs1 : handleState s t vs = s1 at hT ⊢
  have hf : s1.down = s.down ∧ s1.old = s.old ∧ s1.suspended = s.suspended ∧ s1.pending = s.pending ∧
      s1.active = s.active ∧ s1.activeTop = s.activeTop ∧ s1.trackpoint = s.trackpoint ∧ s1.method = s.method := by
    subst hs1
    simp [handleState]
  obtain ⟨f1, f2, f3, f4, f5, f6, f7, f8⟩ := hf
  generalize hp : postButtons s1 t vs = r at hT ⊢
  obtain ⟨s2, ns⟩ := r
  simp only at hT ⊢
  obtain ⟨a1, a2, a3, a4, a5, a6, a7, -, -, -, -⟩ := applyMiddle_fields (postProcess s2)
  suffices hk : ∃ c', Frame t e.down c ns c' ∧ s2.down = e.down ∧ s2.suspended = e.suspended ∧
      (match c' with
        | .up => s2.down = false ∧ s2.pending = false ∧ s2.active = 0
        | .waiting => s2.down = true ∧ s2.pending = true ∧ s2.active = 0
        | .held d b => s2.down = true ∧ s2.pending = false ∧ s2.active = b ∧ b ≠ 0 ∧
            (match d with
              | .trackpoint => s2.trackpoint = true ∧ s2.activeTop = true
              | .touchpad => ¬ (s2.trackpoint = true ∧ s2.activeTop = true) ∧
                  ¬ (s2.trackpoint = true ∧ s2.suspended = true))
        | .over => s2.down = true ∧ s2.pending = false ∧
            (s2.active = 0 ∨ (s2.trackpoint = true ∧ s2.suspended = true ∧ s2.activeTop = false))) by
    obtain ⟨c', h1, h2, h3, h4⟩ := hk
    refine ⟨c', h1, ⟨a1.trans h2, a2.trans h2, a3.trans h3, ?_, ?_⟩⟩
    · intro k1 k2
      have k := hsh (hs.trans (h3.symm.trans (a3.symm.trans k1))) (hT.symm.trans k2)
      have k' := hre (hs.trans (h3.symm.trans (a3.symm.trans k1))) (hT.symm.trans k2)
      subst k
      rw [k'] at h1
      cases h1; rfl
    · unfold Stage
      rw [a2, a3, a4, a5, a6, a7]
      exact h4
  unfold postButtons at hp
  by_cases hq : (!s1.pending && s1.down == s1.old) = true
  · rw [if_pos hq] at hp
    obtain ⟨rfl, rfl⟩ := Prod.mk.inj hp
    simp only [Bool.and_eq_true, Bool.not_eq_true', beq_iff_eq] at hq
    obtain ⟨q1, q2⟩ := hq
    have hdo : e.down = s.old := by rw [← hd, ← f1, q2, f2]
    cases c with
    | up =>
      refine ⟨.up, ?_, by rw [f1, hd], by first | exact f3.trans hs | exact hs, ?_⟩
      · rw [hdo, hst.1]; exact .idle
      · simp only [f4, f5, f1, hd, hdo]; exact hst
    | waiting => rw [f4, hst.2.1] at q1; cases q1
    | held d b =>
      refine ⟨.held d b, ?_, by rw [f1, hd], by first | exact f3.trans hs | exact hs, ?_⟩
      · rw [hdo, hst.1]; exact .hold d b
      · simp only [f4, f5, f1, f6, f7, f3, hd, hdo]; exact hst
    | over =>
      refine ⟨.over, ?_, by rw [f1, hd], by first | exact f3.trans hs | exact hs, ?_⟩
      · rw [hdo, hst.1]; exact .still
      · simp only [f4, f5, f1, f6, f7, f3, hd, hdo]; exact hst
  · rw [if_neg hq] at hp
    cases hdn : s1.down with
    | true =>
      have hed : e.down = true := by rw [← hd, ← f1, hdn]
      -- a stage from which a press can be reported
      have hc : c = .up ∨ c = .waiting := by
        cases c with
        | up => exact Or.inl rfl
        | waiting => exact Or.inr rfl
        | held d b =>
          refine absurd ?_ hq
          rw [f4, hst.2.1, hdn, f2, hst.1]; rfl
        | over =>
          refine absurd ?_ hq
          rw [f4, hst.2.1, hdn, f2, hst.1]; rfl
      have hact : s.active = 0 := by
        rcases hc with rfl | rfl
        · exact hst.2.2
        · exact hst.2.2
      have hwait : Frame t e.down c [] .waiting := by
        rw [hed]
        rcases hc with rfl | rfl
        · exact .wait
        · exact .waitMore
      have hpress : ∀ d b, Frame t e.down c [⟨t, d, b, true⟩] (.held d b) := by
        intro d b
        rw [hed]
        rcases hc with rfl | rfl
        · exact .press d b
        · exact .pressLate d b
      have hignore : Frame t e.down c [] .over := by
        rw [hed]
        rcases hc with rfl | rfl
        · exact .ignore
        · exact .ignoreLate
      rw [if_pos hdn] at hp
      dsimp only at hp
      split at hp
      · obtain ⟨rfl, rfl⟩ := Prod.mk.inj hp
        refine ⟨.waiting, hwait, by rw [f1, hd], by first | exact f3.trans hs | exact hs, ?_⟩
        simp [hdn, f5, hact]
      · rw [if_pos (choose_ne s1)] at hp
        generalize choose_ne s1 = hne at hp
        clear hne
        have hb := choose_ne s1
        generalize choose s1 = b at hp hb
        generalize (s1.touches.map Touch.cur).any isT = top at hp
        unfold notify at hp
        dsimp only at hp
        split at hp
        · next hh =>
          obtain ⟨rfl, rfl⟩ := Prod.mk.inj hp
          refine ⟨.held .trackpoint b, hpress _ _, by rw [f1, hd], by first | exact f3.trans hs | exact hs, hdn, rfl, rfl, hb, ?_⟩
          exact ⟨hh.1, hh.2⟩
        · next hh =>
          split at hp
          · next hh2 =>
            obtain ⟨rfl, rfl⟩ := Prod.mk.inj hp
            refine ⟨.over, hignore, by rw [f1, hd], by first | exact f3.trans hs | exact hs, hdn, rfl, Or.inr ⟨hh2.1, hh2.2, ?_⟩⟩
            cases top with
            | false => rfl
            | true => exact absurd ⟨hh2.1, rfl⟩ hh
          · next hh2 =>
            split at hp
            · split at hp
              · next h0 =>
                obtain ⟨rfl, rfl⟩ := Prod.mk.inj hp
                exact ⟨.over, hignore, by rw [f1, hd], by first | exact f3.trans hs | exact hs, hdn, rfl, Or.inl h0⟩
              · next h0 =>
                obtain ⟨rfl, rfl⟩ := Prod.mk.inj hp
                exact ⟨.held .touchpad _, hpress _ _, by rw [f1, hd], by first | exact f3.trans hs | exact hs, hdn, rfl, rfl, h0,
                  ⟨hh, hh2⟩⟩
            · obtain ⟨rfl, rfl⟩ := Prod.mk.inj hp
              exact ⟨.held .touchpad b, hpress _ _, by rw [f1, hd], by first | exact f3.trans hs | exact hs, hdn, rfl, rfl, hb, ⟨hh, hh2⟩⟩
    | false =>
      have hed : e.down = false := by rw [← hd, ← f1, hdn]
      rw [if_neg (by rw [hdn]; decide)] at hp
      dsimp only at hp
      rw [f5, f6] at hp
      split at hp
      · next ha =>
        -- something is to be released
        unfold notify at hp
        dsimp only at hp
        rw [f7, f3] at hp
        cases c with
        | up => exact absurd hst.2.2 ha
        | waiting => exact absurd hst.2.2 ha
        | held d b =>
          obtain ⟨k1, k2, k3, k4, k5⟩ := hst
          cases d with
          | trackpoint =>
            rw [if_pos k5] at hp
            obtain ⟨rfl, rfl⟩ := Prod.mk.inj hp
            refine ⟨.up, ?_, by rw [f1, hd], by first | exact f3.trans hs | exact hs, hdn, rfl, rfl⟩
            rw [hed, k3]; exact .release _ _
          | touchpad =>
            rw [if_neg k5.1, if_neg k5.2, if_neg (by simp)] at hp
            obtain ⟨rfl, rfl⟩ := Prod.mk.inj hp
            refine ⟨.up, ?_, by rw [f1, hd], by first | exact f3.trans hs | exact hs, hdn, rfl, rfl⟩
            rw [hed, k3]; exact .release _ _
        | over =>
          obtain ⟨k1, k2, k3⟩ := hst
          rcases k3 with k3 | ⟨k3, k4, k5⟩
          · exact absurd k3 ha
          · rw [if_neg (by rw [k5]; simp), if_pos ⟨k3, k4⟩] at hp
            obtain ⟨rfl, rfl⟩ := Prod.mk.inj hp
            refine ⟨.up, ?_, by rw [f1, hd], by first | exact f3.trans hs | exact hs, hdn, rfl, rfl⟩
            rw [hed]; exact .done
      · next ha =>
        obtain ⟨rfl, rfl⟩ := Prod.mk.inj hp
        refine ⟨.up, ?_, by rw [f1, hd], by first | exact f3.trans hs | exact hs, hdn, rfl, rfl⟩
        have ha : s.active = 0 := Decidable.not_not.mp ha
        rw [hed]
        cases c with
        | up => exact .idle
        | waiting => exact .drop
        | held d b => exact absurd (hst.2.2.1.symm.trans ha) hst.2.2.2.1
        | over => exact .done

/-- Config changes do not touch the click. -/
theorem ClickInv.congr {s s' : Pad} {e : Env} {c : Click} (h : ClickInv s e c)
    (h1 : s'.down = s.down) (h2 : s'.old = s.old) (h3 : s'.suspended = s.suspended) (h4 : s'.pending = s.pending)
    (h5 : s'.active = s.active) (h6 : s'.activeTop = s.activeTop) (h7 : s'.trackpoint = s.trackpoint)
    (h8 : s'.hasTop = s.hasTop) : ClickInv s' e c := by
  obtain ⟨hd, ho, hs, hsh, hst⟩ := h
  refine ⟨h1.trans hd, h2.trans ho, h3.trans hs, by rw [h3, h8]; exact hsh, ?_⟩
  unfold Stage
  rw [h2, h3, h4, h5, h6, h7]
  exact hst

theorem initSoftbuttons_fields (s : Pad) : (initSoftbuttons s).down = s.down ∧ (initSoftbuttons s).old = s.old ∧
    (initSoftbuttons s).suspended = s.suspended ∧ (initSoftbuttons s).pending = s.pending ∧
    (initSoftbuttons s).active = s.active ∧ (initSoftbuttons s).activeTop = s.activeTop ∧
    (initSoftbuttons s).trackpoint = s.trackpoint ∧ (initSoftbuttons s).hasTop = s.hasTop ∧
    (initSoftbuttons s).qPress = s.qPress ∧ (initSoftbuttons s).touches = s.touches := by
  unfold initSoftbuttons
  split <;> simp

theorem setMethod_fields (s : Pad) (m : Method) : (setMethod s m).down = s.down ∧ (setMethod s m).old = s.old ∧
    (setMethod s m).suspended = s.suspended ∧ (setMethod s m).pending = s.pending ∧
    (setMethod s m).active = s.active ∧ (setMethod s m).activeTop = s.activeTop ∧
    (setMethod s m).trackpoint = s.trackpoint ∧ (setMethod s m).hasTop = s.hasTop ∧
    (setMethod s m).qPress = s.qPress ∧ (setMethod s m).touches = s.touches := by
  unfold setMethod switchMethod
  cases m with
  | areas => exact initSoftbuttons_fields _
  | clickfinger => simp
  | none => simp

theorem initTop_fields (s : Pad) (b : Bool) : (initTop s b).down = s.down ∧ (initTop s b).old = s.old ∧
    (initTop s b).suspended = s.suspended ∧ (initTop s b).pending = s.pending ∧
    (initTop s b).active = s.active ∧ (initTop s b).activeTop = s.activeTop ∧
    (initTop s b).trackpoint = s.trackpoint ∧ (initTop s b).hasTop = s.hasTop ∧
    (initTop s b).qPress = s.qPress ∧ (initTop s b).touches = s.touches := by
  unfold initTop
  split <;> simp

theorem applyLeft_fields (s : Pad) : (applyLeft s).down = s.down ∧ (applyLeft s).old = s.old ∧
    (applyLeft s).suspended = s.suspended ∧ (applyLeft s).pending = s.pending ∧
    (applyLeft s).active = s.active ∧ (applyLeft s).activeTop = s.activeTop ∧
    (applyLeft s).trackpoint = s.trackpoint ∧ (applyLeft s).hasTop = s.hasTop ∧
    (applyLeft s).qPress = s.qPress ∧ (applyLeft s).touches = s.touches := by
  unfold applyLeft
  split
  · simp
  · split <;> simp

theorem releaseAll_fields (s : Pad) : (releaseAll s).down = false ∧ (releaseAll s).old = s.old ∧
    (releaseAll s).suspended = s.suspended ∧ (releaseAll s).pending = s.pending ∧
    (releaseAll s).active = s.active ∧ (releaseAll s).activeTop = s.activeTop ∧
    (releaseAll s).trackpoint = s.trackpoint ∧ (releaseAll s).hasTop = s.hasTop ∧
    (releaseAll s).qPress = s.qPress ∧ (releaseAll s).touches = s.touches := by
  unfold releaseAll
  split
  · simp
  · next h => simp [Bool.eq_false_iff.mpr h]

/-- `tp_clear_state` ends the click. -/
theorem clear_click {s : Pad} {e : Env} {c : Click} (h : ClickInv s e c) (t : Nat) (vs : List View) :
    Frame t false c (clearState s t vs).2 .up ∧ ClickInv (clearState s t vs).1 { e with down := false, old := false } .up := by
  obtain ⟨a1, a2, a3, a4, a5, a6, a7, a8, -, -⟩ := releaseAll_fields s
  have h' : ClickInv (releaseAll s) { e with down := false } c :=
    ⟨a1, a2.trans h.old, a3.trans h.susp, by rw [a3, a8]; exact h.shut, by unfold Stage; rw [a2, a3, a4, a5, a6, a7]; exact h.stage⟩
  obtain ⟨c', h1, h2⟩ := frame_click h' t vs (fun _ _ => rfl)
  have : c' = .up := by
    revert h1
    show Frame t false c (clearState s t vs).2 c' → _
    generalize (clearState s t vs).2 = ns
    intro h1
    cases h1 <;> rfl
  subst this
  exact ⟨h1, h2⟩

theorem frame_up {t : Nat} {ns : List Note} (h : Frame t false .up ns .up) : ns = [] := by
  cases h; rfl

theorem clearState_hasTop (s : Pad) (t : Nat) (vs : List View) : (clearState s t vs).1.hasTop = s.hasTop := by
  unfold clearState
  rw [handleFrame_hasTop]
  exact (releaseAll_fields s).2.2.2.2.2.2.2.1

/-- `hasTop` never changes. -/
theorem step_hasTop (s : Pad) (op : Op) : (step s op).1.hasTop = s.hasTop := by
  cases op with
  | button v =>
    simp only [step]
    split
    · rfl
    · unfold processButton; split <;> rfl
  | frame t vs =>
    simp only [step]
    split
    · rfl
    · exact handleFrame_hasTop s t vs
  | timeout now i =>
    simp only [step]
    split
    · rfl
    · split
      · rfl
      · split <;> rfl
  | setMethod m => exact (setMethod_fields s m).2.2.2.2.2.2.2.1
  | setMiddle b => exact (applyMiddle_fields _).2.2.2.2.2.2.2.1
  | setLeft b => exact (applyLeft_fields _).2.2.2.2.2.2.2.1
  | applyLeft => exact (applyLeft_fields _).2.2.2.2.2.2.2.1
  | suspend t vs =>
    simp only [step]
    split
    · rfl
    · split
      · rw [(initTop_fields _ _).2.2.2.2.2.2.2.1]
        exact clearState_hasTop s t vs
      · show (clearState (clearState s t vs).1 t _).1.hasTop = _
        rw [clearState_hasTop, clearState_hasTop]
  | resume t vs =>
    simp only [step]
    split
    · rfl
    · split
      · show (initTop _ false).hasTop = _
        rw [(initTop_fields _ _).2.2.2.2.2.2.2.1]
        exact clearState_hasTop s t vs
      · rfl
  | addTrackpoint => simp only [step]; split <;> rfl
  | removeTrackpoint =>
    simp only [step]
    split
    · rfl
    · split <;> rfl

theorem closed_iff {s : Pad} {e : Env} {c : Click} (h : ClickInv s e c) : s.closed = !(e.read s.hasTop) := by
  unfold Pad.closed Env.read
  rw [h.susp]
  cases e.suspended <;> cases s.hasTop <;> rfl

/-- Every operation takes the click one stage on. -/
theorem step_click {s : Pad} {e : Env} {c : Click} (h : ClickInv s e c) (op : Op)
    (hc : match op with
      | .addTrackpoint | .removeTrackpoint => ¬ (e.suspended = true ∧ e.old = true)
      | _ => True) :
    ∃ c', Allowed s.hasTop e c op (step s op).2 c' ∧ ClickInv (step s op).1 (e.follow s.hasTop op) c' := by
  have hcl := closed_iff h
  cases op with
  | button v =>
    refine ⟨c, ?_⟩
    simp only [step, Allowed, Env.follow, hcl]
    cases hr : e.read s.hasTop with
    | false => simpa using h
    | true =>
      simp only [Bool.not_true, Bool.false_eq_true, if_false, if_true, and_self, true_and]
      unfold processButton
      cases v with
      | true => exact ⟨rfl, h.old, h.susp, h.shut, h.stage⟩
      | false => exact ⟨rfl, h.old, h.susp, h.shut, h.stage⟩
  | frame t vs =>
    simp only [step, Allowed, Env.follow, hcl]
    cases hr : e.read s.hasTop with
    | false => exact ⟨c, by simp, by simpa using h⟩
    | true =>
      obtain ⟨c', h1, h2⟩ := frame_click h t vs (fun k1 k2 => by
        rw [h.susp] at k1; simp [Env.read, k1, k2] at hr)
      exact ⟨c', by simpa using h1, by simpa using h2⟩
  | timeout now i =>
    refine ⟨c, ?_⟩
    simp only [step, Allowed, Env.follow]
    split
    · exact ⟨⟨rfl, trivial⟩, h⟩
    · split
      · exact ⟨⟨rfl, trivial⟩, h⟩
      · split
        · exact ⟨⟨rfl, trivial⟩, h.congr rfl rfl rfl rfl rfl rfl rfl rfl⟩
        · exact ⟨⟨rfl, trivial⟩, h⟩
  | setMethod m =>
    obtain ⟨a1, a2, a3, a4, a5, a6, a7, a8, -, -⟩ := setMethod_fields s m
    exact ⟨c, ⟨rfl, rfl⟩, h.congr a1 a2 a3 a4 a5 a6 a7 a8⟩
  | setMiddle b =>
    obtain ⟨a1, a2, a3, a4, a5, a6, a7, a8, -, -, -⟩ := applyMiddle_fields { s with emulWant := b }
    exact ⟨c, ⟨rfl, rfl⟩, h.congr a1 a2 a3 a4 a5 a6 a7 a8⟩
  | setLeft b =>
    obtain ⟨a1, a2, a3, a4, a5, a6, a7, a8, -, -⟩ := applyLeft_fields { s with leftWant := b }
    exact ⟨c, ⟨rfl, rfl⟩, h.congr a1 a2 a3 a4 a5 a6 a7 a8⟩
  | applyLeft =>
    obtain ⟨a1, a2, a3, a4, a5, a6, a7, a8, -, -⟩ := applyLeft_fields s
    exact ⟨c, ⟨rfl, rfl⟩, h.congr a1 a2 a3 a4 a5 a6 a7 a8⟩
  | suspend t vs =>
    simp only [step, Allowed, Env.follow, h.susp]
    cases hsu : e.suspended with
    | true => exact ⟨c, by simp, by simpa using h⟩
    | false =>
      obtain ⟨h1, h2⟩ := clear_click h t vs
      simp only [Bool.false_eq_true, if_false]
      refine ⟨.up, ?_⟩
      generalize hr : clearState s t vs = r at h1 h2
      obtain ⟨s1, ns⟩ := r
      simp only at h1 h2 ⊢
      split
      · refine ⟨h1, ?_⟩
        obtain ⟨a1, a2, a3, a4, a5, a6, a7, -, -, -⟩ := initTop_fields { s1 with suspended := true } true
        exact ⟨a1.trans h2.down, a2.trans h2.old, a3, fun _ _ => rfl, by
          have := h2.stage
          simp only at this ⊢
          unfold Stage; rw [a2, a4, a5]; exact this⟩
      · obtain ⟨h3, h4⟩ := clear_click h2 t (vs.map fun v => { v with ts := .none, dirty := false })
        rw [frame_up h3, List.append_nil]
        refine ⟨h1, h4.down, h4.old, rfl, fun _ _ => rfl, ?_⟩
        have := h4.stage
        exact this
  | resume t vs =>
    simp only [step, Allowed, Env.follow, h.susp]
    cases hsu : e.suspended with
    | false => exact ⟨c, by simp, by simpa using h⟩
    | true =>
      simp only [Bool.not_true, Bool.false_eq_true, if_false, true_and]
      cases ht : s.hasTop with
      | true =>
        obtain ⟨h1, h2⟩ := clear_click h t vs
        generalize hr : clearState s t vs = r at h1 h2
        obtain ⟨s1, ns⟩ := r
        simp only [if_true] at h1 h2 ⊢
        refine ⟨.up, h1, ?_⟩
        obtain ⟨a1, a2, a3, a4, a5, a6, a7, -, -, -⟩ := initTop_fields s1 false
        exact ⟨a1.trans h2.down, a2.trans h2.old, rfl, fun _ _ => rfl,
          a2.trans h2.stage.1, a4.trans h2.stage.2.1, a5.trans h2.stage.2.2⟩
      | false =>
        simp only [Bool.false_eq_true, if_false]
        have hk := h.shut (h.susp.trans hsu) ht
        subst hk
        exact ⟨.up, ⟨trivial, rfl⟩, h.down, h.old, rfl, fun _ _ => rfl, h.stage⟩
  | addTrackpoint =>
    simp only [step, Allowed, Env.follow]
    split
    · exact ⟨c, ⟨rfl, rfl⟩, h⟩
    · next htp =>
      refine ⟨c, ⟨rfl, rfl⟩, h.down, h.old, h.susp, h.shut, ?_⟩
      have hst := h.stage
      cases c with
      | up => exact hst
      | waiting => exact hst
      | held d b =>
        obtain ⟨k1, k2, k3, k4, k5⟩ := hst
        refine ⟨k1, k2, k3, k4, ?_⟩
        cases d with
        | trackpoint => exact absurd k5.1 htp
        | touchpad =>
          refine ⟨by simp, ?_⟩
          rintro ⟨-, hsu⟩
          exact hc ⟨h.susp.symm.trans hsu, h.old.symm.trans k1⟩
      | over =>
        obtain ⟨k1, k2, k3⟩ := hst
        refine ⟨k1, k2, ?_⟩
        rcases k3 with k3 | k3
        · exact Or.inl k3
        · exact absurd k3.1 htp
  | removeTrackpoint =>
    simp only [step, Allowed, Env.follow]
    have hst := h.stage
    cases htp : s.trackpoint with
    | false =>
      simp only [Bool.not_false, if_true, true_and]
      refine ⟨c, ?_, h⟩
      cases c with
      | held d b =>
        cases d with
        | trackpoint => exact absurd hst.2.2.2.2.1 (by simp [htp])
        | touchpad => rfl
      | _ => rfl
    | true =>
      simp only [Bool.not_true, Bool.false_eq_true, if_false]
      split
      · next ha =>
        cases c with
        | up => exact absurd hst.2.2 ha.1
        | waiting => exact absurd hst.2.2 ha.1
        | held d b =>
          cases d with
          | trackpoint =>
            have hsh : s.suspended = true → s.hasTop = false → Click.over = .up := fun k1 k2 => nomatch h.shut k1 k2
            exact ⟨.over, ⟨rfl, rfl⟩, h.down, h.old, h.susp, hsh, hst.1, hst.2.1, Or.inl rfl⟩
          | touchpad => exact absurd ⟨htp, ha.2⟩ hst.2.2.2.2.1
        | over =>
          have hsh := h.shut
          exact ⟨.over, ⟨rfl, rfl⟩, h.down, h.old, h.susp, hsh, hst.1, hst.2.1, Or.inl rfl⟩
      · next ha =>
        cases c with
        | up => exact ⟨.up, ⟨rfl, rfl⟩, h.down, h.old, h.susp, h.shut, hst⟩
        | waiting => exact ⟨.waiting, ⟨rfl, rfl⟩, h.down, h.old, h.susp, h.shut, hst⟩
        | held d b =>
          obtain ⟨k1, k2, k3, k4, k5⟩ := hst
          cases d with
          | trackpoint => exact absurd ⟨by rw [k3]; exact k4, k5.2⟩ ha
          | touchpad => exact ⟨.held .touchpad b, ⟨rfl, rfl⟩, h.down, h.old, h.susp, h.shut, k1, k2, k3, k4, by simp, by simp⟩
        | over =>
          obtain ⟨k1, k2, k3⟩ := hst
          refine ⟨.over, ⟨rfl, rfl⟩, h.down, h.old, h.susp, h.shut, k1, k2, ?_⟩
          rcases k3 with k3 | k3
          · exact Or.inl k3
          · exact absurd ⟨h.susp.symm.trans k3.2.1, h.old.symm.trans k1⟩ hc

end Libinput.SoftButtons
