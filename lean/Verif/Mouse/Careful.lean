import Verif.Mouse.History
set_option linter.unusedSimpArgs false
set_option linter.unusedVariables false
/-
Careful histories: one operation, then all of them.
-/
namespace Libinput.Mouse
open Libinput.Spec Libinput.Alt Libinput.Mouse.Spec
open Libinput.Buttons (Call Ev Stop Counts exec)
open Libinput.Debounce (DInv Fired)

variable {R : Type}

/-- The feature the mode excludes is not used by this operation. -/
def ModeOp (m : Mode) : Op R → Prop
  | .setScrollLock on => m = .noLock → on = false
  | .setMiddle on => m = .noEmulation → on = false
  | .frame _ keys _ _ => m = .noMiddle → ∀ e ∈ keys, e.code ≠ 0x112
  | _ => True

/-- The invariant at operation boundaries. -/
structure I (m : Mode) (has : Nat → Bool) (d : Dev R) (w : World) (L : Nat → Bool) : Prop where
  j : J m d w L
  mid : MidOk m w.hand.phys
  set : w.settled = true → ∀ c, L c = w.hand.phys c
  has : d.has = has

theorem applyKeys_mid {p : Nat → Bool} {ks : List (Nat × Bool)} (h : ∀ e ∈ ks, e.1 ≠ 0x112)
    (hp : p BTN_MIDDLE = false) : Debounce.Spec.applyKeys p ks BTN_MIDDLE = false := by
  by_cases hne : Debounce.Spec.applyKeys p ks BTN_MIDDLE = p BTN_MIDDLE
  · rw [hne]; exact hp
  · obtain ⟨h1, _⟩ := Debounce.applyKeys_ne _ _ _ hne
    obtain ⟨e, he, h2⟩ := List.mem_map.mp h1
    exact absurd h2 (h e he)

/-- Releasing keys, with no button held. -/
theorem release_keys (A : Scroll.Arith R) (t : Nat) (codes : List Nat) : ∀ (d : Dev R),
    (∀ c, d.cnt c = 0 ∨ (getKeyType c = .key ∧ d.cnt c = 1)) →
    ∃ out, releasePressed A t codes d = ⟨out, .ok { d with cnt := fun c => if c ∈ codes then 0 else d.cnt c }⟩ := by
  induction codes with
  | nil => intro d _; exact ⟨[], by simp [releasePressed, ret]⟩
  | cons c codes ih =>
    intro d h
    by_cases hz : d.cnt c = 0
    · obtain ⟨out, ho⟩ := ih d h
      refine ⟨out, ?_⟩
      unfold releasePressed
      rw [if_pos hz, ho]
      congr 2
      congr 1
      funext x
      by_cases hx : x = c
      · subst hx; simp [hz]
      · simp [hx]
    · have hk : getKeyType c = .key ∧ d.cnt c = 1 := by
        rcases h c with h | h
        · exact absurd h hz
        · exact h
      obtain ⟨⟨cnt', evs⟩, hr⟩ := (Buttons.post_ok_iff d.cnt t c false).mpr ⟨key_lt hk.1, by simp [hk.2]⟩
      obtain ⟨_, _, h3⟩ := post_pointwise hr
      simp only [Bool.false_eq_true, if_false, hk.2] at h3
      have hd1 : ∀ x, ({ d with cnt := cnt' } : Dev R).cnt x = 0 ∨
          (getKeyType x = .key ∧ ({ d with cnt := cnt' } : Dev R).cnt x = 1) := by
        intro x
        simp only [h3]
        split
        · exact Or.inl rfl
        · exact h x
      obtain ⟨out, ho⟩ := ih { d with cnt := cnt' } hd1
      refine ⟨evs.map .key ++ out, ?_⟩
      unfold releasePressed
      rw [if_neg hz]
      simp only [hk.1]
      unfold notifyKey
      rw [hr]
      simp only [Res.bind]
      have hzc : cnt' c = 0 := by rw [h3]; simp
      have heq : (fun x => if x ∈ codes then 0 else cnt' x) = fun x => if x ∈ c :: codes then 0 else d.cnt x := by
        funext x
        by_cases hx : x = c
        · subst hx; simp [hzc]
        · simp [hx, h3]
      rw [if_neg (by simp [hzc]), ho]
      simp only
      rw [heq]

theorem core_zero {m : Mode} {d : Dev R} (h : Held m d (fun _ => false)) :
    ∀ c, d.cnt c = if getKeyType c = .key then (d.keyHw c).toNat else 0 := by
  obtain ⟨mw, me, vc, hk⟩ := h
  have hz := mb_rest hk.mb (fun b => rfl)
  subst hz
  intro c
  rw [hk.core.cnt c]
  split
  · rfl
  · simp

theorem suspend_rest (A : Scroll.Arith R) (t : Nat) {m : Mode} {d : Dev R} (h : Held m d (fun _ => false)) :
    ∃ out cnt', suspend A d t = ⟨out, .ok { d with cnt := cnt', keyHw := fun _ => false, deb := { d.deb with hw := fun _ => false } }⟩ ∧
      Held m { d with cnt := cnt', keyHw := fun _ => false, deb := { d.deb with hw := fun _ => false } } (fun _ => false) := by
  have hcnt := core_zero h
  unfold suspend
  have hmem : ∀ c, getKeyType c = .key → c ∈ List.range Buttons.KEY_CNT := fun c hc => List.mem_range.mpr (key_lt hc)
  generalize List.range Buttons.KEY_CNT = codes at *
  obtain ⟨out, ho⟩ := release_keys A t codes d (by
    intro c
    rw [hcnt c]
    by_cases hk : getKeyType c = .key
    · cases d.keyHw c <;> simp [hk]
    · simp [hk])
  refine ⟨out ++ [], fun c => if c ∈ codes then 0 else d.cnt c, ?_, ?_⟩
  · rw [ho]
    simp only [Res.bind, ret]
  · obtain ⟨mw, me, vc, hk⟩ := h
    have hz := mb_rest hk.mb (fun b => rfl)
    subst hz
    refine ⟨mw, me, _, ⟨?_, hk.core.lock⟩, hk.mb, hk.rng, ?_, hk.inh, hk.sclock⟩
    · intro c
      simp only
      by_cases hc : c ∈ codes
      · simp [hc]
      · have hnk : getKeyType c ≠ .key := fun hh => hc (hmem c hh)
        simp only [hc, if_false, hcnt c, hnk, ite_self]
    · have := hk.mode
      cases m <;> exact this

theorem mb_fire_shape {s : MiddleButton.State} {w : MiddleButton.Spec.World} {cnt : Counts} (now : Nat)
    (hi : MiddleButton.Inv s w cnt) :
    ((MiddleButton.fire s now).2 = [] ∨ ∃ c, (MiddleButton.fire s now).2 = [c] ∧ c.pressed = true ∧ cnt c.code = 0 ∧
      getKeyType c.code = .button) ∧
      (MiddleButton.fire s now).1.enabled = s.enabled ∧ (MiddleButton.fire s now).1.wantEnabled = s.wantEnabled := by
  have ht := hi.tmr
  unfold MiddleButton.fire
  cases htm : s.timer with
  | none => exact ⟨Or.inl rfl, rfl, rfl⟩
  | some e =>
    simp only
    split
    · have hst : s.st = .leftDown ∨ s.st = .rightDown := by
        unfold MiddleButton.TimerOk at ht
        cases h : s.st <;> rw [h] at ht <;> simp_all
      have he : w.eff = true := by
        cases h : w.eff with
        | true => rfl
        | false =>
          obtain ⟨_, _, h2, _⟩ := hi.off h
          rcases hst with h | h <;> rw [h2] at h <;> cases h
      obtain ⟨_, _, hcnt, _⟩ := hi.on he
      rcases hst with h | h
      · refine ⟨Or.inr ⟨⟨s.firstTime, BTN_LEFT, true⟩, ?_, rfl, ?_, rfl⟩, ?_, ?_⟩
        · simp [MiddleButton.handle, h, MiddleButton.ldownH]
        · rw [hcnt, h]; simp [MiddleButton.expected, MiddleButton.passL]
        · simp [MiddleButton.handle, h, MiddleButton.ldownH, MiddleButton.setSt]
        · simp [MiddleButton.handle, h, MiddleButton.ldownH, MiddleButton.setSt]
      · refine ⟨Or.inr ⟨⟨s.firstTime, BTN_RIGHT, true⟩, ?_, rfl, ?_, rfl⟩, ?_, ?_⟩
        · simp [MiddleButton.handle, h, MiddleButton.rdownH]
        · rw [hcnt, h]; simp [MiddleButton.expected, MiddleButton.passR, BTN_LEFT, BTN_RIGHT]
        · simp [MiddleButton.handle, h, MiddleButton.rdownH, MiddleButton.setSt]
        · simp [MiddleButton.handle, h, MiddleButton.rdownH, MiddleButton.setSt]
    · exact ⟨Or.inl rfl, rfl, rfl⟩

theorem held_middleTimer (A : Scroll.Arith R) {m : Mode} {d : Dev R} {L : Nat → Bool} (now : Nat) (h : Held m d L) :
    ∃ out d1, middleTimer A d now = ⟨out, .ok d1⟩ ∧ Held m d1 L ∧ SameCfg d d1 := by
  obtain ⟨mw, me, vc, hk⟩ := h
  obtain ⟨vc', he, hi'⟩ := MiddleButton.fire_inv now hk.mb
  obtain ⟨hshape, hen, hwa⟩ := mb_fire_shape now hk.mb
  unfold middleTimer
  generalize hr : MiddleButton.fire d.mb now = r at *
  obtain ⟨mb1, cs⟩ := r
  simp only at he hi' hshape hen hwa ⊢
  have hcore0 : Core { d with mb := mb1 } vc := ⟨hk.core.cnt, hk.core.lock⟩
  have hfin : ∀ d1 : Dev R, Core d1 vc' → SameCfg { d with mb := mb1 } d1 → d1.mb = mb1 → d1.inhibited = d.inhibited →
      (d.sc.lock = .disabled → d1.sc.lock = .disabled) → Held m d1 L := by
    intro d1 h1 h2 h3 h4 h5
    refine ⟨mw, me, vc', h1, ?_, hk.rng, ?_, h4.trans hk.inh, ?_⟩
    · rw [h3, h2.lh]; exact hi'
    · have := hk.mode
      cases m with
      | noLock => exact ⟨h5 this.1, by rw [h2.scWant]; exact this.2⟩
      | noEmulation => exact ⟨by rw [h3, hen]; exact this.1, by rw [h3, hwa]; exact this.2⟩
      | noMiddle => exact this
    · rw [h2.scLock]; exact hk.sclock
  rcases hshape with hcs | ⟨c, hcs, hp, hc0, hcb⟩
  · subst hcs
    simp only [exec, Option.some.injEq] at he
    subst he
    exact ⟨[], _, rfl, hfin _ hcore0 (SameCfg.refl _) rfl rfl (fun h => h), ⟨rfl, rfl, rfl, rfl, rfl, rfl, rfl, rfl, rfl⟩⟩
  · subst hcs
    obtain ⟨vc1, evs, hpost, he2⟩ := exec_cons_split he
    simp only [exec, Option.some.injEq] at he2
    subst he2
    obtain ⟨out, d1, d2, hr2, hc1, hs1, hm1, hi1, hk1, h2⟩ := notify_outcome A { d with mb := mb1 } vc vc1 c evs hcore0 hpost hcb
      (by intro _ _ _; rw [hp]; exact hc0)
    rw [hp] at h2
    have hd2 : d2 = d1 := by
      rcases h2 with h | ⟨h, _⟩
      · exact h
      · cases h
    subst hd2
    refine ⟨out, d2, by rw [each_one, hr2], hfin d2 hc1 hs1 hm1 hi1 hk1, ?_⟩
    have h00 : SameCfg d { d with mb := mb1 } := ⟨rfl, rfl, rfl, rfl, rfl, rfl, rfl, rfl, rfl⟩
    exact h00.trans hs1

theorem held_setMiddle {m : Mode} {d : Dev R} {L : Nat → Bool} (on : Bool) (h : Held m d L)
    (hon : on = true → (∀ c, L c = false)) (hm : m = .noEmulation → on = false) :
    Held m { d with mb := MiddleButton.setConfig d.mb on } L := by
  obtain ⟨mw, me, vc, hk⟩ := h
  have hi := MiddleButton.set_inv on hk.mb (fun ho => Or.inr (fun b => hon ho _))
  refine ⟨on, _, vc, ⟨hk.core.cnt, hk.core.lock⟩, hi, hk.rng, ?_, hk.inh, hk.sclock⟩
  have := hk.mode
  cases m with
  | noLock => exact this
  | noEmulation =>
    have := hm rfl
    subst this
    have hmode := hk.mode
    simp only [ModeOk, MiddleButton.setConfig, MiddleButton.applyConfig] at hmode ⊢
    simp [hmode.1]
  | noMiddle => exact this

theorem held_keys {m : Mode} {d : Dev R} {L : Nat → Bool} (t : Nat) (keys : List KeyEv) (h : Held m d L) :
    ∃ out cnt', each (processKey t) keys d = ⟨out, .ok { d with
        deb := (buttonKeys keys).foldl (fun d k => Debounce.processKey d k.1 k.2) d.deb,
        keyHw := applyKeyboard d.keyHw keys, cnt := cnt' }⟩ ∧
      Held m { d with
        deb := (buttonKeys keys).foldl (fun d k => Debounce.processKey d k.1 k.2) d.deb,
        keyHw := applyKeyboard d.keyHw keys, cnt := cnt' } L := by
  obtain ⟨mw, me, vc, hk⟩ := h
  obtain ⟨out, cnt', h1, h2⟩ := keys_stage t keys hk.core
  refine ⟨out, cnt', h1, mw, me, vc, h2, hk.mb, hk.rng, ?_, hk.inh, hk.sclock⟩
  have := hk.mode
  cases m <;> exact this

theorem frame_step (A : Scroll.Arith R) {m : Mode} {has : Nat → Bool} {d : Dev R} {w : World} {L : Nat → Bool}
    (t : Nat) (keys : List KeyEv) (wheel : Int × Int) (rel : Option (R × R)) (h : I m has d w L)
    (hc : CarefulOp has w (.frame t keys wheel rel)) (hm : ModeOp m (.frame t keys wheel rel)) :
    ∃ out d' L', step A d (.frame t keys wheel rel) = ⟨out, .ok d'⟩ ∧
      I m has d' (stepWorld w (.frame t keys wheel rel)) L' ∧
      (d'.lh = d.lh ∨ NoneHeld w ∨ NoneHeld (stepWorld w (.frame t keys wheel rel))) := by
  have hmid' : MidOk m (Debounce.Spec.applyKeys w.hand.phys (buttonKeys keys)) := by
    intro hh
    refine applyKeys_mid ?_ (h.mid hh)
    intro e he
    unfold buttonKeys at he
    obtain ⟨x, hx, rfl⟩ := List.mem_map.mp he
    exact hm hh x (List.mem_filter.mp hx).1
  obtain ⟨o1, d1, L1, e1, j1, f1, s1, l1, a1⟩ := fire_stage A t h.j h.mid
  obtain ⟨o2, cnt', e2, h2⟩ := held_keys t keys j1.held
  generalize hd2 : ({ d1 with
        deb := (buttonKeys keys).foldl (fun d k => Debounce.processKey d k.1 k.2) d1.deb,
        keyHw := applyKeyboard d1.keyHw keys, cnt := cnt' } : Dev R) = d2 at e2 h2
  obtain ⟨o3, sc, e3, c1, c2, c3⟩ := motion_stage A d2 t rel
  have h3 : Held m { d2 with sc := sc } L1 :=
    held_upd h2 rfl rfl rfl rfl rfl ⟨c1, c2, c3⟩ rfl (by intro hm; exact held_want (d := d2) h2 hm)
  obtain ⟨o4, e4⟩ := wheel_stage { d2 with sc := sc } t wheel.1 wheel.2
  obtain ⟨o5, d5, L5, e5, j5, k5, l5, a5⟩ := sync_stage A (keys := keys) j1 f1 (d3 := { d2 with sc := sc }) (by
      subst hd2
      exact ⟨rfl, by simp only [j1.key], rfl, rfl, rfl, c1, c2, rfl⟩) (by subst hd2; rfl) h3 wheel rel
      (by rw [a1, h.has]; exact hc) (fun hs => s1 (Or.inl (h.set hs))) h.mid hmid'
  refine ⟨o1 ++ (o2 ++ (o3 ++ (o4 ++ o5))), d5, L5, ?_, ⟨j5, hmid', ?_, ?_⟩, ?_⟩
  · simp only [step, e1, Res.bind, e2, e3, e4, e5]
  · intro hs
    simp only [stepWorld, Bool.and_eq_true] at hs
    have he := hs.2
    rw [k5 he]
    have : buttonKeys keys = [] := by simpa using he
    simp only [stepWorld, this, Debounce.Spec.stepWorld, Debounce.Spec.applyKeys, List.foldl]
    exact s1 (Or.inl (h.set hs.1))
  · rw [a5, a1, h.has]
  · rcases l5 with l5 | l5
    · rcases l1 with l1 | l1
      · exact Or.inl (l5.trans l1)
      · exact Or.inr (Or.inl l1)
    · exact Or.inr (Or.inr l5)

theorem changeScroll_down {d : Dev R} (h : anyButtonDown d = true) : changeScroll d = d := by
  unfold changeScroll
  rw [if_pos h, ite_self]

theorem changeScroll_free {d : Dev R} (h : ¬ anyButtonDown d = true) : ScrollInForce (changeScroll d) := by
  unfold changeScroll
  by_cases hx : d.scWant.onButton = d.sc.onButton ∧ d.scWant.button = d.sc.button ∧ d.scWant.lock = d.scLock
  · rw [if_pos hx]; exact hx
  · rw [if_neg hx, if_neg h]
    cases hcl : d.scWant.lock <;> simp [ScrollInForce, ButtonScroll.setLockEnabled, hcl]

theorem changeLeftHanded_down {d : Dev R} (h : anyButtonDown d = true) : changeLeftHanded d = d := by
  unfold changeLeftHanded
  rw [if_pos h, ite_self]

theorem changeLeftHanded_free {d : Dev R} (h : ¬ anyButtonDown d = true) :
    (changeLeftHanded d).lhWant = (changeLeftHanded d).lh := by
  unfold changeLeftHanded
  by_cases hx : d.lhWant = d.lh
  · rw [if_pos hx]; exact hx
  · rw [if_neg hx, if_neg h]

/-- A scroll setting changes. -/
theorem scroll_step {m : Mode} {has : Nat → Bool} {d : Dev R} {w : World} {L : Nat → Bool} (cfg : ScrollCfg)
    (h : I m has d w L) (hc : NoneHeld w → w.settled = true) (hl : m = .noLock → cfg.lock = false) :
    I m has (changeScroll { d with scWant := cfg }) { w with lateScroll := anyHeld w.hand.phys } L ∧
      (changeScroll { d with scWant := cfg }).lh = d.lh := by
  have hf := changeScroll_fields { d with scWant := cfg }
  have hdeb : (changeScroll { d with scWant := cfg }).deb = d.deb := changeScroll_deb _
  refine ⟨⟨⟨by rw [hdeb]; exact h.j.deb, ?_, ?_, hf.2.1.trans h.j.key, ?_, ?_⟩, h.mid, h.set, hf.1.trans h.has⟩, hf.2.2.2.1⟩
  · rcases none_or_some w.hand.phys with hnone | hsome
    · have hL : L = fun _ => false := funext fun c => (h.set (hc hnone) c).trans (hnone c)
      subst hL
      exact held_changeScroll (held_upd (d := d) h.j.held rfl rfl rfl rfl rfl ⟨rfl, rfl, rfl⟩ rfl hl) hl
    · have hany : anyButtonDown { d with scWant := cfg } = true :=
        (any_iff (d := { d with scWant := cfg }) h.j.deb.hw h.j.phys).mpr hsome
      rw [changeScroll_down hany]
      exact held_upd (d := d) h.j.held rfl rfl rfl rfl rfl ⟨rfl, rfl, rfl⟩ rfl hl
  · intro c hh; rw [hf.1]; exact h.j.phys c hh
  · rw [hf.2.2.1, hf.2.2.2.1]; exact h.j.left
  · intro hn
    rw [anyHeld_iff (fun c hh => (h.j.phys c hh).1)]
    rcases none_or_some w.hand.phys with hnone | hsome
    · exfalso
      apply hn
      have hany : ¬ anyButtonDown { d with scWant := cfg } = true := by
        rw [any_iff (d := { d with scWant := cfg }) h.j.deb.hw h.j.phys]
        rintro ⟨c, hcc⟩
        rw [hnone c] at hcc; cases hcc
      exact changeScroll_free hany
    · exact hsome

theorem left_step {m : Mode} {has : Nat → Bool} {d : Dev R} {w : World} {L : Nat → Bool} (on : Bool)
    (h : I m has d w L) (hc : NoneHeld w → w.settled = true) :
    I m has (changeLeftHanded { d with lhWant := on }) { w with lateLeft := anyHeld w.hand.phys } L ∧
      ((changeLeftHanded { d with lhWant := on }).lh = d.lh ∨ NoneHeld w) := by
  have hf := changeLeftHanded_fields { d with lhWant := on }
  have hdeb : (changeLeftHanded { d with lhWant := on }).deb = d.deb := changeLeftHanded_deb _
  have hw0 : Held m { d with lhWant := on } L :=
    held_upd (d := d) h.j.held rfl rfl rfl rfl rfl ⟨rfl, rfl, rfl⟩ rfl (by intro hm; exact held_want (d := d) h.j.held hm)
  refine ⟨⟨⟨by rw [hdeb]; exact h.j.deb, ?_, ?_, hf.2.1.trans h.j.key, ?_, ?_⟩, h.mid, h.set, hf.1.trans h.has⟩, ?_⟩
  · rcases none_or_some w.hand.phys with hnone | hsome
    · have hL : L = fun _ => false := funext fun c => (h.set (hc hnone) c).trans (hnone c)
      subst hL
      exact held_changeLeftHanded hw0
    · have hany : anyButtonDown { d with lhWant := on } = true :=
        (any_iff (d := { d with lhWant := on }) h.j.deb.hw h.j.phys).mpr hsome
      rw [changeLeftHanded_down hany]
      exact hw0
  · intro c hh; rw [hf.1]; exact h.j.phys c hh
  · intro hn
    rw [anyHeld_iff (fun c hh => (h.j.phys c hh).1)]
    rcases none_or_some w.hand.phys with hnone | hsome
    · exfalso
      apply hn
      have hany : ¬ anyButtonDown { d with lhWant := on } = true := by
        rw [any_iff (d := { d with lhWant := on }) h.j.deb.hw h.j.phys]
        rintro ⟨c, hcc⟩
        rw [hnone c] at hcc; cases hcc
      exact changeLeftHanded_free hany
    · exact hsome
  · unfold ScrollInForce
    rw [hf.2.2.2.1, hf.2.2.2.2.1, hf.2.2.2.2.2.1]; exact h.j.scroll
  · rcases none_or_some w.hand.phys with hnone | hsome
    · exact Or.inr hnone
    · have hany : anyButtonDown { d with lhWant := on } = true :=
        (any_iff (d := { d with lhWant := on }) h.j.deb.hw h.j.phys).mpr hsome
      refine Or.inl ?_
      rw [changeLeftHanded_down hany]

/-- One careful operation succeeds. -/
theorem step_history (A : Scroll.Arith R) {m : Mode} {has : Nat → Bool} {d : Dev R} {w : World} {L : Nat → Bool}
    (op : Op R) (h : I m has d w L) (hc : CarefulOp has w op) (hm : ModeOp m op) :
    ∃ out d' L', step A d op = ⟨out, .ok d'⟩ ∧ I m has d' (stepWorld w op) L' ∧
      (d'.lh = d.lh ∨ NoneHeld w ∨ NoneHeld (stepWorld w op)) ∧
      (L' = L ∨ (∃ t keys wheel rel, op = .frame t keys wheel rel) ∨ ∃ now, op = .debounceTimers now) := by
  cases op with
  | frame t keys wheel rel =>
    obtain ⟨out, d', L', h1, h2, h3⟩ := frame_step A t keys wheel rel h hc hm
    exact ⟨out, d', L', h1, h2, h3, Or.inr (Or.inl ⟨t, keys, wheel, rel, rfl⟩)⟩
  | debounceTimers now =>
    obtain ⟨o1, d1, L1, e1, j1, f1, s1, l1, a1⟩ := fire_stage A now h.j h.mid
    refine ⟨o1, d1, L1, e1, ⟨⟨j1.deb, j1.held, j1.phys, j1.key, j1.left, j1.scroll⟩, h.mid, ?_, a1.trans h.has⟩, ?_, Or.inr (Or.inr ⟨now, rfl⟩)⟩
    · intro hs
      simp only [stepWorld, Bool.or_eq_true, decide_eq_true_eq] at hs
      rcases hs with hs | hs
      · exact s1 (Or.inl (h.set hs))
      · exact s1 (Or.inr hs)
    · rcases l1 with l1 | l1
      · exact Or.inl l1
      · exact Or.inr (Or.inl l1)
  | middleTimer now =>
    obtain ⟨out, d1, e, h1, hs⟩ := held_middleTimer A now h.j.held
    refine ⟨out, d1, L, e, ⟨⟨by rw [hs.deb]; exact h.j.deb, h1, ?_, hs.keyHw.trans h.j.key, ?_, ?_⟩, h.mid, h.set, hs.has.trans h.has⟩, Or.inl hs.lh, Or.inl rfl⟩
    · intro c hh; rw [hs.has]; exact h.j.phys c hh
    · rw [hs.lhWant, hs.lh]; exact h.j.left
    · unfold ScrollInForce; rw [hs.scWant, hs.on, hs.btn, hs.scLock]; exact h.j.scroll
  | scrollTimer now =>
    have hf : (ButtonScroll.fire d.sc now).onButton = d.sc.onButton ∧ (ButtonScroll.fire d.sc now).button = d.sc.button ∧
        (ButtonScroll.fire d.sc now).lock = d.sc.lock := by
      unfold ButtonScroll.fire; split <;> (try split) <;> (try split) <;> exact ⟨rfl, rfl, rfl⟩
    refine ⟨[], _, L, rfl, ⟨⟨h.j.deb, ?_, h.j.phys, h.j.key, h.j.left, ?_⟩, h.mid, h.set, h.has⟩, Or.inl rfl, Or.inl rfl⟩
    · exact held_upd (d := d) h.j.held rfl rfl rfl rfl rfl hf rfl (by intro hm; exact held_want (d := d) h.j.held hm)
    · have := h.j.scroll
      unfold ScrollInForce at this ⊢
      simp only [hf.1, hf.2.1]
      exact this
  | setLeftHanded on =>
    obtain ⟨h1, h2⟩ := left_step on h hc
    refine ⟨[], _, L, rfl, h1, ?_, Or.inl rfl⟩
    rcases h2 with h2 | h2
    · exact Or.inl h2
    · exact Or.inr (Or.inl h2)
  | setMiddle on =>
    refine ⟨[], _, L, rfl, ⟨⟨h.j.deb, ?_, h.j.phys, h.j.key, h.j.left, h.j.scroll⟩, h.mid, h.set, h.has⟩, Or.inl rfl, Or.inl rfl⟩
    refine held_setMiddle on h.j.held ?_ hm
    intro ho c
    obtain ⟨h1, h2⟩ := hc ho
    rw [h.set h2]; exact h1 c
  | setScrollMethod on =>
    obtain ⟨h1, h2⟩ := scroll_step { d.scWant with onButton := on } h hc (by intro hm; exact held_want (d := d) h.j.held hm)
    exact ⟨[], _, L, rfl, h1, Or.inl h2, Or.inl rfl⟩
  | setScrollButton b =>
    obtain ⟨h1, h2⟩ := scroll_step { d.scWant with button := b } h hc (by intro hm; exact held_want (d := d) h.j.held hm)
    exact ⟨[], _, L, rfl, h1, Or.inl h2, Or.inl rfl⟩
  | setScrollLock on =>
    obtain ⟨h1, h2⟩ := scroll_step { d.scWant with lock := on } h hc hm
    exact ⟨[], _, L, rfl, h1, Or.inl h2, Or.inl rfl⟩
  | suspend t =>
    obtain ⟨hn, hs⟩ := hc
    have hL : L = fun _ => false := funext fun c => (h.set hs c).trans (hn c)
    subst hL
    obtain ⟨out, cnt', e, h1⟩ := suspend_rest A t h.j.held
    have hp : w.hand.phys = fun _ => false := funext hn
    have hd := h.j.deb
    refine ⟨out, _, fun _ => false, e, ⟨⟨⟨?_, rfl, ?_, hd.pend⟩, h1, ?_, rfl, h.j.left, h.j.scroll⟩, ?_, ?_, h.has⟩, Or.inl rfl, Or.inl rfl⟩
    · have := hd.inv
      rw [hp] at this
      exact this
    · exact hd.last.trans hp
    · intro c hh; simp [stepWorld] at hh
    · intro _; rfl
    · intro _ _; rfl

/-- All of a careful history succeeds. -/
theorem run_history (A : Scroll.Arith R) {m : Mode} {has : Nat → Bool} (ops : List (Op R)) :
    ∀ {d : Dev R} {w : World} {L : Nat → Bool}, I m has d w L → Careful has w ops → (∀ op ∈ ops, ModeOp m op) →
    ∃ out d' L', run A d ops = ⟨out, .ok d'⟩ ∧ I m has d' (ops.foldl stepWorld w) L' := by
  induction ops with
  | nil => intro d w L h _ _; exact ⟨[], d, L, rfl, h⟩
  | cons op ops ih =>
    intro d w L h hc hm
    obtain ⟨out, d1, L1, e1, h1, _, _⟩ := step_history A op h hc.1 (hm op (by simp))
    obtain ⟨out2, d2, L2, e2, h2⟩ := ih h1 hc.2 (fun o ho => hm o (by simp [ho]))
    unfold run at e2 ⊢
    exact ⟨out ++ out2, d2, L2, by simp only [each, e1, Res.bind, e2], h2⟩

theorem init_history (A : Scroll.Arith R) (m : Mode) (has : Nat → Bool) (debounce middle onButton : Bool) (button : Nat)
    (hm : m = .noEmulation → middle = false) :
    I m has (init A has debounce middle onButton button) start (fun _ => false) := by
  refine ⟨⟨Debounce.init_inv debounce, ?_, ?_, rfl, ?_, ?_⟩, fun _ => rfl, fun _ _ => rfl, rfl⟩
  · refine ⟨_, _, _, ⟨?_, ?_⟩, MiddleButton.inv_init middle, by simp, ?_, rfl, Or.inl rfl⟩
    · intro c
      show 0 = _
      by_cases hk : getKeyType c = .key
      · rw [if_pos hk]; rfl
      · rw [if_neg hk, ite_self]
    · intro _; simp [init, ButtonScroll.init, LockOk]
    · cases m with
      | noLock => exact ⟨rfl, rfl⟩
      | noEmulation => exact ⟨hm rfl, hm rfl⟩
      | noMiddle => rfl
  · intro c h; simp [start, Debounce.Spec.start] at h
  · intro h; exact absurd rfl h
  · intro h; exact absurd ⟨rfl, rfl, rfl⟩ h

/-- One of the modes fits. -/
theorem mode_of {middle : Bool} {ops : List (Op R)} (h : NotAllThree middle ops) :
    ∃ m : Mode, (m = .noEmulation → middle = false) ∧ ∀ op ∈ ops, ModeOp m op := by
  rcases h with h | ⟨h1, h2⟩ | h
  · refine ⟨.noLock, by simp, ?_⟩
    intro op hop
    cases op <;> simp only [ModeOp, forall_const] <;> try (intro hx; cases hx)
    rename_i on
    cases on with
    | false => rfl
    | true => exact absurd hop h
  · refine ⟨.noEmulation, fun _ => h1, ?_⟩
    intro op hop
    cases op <;> simp only [ModeOp, forall_const] <;> try (intro hx; cases hx)
    rename_i on
    cases on with
    | false => rfl
    | true => exact absurd hop h2
  · refine ⟨.noMiddle, by simp, ?_⟩
    intro op hop
    cases op <;> simp only [ModeOp, forall_const] <;> try (intro hx; cases hx)
    exact h _ _ _ _ hop _

end Libinput.Mouse
