import Verif.Mouse.Notes
set_option linter.unusedSimpArgs false
set_option linter.unusedVariables false
/-
The invariant between debounced buttons and use counts, kept by debounced notifications.
-/
namespace Libinput.Mouse
open Libinput.Spec Libinput.Alt
open Libinput.Buttons (Call Ev Stop Counts exec)

variable {R : Type}

/-- Which of the three features that do not go together is never used. -/
inductive Mode where
  | noLock | noEmulation | noMiddle
deriving DecidableEq

def ModeOk (m : Mode) (d : Dev R) (L : Nat → Bool) : Prop :=
  match m with
  | .noLock => d.sc.lock = .disabled ∧ d.scWant.lock = false
  | .noEmulation => d.mb.enabled = false ∧ d.mb.wantEnabled = false
  | .noMiddle => L BTN_MIDDLE = false

theorem toLeftHanded_invol (lh : Bool) (c : Nat) : toLeftHanded lh (toLeftHanded lh c) = c := by
  cases lh
  · rfl
  · simp only [toLeftHanded, if_true, BTN_LEFT, BTN_RIGHT]
    by_cases h1 : c = 272
    · subst h1; rfl
    · by_cases h2 : c = 273
      · subst h2; rfl
      · simp [h1, h2]

theorem toLeftHanded_inj (lh : Bool) {a b : Nat} (h : toLeftHanded lh a = toLeftHanded lh b) : a = b := by
  rw [← toLeftHanded_invol lh a, h, toLeftHanded_invol]

theorem toLeftHanded_range (lh : Bool) {c : Nat} (h : 0x110 ≤ c ∧ c < 0x120) :
    0x110 ≤ toLeftHanded lh c ∧ toLeftHanded lh c < 0x120 := by
  unfold toLeftHanded
  split
  · split
    · exact ⟨by decide, by decide⟩
    · split
      · exact ⟨by decide, by decide⟩
      · exact h
  · exact h

theorem toLeftHanded_middle (lh : Bool) (c : Nat) : toLeftHanded lh c = BTN_MIDDLE ↔ c = BTN_MIDDLE := by
  cases lh
  · exact Iff.rfl
  · simp only [toLeftHanded, if_true]
    constructor
    · intro h
      split at h
      · exact absurd h (by decide)
      · split at h
        · exact absurd h (by decide)
        · exact h
    · rintro rfl; rfl

theorem mouse_button {c : Nat} (h : 0x110 ≤ c ∧ c < 0x120) : getKeyType c = .button := by
  unfold getKeyType
  rw [if_neg (by omega), if_neg (by omega), if_pos (by omega)]

/-- The device with the set `L` of debounced buttons. -/
structure K (m : Mode) (d : Dev R) (L : Nat → Bool) (mw me : Bool) (vc : Counts) : Prop where
  core : Core d vc
  mb : MiddleButton.Inv d.mb ⟨fun b => L (toLeftHanded d.lh b), mw, me⟩ vc
  rng : ∀ c, L c = true → 0x110 ≤ c ∧ c < 0x120
  mode : ModeOk m d L
  inh : d.inhibited = L BTN_MIDDLE
  sclock : d.scLock = false ∨ m ≠ .noLock

def Held (m : Mode) (d : Dev R) (L : Nat → Bool) : Prop := ∃ mw me vc, K m d L mw me vc

/-- A notification the debouncer may make. -/
structure NoteFine (m : Mode) (L : Nat → Bool) (n : Debounce.Notify) : Prop where
  flip : L n.code = !n.down
  rng : 0x110 ≤ n.code ∧ n.code < 0x120
  mid : m = .noMiddle → n.code ≠ BTN_MIDDLE

theorem upd_map (L : Nat → Bool) (lh : Bool) (c : Nat) (v : Bool) :
    (fun b => if b = toLeftHanded lh c then v else L (toLeftHanded lh b)) =
      fun b => Debounce.upd L c v (toLeftHanded lh b) := by
  funext b
  simp only [Debounce.upd]
  by_cases h : b = toLeftHanded lh c
  · subst h; simp [toLeftHanded_invol]
  · have : ¬ c = toLeftHanded lh b := fun h2 => h (by rw [h2, toLeftHanded_invol])
    simp [h, this]

theorem mb_enabled_physical (s : MiddleButton.State) (t c : Nat) (p : Bool)
    (h : s.enabled = false ∧ s.wantEnabled = false) :
    (MiddleButton.physicalButton s t c p).1 = s := by
  simp [MiddleButton.physicalButton, MiddleButton.filterButton, h.1]

/-- What both cases below share. -/
theorem note_setup {m : Mode} {d : Dev R} {L : Nat → Bool} {n : Debounce.Notify} (h : Held m d L)
    (hn : NoteFine m L n) :
    ∃ d0 cs vc vc' mw me, Core d0 vc ∧ SameCfg d d0 ∧ exec vc cs = some vc' ∧
      (∀ c ∈ cs, getKeyType c.code = .button) ∧
      (d0.sc.onButton = true → d0.sc.lock ≠ .disabled → Lone d0.sc.button (vc d0.sc.button) cs) ∧
      MiddleButton.Inv d0.mb ⟨fun b => Debounce.upd L n.code n.down (toLeftHanded d.lh b), mw, me⟩ vc' ∧
      (∀ A, debounced A d n = each (notifyButton A) cs d0) ∧
      d0.inhibited = Debounce.upd L n.code n.down BTN_MIDDLE ∧
      d0.sc = d.sc ∧
      (m = .noEmulation → d0.mb = d.mb) ∧
      ((∀ x, L x = true → x = n.code) → n.down = false → LastRelease cs) := by
  obtain ⟨mw, me, vc, hk⟩ := h
  have hr := toLeftHanded_range d.lh hn.rng
  have hr' : 0x110 ≤ toLeftHanded d.lh n.code ∧ toLeftHanded d.lh n.code < 0x130 := ⟨hr.1, by omega⟩
  have hflip : L (toLeftHanded d.lh (toLeftHanded d.lh n.code)) = !n.down := by
    rw [toLeftHanded_invol]; exact hn.flip
  obtain ⟨vc', he, hi'⟩ := MiddleButton.button_inv n.time (toLeftHanded d.lh n.code) n.down hk.mb hr' hflip
  refine ⟨{ (if toLeftHanded d.lh n.code = BTN_MIDDLE then { d with inhibited := n.down } else d) with
      mb := (MiddleButton.physicalButton d.mb n.time (toLeftHanded d.lh n.code) n.down).1 },
    (MiddleButton.physicalButton d.mb n.time (toLeftHanded d.lh n.code) n.down).2, vc, vc', mw,
    (MiddleButton.Spec.stepWorld ⟨fun b => L (toLeftHanded d.lh b), mw, me⟩
      (.button n.time (toLeftHanded d.lh n.code) n.down)).eff, ?_, ?_, he, ?_, ?_, ?_, ?_, ?_, ?_, ?_, ?_⟩
  · by_cases hm : toLeftHanded d.lh n.code = BTN_MIDDLE
    · simp only [hm, if_true]; exact ⟨hk.core.cnt, hk.core.lock⟩
    · simp only [hm, if_false]; exact ⟨hk.core.cnt, hk.core.lock⟩
  · by_cases hm : toLeftHanded d.lh n.code = BTN_MIDDLE
    · simp only [hm, if_true]; exact ⟨rfl, rfl, rfl, rfl, rfl, rfl, rfl, rfl, rfl⟩
    · simp only [hm, if_false]; exact ⟨rfl, rfl, rfl, rfl, rfl, rfl, rfl, rfl, rfl⟩
  · intro c hc
    rcases mb_codes _ _ _ _ c hc with h | h | h | h <;> rw [h]
    · exact mouse_button hr
    · rfl
    · rfl
    · rfl
  · have hsc : ({ (if toLeftHanded d.lh n.code = BTN_MIDDLE then { d with inhibited := n.down } else d) with
      mb := (MiddleButton.physicalButton d.mb n.time (toLeftHanded d.lh n.code) n.down).1 } : Dev R).sc = d.sc := by
      split <;> rfl
    rw [hsc]
    intro _ hl
    refine mb_lone n.time _ n.down hk.mb hr' hflip _ ?_
    have hmode := hk.mode
    cases m with
    | noLock => exact absurd hmode.1 hl
    | noEmulation => exact Or.inr (Or.inl (by rw [← hk.mb.eff]; exact hmode.1))
    | noMiddle =>
      refine Or.inr (Or.inr ⟨?_, ?_⟩)
      · show L (toLeftHanded d.lh BTN_MIDDLE) = false
        rw [(toLeftHanded_middle d.lh BTN_MIDDLE).mpr rfl]; exact hmode
      · exact fun h => hn.mid rfl ((toLeftHanded_middle _ _).mp h)
  · have hheld : (MiddleButton.Spec.stepWorld ⟨fun b => L (toLeftHanded d.lh b), mw, me⟩
        (.button n.time (toLeftHanded d.lh n.code) n.down)).held
        = fun b => Debounce.upd L n.code n.down (toLeftHanded d.lh b) := upd_map L d.lh n.code n.down
    rw [← hheld]
    exact hi'
  · intro A
    unfold debounced physicalButton
    split <;> rfl
  · show (if toLeftHanded d.lh n.code = BTN_MIDDLE then { d with inhibited := n.down } else d).inhibited = _
    by_cases hm : n.code = BTN_MIDDLE
    · rw [if_pos ((toLeftHanded_middle _ _).mpr hm), hm, Debounce.upd_self]
    · rw [if_neg (fun h => hm ((toLeftHanded_middle _ _).mp h)), Debounce.upd_ne _ _ (Ne.symm hm)]
      exact hk.inh
  · show (if toLeftHanded d.lh n.code = BTN_MIDDLE then { d with inhibited := n.down } else d).sc = _
    split <;> rfl
  · intro hm
    subst hm
    exact mb_enabled_physical _ _ _ _ hk.mode
  · intro honly hdn
    have hd' : L n.code = true := by rw [hn.flip, hdn]; rfl
    rw [hdn]
    refine mb_last n.time _ hk.mb hr' ?_ ?_
    · show L (toLeftHanded d.lh (toLeftHanded d.lh n.code)) = true
      rw [toLeftHanded_invol]; exact hd'
    · intro b hb
      have := honly _ hb
      rw [← this, toLeftHanded_invol]

theorem upd_range {L : Nat → Bool} {n : Debounce.Notify} (h : ∀ c, L c = true → 0x110 ≤ c ∧ c < 0x120)
    (hn : 0x110 ≤ n.code ∧ n.code < 0x120) :
    ∀ c, Debounce.upd L n.code n.down c = true → 0x110 ≤ c ∧ c < 0x120 := by
  intro c hc
  simp only [Debounce.upd] at hc
  split at hc
  · rename_i h2; rw [← h2]; exact hn
  · exact h c hc

/-- Putting the invariant together again. -/
theorem note_finish {m : Mode} {d d0 d1 : Dev R} {L : Nat → Bool} {n : Debounce.Notify} {vc' : Counts} {mw me : Bool}
    (h : Held m d L) (hn : NoteFine m L n) (hc : Core d1 vc') (h0 : SameCfg d d0) (h1 : SameCfg d0 d1) (hmb : d1.mb = d0.mb)
    (hi : MiddleButton.Inv d0.mb ⟨fun b => Debounce.upd L n.code n.down (toLeftHanded d.lh b), mw, me⟩ vc')
    (hinh : d1.inhibited = Debounce.upd L n.code n.down BTN_MIDDLE)
    (hlk : d.sc.lock = .disabled → d1.sc.lock = .disabled) (hne : m = .noEmulation → d0.mb = d.mb) :
    Held m d1 (Debounce.upd L n.code n.down) := by
  obtain ⟨mw0, me0, vc0, hk⟩ := h
  have h01 := h0.trans h1
  refine ⟨mw, me, vc', hc, ?_, upd_range hk.rng hn.rng, ?_, hinh, ?_⟩
  · rw [hmb, h01.lh]; exact hi
  · have hmode := hk.mode
    cases m with
    | noLock => exact ⟨hlk hmode.1, by rw [h01.scWant]; exact hmode.2⟩
    | noEmulation =>
      rw [ModeOk, hmb, hne rfl]; exact hmode
    | noMiddle =>
      simp only [ModeOk]
      rw [Debounce.upd_ne _ _ (Ne.symm (hn.mid rfl))]
      exact hmode
  · rw [h01.scLock]; exact hk.sclock

/-- One notification while the configuration callbacks do nothing. -/
theorem note_steady (A : Scroll.Arith R) {m : Mode} {d : Dev R} {L : Nat → Bool} {n : Debounce.Notify}
    (h : Held m d L) (hn : NoteFine m L n) (hs : Steady d) :
    ∃ out d1, debounced A d n = ⟨out, .ok d1⟩ ∧ Held m d1 (Debounce.upd L n.code n.down) ∧ SameCfg d d1 := by
  obtain ⟨d0, cs, vc, vc', mw, me, hc, h0, he, hb, hl, hi, hd, hinh, hsc, hne, _⟩ := note_setup h hn
  obtain ⟨out, d1, hr, hc1, hs1, hm1, hi1, hk1⟩ := calls_steady A cs d0 vc vc' hc he hb (h0.steady hs) hl
  refine ⟨out, d1, by rw [hd, hr], ?_, h0.trans hs1⟩
  exact note_finish h hn hc1 h0 hs1 hm1 hi (hi1.trans hinh) (fun hh => hk1 (by rw [hsc]; exact hh)) hne

/-- The release of the only button that is down for the debouncer. -/
theorem note_last (A : Scroll.Arith R) {m : Mode} {d : Dev R} {L : Nat → Bool} {n : Debounce.Notify}
    (h : Held m d L) (hn : NoteFine m L n) (honly : ∀ x, L x = true → x = n.code) (hdn : n.down = false) :
    ∃ out d1 d2, debounced A d n = ⟨out, .ok d2⟩ ∧ Held m d1 (Debounce.upd L n.code n.down) ∧ SameCfg d d1 ∧
      (d2 = d1 ∨ d2 = callbacks d1) := by
  obtain ⟨d0, cs, vc, vc', mw, me, hc, h0, he, hb, hl, hi, hd, hinh, hsc, hne, hlast⟩ := note_setup h hn
  obtain ⟨out, d1, d2, hr, hc1, hs1, hm1, hi1, hk1, h2⟩ := calls_last A cs d0 vc vc' hc he hb (hlast honly hdn) hl
  refine ⟨out, d1, d2, by rw [hd, hr], ?_, h0.trans hs1, ?_⟩
  · exact note_finish h hn hc1 h0 hs1 hm1 hi (hi1.trans hinh) (fun hh => hk1 (by rw [hsc]; exact hh)) hne
  · rcases h2 with h | ⟨_, h⟩
    · exact Or.inl h
    · exact Or.inr h

/-- With nothing held there are no use counts. -/
theorem mb_rest {s : MiddleButton.State} {w : MiddleButton.Spec.World} {cnt : Counts} (hi : MiddleButton.Inv s w cnt)
    (h : ∀ b, w.held b = false) : cnt = fun _ => 0 := by
  cases he : w.eff with
  | false =>
    rw [(hi.off he).2.2.2]
    funext b; simp [h]
  | true =>
    obtain ⟨_, hph, hcnt, _⟩ := hi.on he
    rw [hcnt]
    refine MiddleButton.expected_rest h _ ?_
    intro hst
    rw [hst] at hph
    simp [MiddleButton.Phys, h] at hph

/-- A different left-handed and scroll configuration with nothing held. -/
theorem held_config {m : Mode} {d d' : Dev R} (h : Held m d (fun _ => false))
    (hcnt : d'.cnt = d.cnt) (hkey : d'.keyHw = d.keyHw) (hmb : d'.mb = d.mb)
    (hinh : d'.inhibited = d.inhibited) (hlock : LockOk d'.sc.lock 0)
    (hm : m = .noLock → d'.sc.lock = .disabled ∧ d'.scWant.lock = false ∧ d'.scLock = false) :
    Held m d' (fun _ => false) := by
  obtain ⟨mw, me, vc, hk⟩ := h
  have hz := mb_rest hk.mb (fun b => rfl)
  subst hz
  refine ⟨mw, me, _, ⟨?_, fun _ => hlock⟩, by rw [hmb]; exact hk.mb, hk.rng, ?_, hinh.trans hk.inh, ?_⟩
  · intro c
    rw [hcnt, hk.core.cnt c, hkey]
    split
    · rfl
    · simp
  · have hmode := hk.mode
    cases m with
    | noLock => exact ⟨(hm rfl).1, (hm rfl).2.1⟩
    | noEmulation => rw [ModeOk, hmb]; exact hmode
    | noMiddle => rfl
  · cases m with
    | noLock => exact Or.inl (hm rfl).2.2
    | noEmulation => exact Or.inr (by simp)
    | noMiddle => exact Or.inr (by simp)

theorem lockOk_set (s : ButtonScroll.State R) (on : Bool) : LockOk (ButtonScroll.setLockEnabled s on).lock 0 := by
  cases on <;> simp [ButtonScroll.setLockEnabled, LockOk]

theorem held_lock {m : Mode} {d : Dev R} (h : Held m d (fun _ => false)) (hon : d.sc.onButton = true) : LockOk d.sc.lock 0 := by
  obtain ⟨mw, me, vc, hk⟩ := h
  have hz := mb_rest hk.mb (fun b => rfl)
  subst hz
  exact hk.core.lock hon

/-- Changing the left-handed setting with nothing held. -/
theorem held_lh {m : Mode} {d : Dev R} (h : Held m d (fun _ => false)) (lh : Bool) (lhWant : Bool) :
    Held m { d with lh := lh, lhWant := lhWant } (fun _ => false) := by
  obtain ⟨mw, me, vc, hk⟩ := h
  exact ⟨mw, me, vc, ⟨hk.core.cnt, hk.core.lock⟩, hk.mb, hk.rng, by cases m <;> exact hk.mode, hk.inh, hk.sclock⟩

theorem held_changeLeftHanded {m : Mode} {d : Dev R} (h : Held m d (fun _ => false)) :
    Held m (changeLeftHanded d) (fun _ => false) := by
  unfold changeLeftHanded
  split
  · exact h
  · split
    · exact h
    · exact held_lh h _ _

theorem held_changeScroll {m : Mode} {d : Dev R} (h : Held m d (fun _ => false))
    (hw : m = .noLock → d.scWant.lock = false) :
    Held m (changeScroll d) (fun _ => false) := by
  unfold changeScroll
  split
  · exact h
  · split
    · exact h
    · refine held_config h rfl rfl rfl rfl (lockOk_set _ _) ?_
      intro hm
      simp only [hw hm]
      exact ⟨rfl, trivial, trivial⟩

theorem held_callbacks {m : Mode} {d : Dev R} (h : Held m d (fun _ => false)) : Held m (callbacks d) (fun _ => false) := by
  refine held_changeScroll (held_changeLeftHanded h) ?_
  intro hm
  obtain ⟨mw, me, vc, hk⟩ := h
  have hmode := hk.mode
  subst hm
  have : (changeLeftHanded d).scWant = d.scWant := by
    unfold changeLeftHanded; split <;> (try split) <;> rfl
  rw [this]; exact hmode.2

/-- Sequences of notifications while the callbacks do nothing. -/
theorem notes_steady (A : Scroll.Arith R) {m : Mode} (ns : List Debounce.Notify) :
    ∀ {d : Dev R} {L : Nat → Bool}, Held m d L → Valid L (ns.map Debounce.Notify.edge) →
      (∀ n ∈ ns, (0x110 ≤ n.code ∧ n.code < 0x120) ∧ (m = .noMiddle → n.code ≠ BTN_MIDDLE)) → Steady d →
      ∃ out d1, each (debounced A) ns d = ⟨out, .ok d1⟩ ∧ Held m d1 (after L (ns.map Debounce.Notify.edge)) ∧
        SameCfg d d1 := by
  induction ns with
  | nil =>
    intro d L h _ _ _
    exact ⟨[], d, rfl, h, SameCfg.refl d⟩
  | cons n ns ih =>
    intro d L h hv hf hs
    simp only [List.map_cons, Valid] at hv
    have hn := hf n (by simp)
    obtain ⟨out, d1, hr, h1, hc⟩ := note_steady A h ⟨hv.1, hn.1, hn.2⟩ hs
    obtain ⟨out2, d2, hr2, h2, hc2⟩ := ih (L := Debounce.upd L n.code n.down) h1 hv.2
      (fun x hx => hf x (List.mem_cons_of_mem _ hx)) (hc.steady hs)
    refine ⟨out ++ out2, d2, ?_, h2, hc.trans hc2⟩
    simp only [each, hr, Res.bind, hr2]

end Libinput.Mouse
