import Verif.Mouse.Held
import Verif.Debounce.Extra
set_option linter.unusedSimpArgs false
set_option linter.unusedVariables false
/-
The invariant over whole histories of a mouse.
-/
namespace Libinput.Mouse
open Libinput.Spec Libinput.Alt Libinput.Mouse.Spec
open Libinput.Buttons (Call Ev Stop Counts exec)
open Libinput.Debounce (DInv Fired)

variable {R : Type}

def ScrollInForce (d : Dev R) : Prop :=
  d.scWant.onButton = d.sc.onButton ∧ d.scWant.button = d.sc.button ∧ d.scWant.lock = d.scLock

/-- The invariant: device, the world, and the debounced buttons. -/
structure J (m : Mode) (d : Dev R) (w : World) (L : Nat → Bool) : Prop where
  deb : DInv d.deb w.hand L
  held : Held m d L
  phys : ∀ c, w.hand.phys c = true → (0x110 ≤ c ∧ c < 0x120) ∧ d.has c = true
  key : d.keyHw = w.keyboard
  left : d.lhWant ≠ d.lh → w.lateLeft = true
  scroll : ¬ ScrollInForce d → w.lateScroll = true

theorem any_iff {d : Dev R} {p : Nat → Bool} (hhw : d.deb.hw = p)
    (h : ∀ c, p c = true → (0x110 ≤ c ∧ c < 0x120) ∧ d.has c = true) :
    anyButtonDown d = true ↔ ∃ c, p c = true := by
  unfold anyButtonDown
  simp only [List.any_eq_true, List.mem_range, Bool.and_eq_true, hhw]
  constructor
  · rintro ⟨i, _, _, h2⟩; exact ⟨_, h2⟩
  · rintro ⟨c, hc⟩
    obtain ⟨⟨h1, h2⟩, h3⟩ := h c hc
    refine ⟨c - BTN_LEFT, ?_, ?_⟩
    · simp only [BTN_JOYSTICK, BTN_LEFT]; omega
    · have : BTN_LEFT + (c - BTN_LEFT) = c := by simp only [BTN_LEFT]; omega
      rw [this]; exact ⟨h3, hc⟩

theorem anyHeld_iff {p : Nat → Bool} (h : ∀ c, p c = true → 0x110 ≤ c ∧ c < 0x120) :
    anyHeld p = true ↔ ∃ c, p c = true := by
  unfold anyHeld
  simp only [List.any_eq_true, List.mem_range]
  constructor
  · rintro ⟨i, _, h2⟩; exact ⟨_, h2⟩
  · rintro ⟨c, hc⟩
    have := h c hc
    refine ⟨c - 0x110, by omega, ?_⟩
    rw [show 0x110 + (c - 0x110) = c by omega]; exact hc

theorem none_or_some (p : Nat → Bool) : (∀ c, p c = false) ∨ ∃ c, p c = true := by
  by_cases h : ∃ c, p c = true
  · exact Or.inr h
  · refine Or.inl fun c => ?_
    cases hc : p c with
    | false => rfl
    | true => exact absurd ⟨c, hc⟩ h

/-- `Held` says nothing about the debouncer, the key codes and requested settings. -/
theorem held_upd {m : Mode} {d d' : Dev R} {L : Nat → Bool} (h : Held m d L) (h1 : d'.cnt = d.cnt)
    (h2 : d'.keyHw = d.keyHw) (h3 : d'.inhibited = d.inhibited) (h4 : d'.lh = d.lh) (h5 : d'.mb = d.mb)
    (h6 : d'.sc.onButton = d.sc.onButton ∧ d'.sc.button = d.sc.button ∧ d'.sc.lock = d.sc.lock)
    (h7 : d'.scLock = d.scLock) (h8 : m = .noLock → d'.scWant.lock = false) : Held m d' L := by
  obtain ⟨mw, me, vc, hk⟩ := h
  refine ⟨mw, me, vc, ⟨?_, ?_⟩, ?_, hk.rng, ?_, ?_, ?_⟩
  · intro c; rw [h1, h2, h6.1, h6.2.1]; exact hk.core.cnt c
  · rw [h6.1, h6.2.1, h6.2.2]; exact hk.core.lock
  · rw [h5, h4]; exact hk.mb
  · have := hk.mode
    cases m with
    | noLock => exact ⟨h6.2.2.trans this.1, h8 rfl⟩
    | noEmulation => rw [ModeOk, h5]; exact this
    | noMiddle => exact this
  · rw [h3]; exact hk.inh
  · rw [h7]; exact hk.sclock

theorem held_want {m : Mode} {d : Dev R} {L : Nat → Bool} (h : Held m d L) (hm : m = .noLock) : d.scWant.lock = false := by
  obtain ⟨mw, me, vc, hk⟩ := h
  subst hm
  exact hk.mode.2

@[simp] theorem changeLeftHanded_fields (d : Dev R) : (changeLeftHanded d).has = d.has ∧
    (changeLeftHanded d).keyHw = d.keyHw ∧ (changeLeftHanded d).lhWant = d.lhWant ∧
    (changeLeftHanded d).scWant = d.scWant ∧ (changeLeftHanded d).sc = d.sc ∧ (changeLeftHanded d).scLock = d.scLock ∧
    (changeLeftHanded d).inhibited = d.inhibited ∧ (changeLeftHanded d).mb = d.mb := by
  unfold changeLeftHanded; split <;> (try split) <;> exact ⟨rfl, rfl, rfl, rfl, rfl, rfl, rfl, rfl⟩

@[simp] theorem changeScroll_fields (d : Dev R) : (changeScroll d).has = d.has ∧
    (changeScroll d).keyHw = d.keyHw ∧ (changeScroll d).lhWant = d.lhWant ∧ (changeScroll d).lh = d.lh ∧
    (changeScroll d).scWant = d.scWant ∧
    (changeScroll d).inhibited = d.inhibited ∧ (changeScroll d).mb = d.mb := by
  unfold changeScroll; split <;> (try split) <;> exact ⟨rfl, rfl, rfl, rfl, rfl, rfl, rfl⟩

theorem callbacks_left (d : Dev R) : (callbacks d).lhWant ≠ (callbacks d).lh → d.lhWant ≠ d.lh := by
  intro h he
  apply h
  unfold callbacks
  have : changeLeftHanded d = d := by unfold changeLeftHanded; simp [he]
  rw [this, (changeScroll_fields d).2.2.1, (changeScroll_fields d).2.2.2.1]
  exact he

theorem changeScroll_inForce (d : Dev R) (h : ScrollInForce d) : changeScroll d = d := by
  unfold changeScroll
  unfold ScrollInForce at h
  rw [if_pos h]

theorem callbacks_scroll (d : Dev R) : ¬ ScrollInForce (callbacks d) → ¬ ScrollInForce d := by
  intro h he
  apply h
  have hf := changeLeftHanded_fields d
  have : ScrollInForce (changeLeftHanded d) := by
    unfold ScrollInForce; rw [hf.2.2.2.1, hf.2.2.2.2.1, hf.2.2.2.2.2.1]; exact he
  unfold callbacks
  rw [changeScroll_inForce _ this]
  exact this

theorem steady_of_force {d : Dev R} (h1 : d.lhWant = d.lh) (h2 : ScrollInForce d) : Steady d :=
  Or.inl ⟨h1, h2⟩

/-- Codes of notifications that repeat some physical state. -/
theorem notes_fine {m : Mode} {L P Q : Nat → Bool} {ns : List Debounce.Notify}
    (hv : Valid L (ns.map Debounce.Notify.edge)) (hn : ∀ n ∈ ns, n.down = P n.code ∨ n.down = Q n.code)
    (hP : ∀ c, P c = true → 0x110 ≤ c ∧ c < 0x120) (hQ : ∀ c, Q c = true → 0x110 ≤ c ∧ c < 0x120)
    (hL : ∀ c, L c = true → 0x110 ≤ c ∧ c < 0x120)
    (hM : m = .noMiddle → P BTN_MIDDLE = false ∧ Q BTN_MIDDLE = false ∧ L BTN_MIDDLE = false) :
    ∀ n ∈ ns, (0x110 ≤ n.code ∧ n.code < 0x120) ∧ (m = .noMiddle → n.code ≠ BTN_MIDDLE) := by
  have hnever : ∀ k, P k = false → Q k = false → L k = false → ∀ n ∈ ns, n.code ≠ k := by
    intro k h1 h2 h3 n hn1
    have := Debounce.valid_never hv (k := k) (by
      intro e he hk
      simp only [List.mem_map] at he
      obtain ⟨x, hx, rfl⟩ := he
      have hk' : x.code = k := hk
      show x.down = false
      rcases hn x hx with h | h <;> rw [h, hk'] <;> assumption) h3 n.edge (List.mem_map_of_mem hn1)
    exact this
  intro n hn1
  refine ⟨?_, ?_⟩
  · by_cases hr : 0x110 ≤ n.code ∧ n.code < 0x120
    · exact hr
    · exfalso
      have hf : ∀ p : Nat → Bool, (∀ c, p c = true → 0x110 ≤ c ∧ c < 0x120) → p n.code = false := by
        intro p hp
        cases h : p n.code with
        | false => rfl
        | true => exact absurd (hp _ h) hr
      exact hnever n.code (hf P hP) (hf Q hQ) (hf L hL) n hn1 rfl
  · intro hm
    obtain ⟨h1, h2, h3⟩ := hM hm
    exact hnever _ h1 h2 h3 n hn1

/-- In mode `noMiddle` the physical middle button is never pressed. -/
def MidOk (m : Mode) (p : Nat → Bool) : Prop := m = .noMiddle → p BTN_MIDDLE = false

theorem held_mid {m : Mode} {d : Dev R} {L : Nat → Bool} (h : Held m d L) : MidOk m L := by
  intro hm
  obtain ⟨mw, me, vc, hk⟩ := h
  subst hm
  exact hk.mode

theorem held_rng {m : Mode} {d : Dev R} {L : Nat → Bool} (h : Held m d L) : ∀ c, L c = true → 0x110 ≤ c ∧ c < 0x120 := by
  obtain ⟨mw, me, vc, hk⟩ := h
  exact hk.rng

/-- Assemble `J` after notifications. -/
theorem j_of {m : Mode} {d d0 d1 d2 : Dev R} {w w' : World} {L L' : Nat → Bool} (h : J m d w L)
    (hd0 : d0.has = d.has ∧ d0.keyHw = w'.keyboard ∧ d0.lhWant = d.lhWant ∧ d0.lh = d.lh ∧ d0.scWant = d.scWant ∧
      d0.sc.onButton = d.sc.onButton ∧ d0.sc.button = d.sc.button ∧ d0.scLock = d.scLock)
    (hs : SameCfg d0 d1) (hd2 : d2 = d1 ∨ ((∀ c, L' c = false) ∧ d2 = callbacks d1))
    (hdeb : DInv d0.deb w'.hand L') (hheld : Held m d1 L')
    (hphys : ∀ c, w'.hand.phys c = true → (0x110 ≤ c ∧ c < 0x120) ∧ d.has c = true)
    (hl : w'.lateLeft = w.lateLeft) (hsc : w'.lateScroll = w.lateScroll) : J m d2 w' L' := by
  obtain ⟨a1, a2, a3, a4, a5, a6, a7, a8⟩ := hd0
  have hj1 : J m d1 w' L' := by
    refine ⟨by rw [hs.deb]; exact hdeb, hheld, ?_, hs.keyHw.trans a2, ?_, ?_⟩
    · intro c hc; rw [hs.has, a1]; exact hphys c hc
    · rw [hs.lhWant, hs.lh, a3, a4, hl]; exact h.left
    · unfold ScrollInForce; rw [hs.scWant, hs.on, hs.btn, hs.scLock, a5, a6, a7, a8, hsc]; exact h.scroll
  rcases hd2 with rfl | ⟨hz, rfl⟩
  · exact hj1
  · have hcl := changeLeftHanded_fields d1
    have hcs := changeScroll_fields (changeLeftHanded d1)
    have hL : L' = fun _ => false := funext hz
    refine ⟨?_, ?_, ?_, ?_, fun hh => hj1.left (callbacks_left d1 hh), fun hh => hj1.scroll (callbacks_scroll d1 hh)⟩
    · show DInv (changeScroll (changeLeftHanded d1)).deb _ _
      rw [changeScroll_deb, changeLeftHanded_deb]; exact hj1.deb
    · subst hL; exact held_callbacks hheld
    · intro c hc
      show _ ∧ (changeScroll (changeLeftHanded d1)).has c = true
      rw [hcs.1, hcl.1]; exact hj1.phys c hc
    · show (changeScroll (changeLeftHanded d1)).keyHw = _
      rw [hcs.2.1, hcl.2.1]; exact hj1.key

/-- A lone release that may be followed by the callbacks. -/
theorem notes_last (A : Scroll.Arith R) {m : Mode} {ns : List Debounce.Notify} {d : Dev R} {L : Nat → Bool} {k : Nat}
    (h : Held m d L) (hv : Valid L (ns.map Debounce.Notify.edge))
    (hf : ∀ n ∈ ns, (0x110 ≤ n.code ∧ n.code < 0x120) ∧ (m = .noMiddle → n.code ≠ BTN_MIDDLE))
    (hn : ∀ n ∈ ns, n.code = k ∧ n.down = false) (honly : ∀ x, L x = true → x = k) :
    ∃ out d1 d2, each (debounced A) ns d = ⟨out, .ok d2⟩ ∧ Held m d1 (after L (ns.map Debounce.Notify.edge)) ∧
      SameCfg d d1 ∧ (d2 = d1 ∨ ((∀ c, after L (ns.map Debounce.Notify.edge) c = false) ∧ d2 = callbacks d1)) := by
  have hone := Debounce.valid_releases (k := k) hv (by
    intro e he
    simp only [List.mem_map] at he
    obtain ⟨x, hx, rfl⟩ := he
    exact hn x hx)
  cases ns with
  | nil => exact ⟨[], d, d, rfl, h, SameCfg.refl d, Or.inl rfl⟩
  | cons n ns =>
    rcases hone with hone | ⟨hone, hk⟩
    · simp at hone
    · simp only [List.map_cons, List.cons.injEq, List.map_eq_nil_iff] at hone
      obtain ⟨h1, rfl⟩ := hone
      obtain ⟨hcode, hdown⟩ := hn n (by simp)
      have hfn := hf n (by simp)
      have hflip : L n.code = !n.down := by rw [hcode, hdown, hk]; rfl
      obtain ⟨out, d1, d2, hr, hh, hs, h2⟩ := note_last A h ⟨hflip, hfn.1, hfn.2⟩
        (fun x hx => (honly x hx).trans hcode.symm) hdown
      have hafter : after L ([n].map Debounce.Notify.edge) = Debounce.upd L n.code n.down := Debounce.after_one L n
      rw [hafter]
      refine ⟨out, d1, d2, by rw [each_one, hr], hh, hs, ?_⟩
      rcases h2 with h2 | h2
      · exact Or.inl h2
      · refine Or.inr ⟨?_, h2⟩
        intro c
        simp only [Debounce.upd]
        split
        · exact hdown
        · rename_i hne
          cases hc : L c with
          | false => rfl
          | true => exact absurd (hcode.trans (honly c hc).symm) hne

theorem callbacks_lh (d : Dev R) : anyButtonDown d = true → (callbacks d).lh = d.lh := by
  intro h
  rw [callbacks_steady (Or.inr h)]

/-- The debounce timers run. -/
theorem fire_stage (A : Scroll.Arith R) {m : Mode} {d : Dev R} {w : World} {L : Nat → Bool} (now : Nat)
    (h : J m d w L) (hmid : MidOk m w.hand.phys) :
    ∃ out d1 L1, debounceTimers A d now = ⟨out, .ok d1⟩ ∧ J m d1 w L1 ∧ Fired d1.deb.deb now ∧
      ((∀ c, L c = w.hand.phys c) ∨ w.hand.latest + 25000 ≤ now → ∀ c, L1 c = w.hand.phys c) ∧
      (d1.lh = d.lh ∨ NoneHeld w) ∧ d1.has = d.has := by
  obtain ⟨hv, ⟨hi', hcode, hS, hT⟩, hn⟩ := Debounce.fire_inv now h.deb.inv
  have hsettle : (∀ c, L c = w.hand.phys c) ∨ w.hand.latest + 25000 ≤ now →
      ∀ c, after L ((Debounce.fire d.deb.deb now).2.map Debounce.Notify.edge) c = w.hand.phys c := by
    intro hh c
    refine Debounce.fire_settles now h.deb.inv ?_ c
    intro hne b hb
    rcases hh with hh | hh
    · exact absurd (hh _).symm hne
    · have := h.deb.inv.bndT b hb
      omega
  unfold debounceTimers
  generalize hr : Debounce.fire d.deb.deb now = r at *
  obtain ⟨s1, ns⟩ := r
  simp only at hv hi' hcode hS hT hn hsettle ⊢
  have hfine := notes_fine (m := m) (Q := w.hand.phys) hv (fun n hn1 => Or.inl (hn n hn1).2.2)
    (fun c hc => (h.phys c hc).1) (fun c hc => (h.phys c hc).1) (held_rng h.held)
    (fun hm => ⟨hmid hm, hmid hm, held_mid h.held hm⟩)
  have hheld0 : Held m { d with deb := { d.deb with deb := s1 } } L :=
    held_upd h.held rfl rfl rfl rfl rfl ⟨rfl, rfl, rfl⟩ rfl (by intro hm; exact held_want (d := d) h.held hm)
  have hdeb0 : DInv { d.deb with deb := s1 } w.hand (after L (ns.map Debounce.Notify.edge)) :=
    ⟨hi', h.deb.hw, h.deb.last, h.deb.pend⟩
  have hfinish : ∀ out d1 d2, each (debounced A) ns { d with deb := { d.deb with deb := s1 } } = ⟨out, .ok d2⟩ →
      Held m d1 (after L (ns.map Debounce.Notify.edge)) → SameCfg { d with deb := { d.deb with deb := s1 } } d1 →
      (d2 = d1 ∨ ((∀ c, after L (ns.map Debounce.Notify.edge) c = false) ∧ d2 = callbacks d1)) →
      (d2.lh = d.lh ∨ NoneHeld w) →
      ∃ out d1 L1, each (debounced A) ns { d with deb := { d.deb with deb := s1 } } = ⟨out, .ok d1⟩ ∧ J m d1 w L1 ∧
        Fired d1.deb.deb now ∧
        ((∀ c, L c = w.hand.phys c) ∨ w.hand.latest + 25000 ≤ now → ∀ c, L1 c = w.hand.phys c) ∧
        (d1.lh = d.lh ∨ NoneHeld w) ∧ d1.has = d.has := by
    intro out d1 d2 he hh hs h2 hlh
    have hj : J m d2 w (after L (ns.map Debounce.Notify.edge)) :=
      j_of (d0 := { d with deb := { d.deb with deb := s1 } }) h ⟨rfl, h.key, rfl, rfl, rfl, rfl, rfl, rfl⟩ hs h2 hdeb0 hh h.phys rfl rfl
    have hdd : d2.deb = { d.deb with deb := s1 } := by
      rcases h2 with h2 | ⟨_, h2⟩
      · rw [h2]; exact hs.deb
      · rw [h2]; show (changeScroll (changeLeftHanded d1)).deb = _
        rw [changeScroll_deb, changeLeftHanded_deb]; exact hs.deb
    have hhas : d2.has = d.has := by
      rcases h2 with h2 | ⟨_, h2⟩
      · rw [h2]; exact hs.has
      · rw [h2]; show (changeScroll (changeLeftHanded d1)).has = _
        rw [(changeScroll_fields _).1, (changeLeftHanded_fields _).1]; exact hs.has
    refine ⟨out, d2, _, he, hj, ?_, hsettle, hlh, hhas⟩
    rw [hdd]
    exact ⟨hS, fun e he => (hT e he).1⟩
  rcases none_or_some w.hand.phys with hnone | hsome
  · obtain ⟨out, d1, d2, he, hh, hs, h2⟩ := notes_last A (k := d.deb.deb.code) hheld0 hv hfine
      (fun n hn1 => ⟨(hn n hn1).1, by rw [(hn n hn1).2.2]; exact hnone _⟩)
      (by
        intro x hx
        by_cases hc : x = d.deb.deb.code
        · exact hc
        · have := h.deb.inv.other x hc
          rw [hx, hnone x] at this; cases this)
    exact hfinish out d1 d2 he hh hs h2 (Or.inr hnone)
  · have hst : Steady { d with deb := { d.deb with deb := s1 } } := Or.inr ((any_iff h.deb.hw h.phys).mpr hsome)
    obtain ⟨out, d1, he, hh, hs⟩ := notes_steady A ns hheld0 hv hfine hst
    exact hfinish out d1 d1 he hh hs (Or.inl rfl) (Or.inl hs.lh)

/-! ### The other parts of a frame -/

theorem key_lt {c : Nat} (h : getKeyType c = .key) : c < Buttons.KEY_CNT := by
  simp only [Buttons.KEY_CNT]
  unfold getKeyType at h
  by_cases h0 : c < 0x300
  · exact h0
  · rw [if_neg (by omega), if_neg (by omega), if_neg (by omega), if_neg (by omega), if_neg (by omega), if_neg (by omega),
      if_neg (by omega)] at h
    cases h

theorem notifyKey_core {d : Dev R} {vc : Counts} (hc : Core d vc) (t c : Nat) (p : Bool) (hk : getKeyType c = .key)
    (hp : d.keyHw c = !p) :
    ∃ out cnt', notifyKey { d with keyHw := fun x => if x = c then p else d.keyHw x } t c p =
        ⟨out, .ok { d with keyHw := fun x => if x = c then p else d.keyHw x, cnt := cnt' }⟩ ∧
      Core { d with keyHw := fun x => if x = c then p else d.keyHw x, cnt := cnt' } vc := by
  have hcc : d.cnt c = (!p).toNat := by rw [hc.cnt c, hp]; simp [hk]
  obtain ⟨⟨cnt', evs⟩, hr⟩ := (Buttons.post_ok_iff d.cnt t c p).mpr ⟨key_lt hk, by cases p <;> simp [hcc]⟩
  obtain ⟨_, _, h3⟩ := post_pointwise hr
  refine ⟨evs.map .key, cnt', ?_, ?_, hc.lock⟩
  · unfold notifyKey
    simp only
    rw [hr]
  · intro x
    simp only [h3]
    by_cases hx : x = c
    · subst hx
      simp only [if_true, hk]
      rw [hcc]; cases p <;> simp
    · simp only [hx, if_false]
      exact hc.cnt x

theorem keys_stage (t : Nat) (keys : List KeyEv) : ∀ {d : Dev R} {vc : Counts}, Core d vc →
    ∃ out cnt', each (processKey t) keys d = ⟨out, .ok { d with
        deb := (buttonKeys keys).foldl (fun d k => Debounce.processKey d k.1 k.2) d.deb,
        keyHw := applyKeyboard d.keyHw keys, cnt := cnt' }⟩ ∧
      Core { d with
        deb := (buttonKeys keys).foldl (fun d k => Debounce.processKey d k.1 k.2) d.deb,
        keyHw := applyKeyboard d.keyHw keys, cnt := cnt' } vc := by
  induction keys with
  | nil => intro d vc hc; exact ⟨[], d.cnt, rfl, hc⟩
  | cons e keys ih =>
    intro d vc hc
    have hcore_deb : ∀ (d : Dev R) (x : Debounce.Dev), Core d vc → Core { d with deb := x } vc :=
      fun d x h => ⟨h.cnt, h.lock⟩
    -- skipping an event
    have hskip : ∀ (deb : Debounce.Dev) (kb : Nat → Bool) (cnt : Counts) (o : List (Out R)), processKey t d e = ⟨o, .ok { d with deb := deb, keyHw := kb, cnt := cnt }⟩ →
        Core { d with deb := deb, keyHw := kb, cnt := cnt } vc →
        (buttonKeys (e :: keys)).foldl (fun d k => Debounce.processKey d k.1 k.2) d.deb =
          (buttonKeys keys).foldl (fun d k => Debounce.processKey d k.1 k.2) deb →
        applyKeyboard d.keyHw (e :: keys) = applyKeyboard kb keys →
        ∃ out cnt', each (processKey t) (e :: keys) d = ⟨out, .ok { d with
            deb := (buttonKeys (e :: keys)).foldl (fun d k => Debounce.processKey d k.1 k.2) d.deb,
            keyHw := applyKeyboard d.keyHw (e :: keys), cnt := cnt' }⟩ ∧
          Core { d with
            deb := (buttonKeys (e :: keys)).foldl (fun d k => Debounce.processKey d k.1 k.2) d.deb,
            keyHw := applyKeyboard d.keyHw (e :: keys), cnt := cnt' } vc := by
      intro deb kb cnt o hpk hc2 e1 e2
      obtain ⟨out, cnt', h1, h2⟩ := ih hc2
      rw [e1, e2]
      refine ⟨o ++ out, cnt', ?_, h2⟩
      simp only [each, hpk, Res.bind, h1]
    by_cases hv : e.value = 2
    · have hb : buttonKeys (e :: keys) = buttonKeys keys := by simp [buttonKeys, hv]
      have ha : applyKeyboard d.keyHw (e :: keys) = applyKeyboard d.keyHw keys := by simp [applyKeyboard, hv]
      exact hskip d.deb d.keyHw d.cnt [] (by unfold processKey; rw [if_pos hv]; rfl) hc (by rw [hb]) ha
    · have hv' : (e.value != 2) = true := by simpa using hv
      cases hk : getKeyType e.code with
      | none =>
        have hb : buttonKeys (e :: keys) = buttonKeys keys := by
          simp [buttonKeys, isButton, hk]
        have ha : applyKeyboard d.keyHw (e :: keys) = applyKeyboard d.keyHw keys := by simp [applyKeyboard, hk]
        exact hskip d.deb d.keyHw d.cnt [] (by unfold processKey; rw [if_neg hv, hk]; rfl) hc (by rw [hb]) ha
      | button =>
        have hb : buttonKeys (e :: keys) = (e.code, e.value != 0) :: buttonKeys keys := by
          simp [buttonKeys, isButton, hk, hv]
        have ha : applyKeyboard d.keyHw (e :: keys) = applyKeyboard d.keyHw keys := by simp [applyKeyboard, hk]
        refine hskip (Debounce.processKey d.deb e.code (e.value != 0)) d.keyHw d.cnt [] ?_ ⟨hc.cnt, hc.lock⟩ ?_ ha
        · unfold processKey; rw [if_neg hv, hk]; rfl
        · rw [hb]; rfl
      | key =>
        have hb : buttonKeys (e :: keys) = buttonKeys keys := by
          simp [buttonKeys, isButton, hk]
        have ha : applyKeyboard d.keyHw (e :: keys) =
            applyKeyboard (fun c => if c = e.code then e.value != 0 else d.keyHw c) keys := by
          simp [applyKeyboard, hk, hv]
        by_cases hsame : d.keyHw e.code = (e.value != 0)
        · have hst : (fun c => if c = e.code then e.value != 0 else d.keyHw c) = d.keyHw := by
            funext c; split
            · rename_i h; rw [h, hsame]
            · rfl
          rw [hst] at ha
          exact hskip d.deb d.keyHw d.cnt [] (by
            unfold processKey; rw [if_neg hv, hk]; simp only; rw [if_pos hsame]; rfl) hc (by rw [hb]) ha
        · have hflip : d.keyHw e.code = !(e.value != 0) := by
            cases h1 : d.keyHw e.code <;> cases h2 : (e.value != 0) <;> simp_all
          obtain ⟨out, cnt', h1, h2⟩ := notifyKey_core hc t e.code (e.value != 0) hk hflip
          refine hskip d.deb _ cnt' out ?_ h2 (by rw [hb]) ha
          unfold processKey; rw [if_neg hv, hk]; simp only; rw [if_neg hsame]; exact h1

theorem motion_stage (A : Scroll.Arith R) (d : Dev R) (t : Nat) (rel : Option (R × R)) :
    ∃ out sc, flushMotion A d t rel = ⟨out, .ok { d with sc := sc }⟩ ∧
      sc.onButton = d.sc.onButton ∧ sc.button = d.sc.button ∧ sc.lock = d.sc.lock := by
  cases rel with
  | none => exact ⟨[], d.sc, rfl, rfl, rfl, rfl⟩
  | some x =>
    obtain ⟨dx, dy⟩ := x
    have hd : ∀ (os : List (ButtonScroll.Out R)) (d : Dev R), (∀ c, .button c ∉ os) →
        ∃ out, each deliver os d = ⟨out, .ok d⟩ := by
      intro os
      induction os with
      | nil => intro d _; exact ⟨[], rfl⟩
      | cons o os ih =>
        intro d h
        obtain ⟨out, ho⟩ := ih d (fun c hc => h c (List.mem_cons_of_mem _ hc))
        cases o with
        | button c => exact absurd (by simp) (h c)
        | axis o => exact ⟨_, by simp only [each, deliver, Res.bind, ho]; rfl⟩
        | motion t dx dy => exact ⟨_, by simp only [each, deliver, Res.bind, ho]; rfl⟩
    obtain ⟨out, ho⟩ := hd (ButtonScroll.motion A d.sc t dx dy).2 { d with sc := (ButtonScroll.motion A d.sc t dx dy).1 }
      (motion_no_buttons A d.sc t dx dy)
    refine ⟨out, (ButtonScroll.motion A d.sc t dx dy).1, ho, ?_⟩
    unfold ButtonScroll.motion
    split
    · exact ⟨rfl, rfl, rfl⟩
    · split <;> exact ⟨rfl, rfl, rfl⟩

theorem wheel_stage (d : Dev R) (t : Nat) (wx wy : Int) :
    ∃ out, flushWheels d t wx wy = ⟨out, .ok d⟩ := by
  unfold flushWheels
  split
  · exact ⟨[], rfl⟩
  · exact ⟨_, rfl⟩

theorem after_false_of {L : Nat → Bool} {k : Nat} (honly : ∀ x, L x = true → x = k) :
    (fun c => if k = c then false else L c) = fun _ => false := by
  funext c
  split
  · rfl
  · rename_i h
    cases hc : L c with
    | false => rfl
    | true => exact absurd (honly c hc).symm h

/-- The buttons of a frame. -/
theorem sync_stage (A : Scroll.Arith R) {m : Mode} {d d3 : Dev R} {w : World} {L : Nat → Bool} {t : Nat} {keys : List KeyEv}
    (h : J m d w L) (hfired : Fired d.deb.deb t)
    (hd3 : d3.has = d.has ∧ d3.keyHw = applyKeyboard w.keyboard keys ∧ d3.lhWant = d.lhWant ∧ d3.lh = d.lh ∧
      d3.scWant = d.scWant ∧ d3.sc.onButton = d.sc.onButton ∧ d3.sc.button = d.sc.button ∧ d3.scLock = d.scLock)
    (hdeb : d3.deb = (buttonKeys keys).foldl (fun d k => Debounce.processKey d k.1 k.2) d.deb)
    (hheld : Held m d3 L) (wheel : Int × Int) (rel : Option (R × R))
    (hop : CarefulOp d.has w (.frame t keys wheel rel)) (hset : w.settled = true → ∀ c, L c = w.hand.phys c)
    (hmid : MidOk m w.hand.phys) (hmid' : MidOk m (Debounce.Spec.applyKeys w.hand.phys (buttonKeys keys))) :
    ∃ out d4 L4, syncButtons A d3 t = ⟨out, .ok d4⟩ ∧
      J m d4 (stepWorld w (.frame (R := R) t keys wheel rel)) L4 ∧
      ((buttonKeys keys).isEmpty = true → L4 = L) ∧
      (d4.lh = d.lh ∨ NoneHeld (stepWorld w (.frame (R := R) t keys wheel rel))) ∧ d4.has = d.has := by
  obtain ⟨hlen, hcodes, hlast⟩ := hop
  -- the debouncer's view
  have hstep := Debounce.step_inv (.frame t (buttonKeys keys)) (by
    intro t' k' he; cases he; exact hlen) h.deb
  have hsame : Debounce.step d.deb (.frame t (buttonKeys keys)) = Debounce.sync d3.deb t := by
    simp only [Debounce.step, Debounce.fire_fired hfired, List.nil_append]
    rw [hdeb]
  rw [hsame] at hstep
  obtain ⟨hv, ⟨hdinv, _⟩, hn⟩ := hstep
  have hphys' : ∀ c, (stepWorld w (.frame (R := R) t keys wheel rel)).hand.phys c = true →
      (0x110 ≤ c ∧ c < 0x120) ∧ d.has c = true := by
    intro c hc
    by_cases hch : Debounce.Spec.applyKeys w.hand.phys (buttonKeys keys) c = w.hand.phys c
    · refine h.phys c ?_
      rw [← hch]; exact hc
    · obtain ⟨h1, _⟩ := Debounce.applyKeys_ne _ _ _ hch
      obtain ⟨e, he, rfl⟩ := List.mem_map.mp h1
      obtain ⟨h1, h2, h3⟩ := hcodes e he
      exact ⟨⟨h1, h2⟩, h3⟩
  have hempty : (buttonKeys keys).isEmpty = true → (Debounce.sync d3.deb t).2 = [] := by
    intro he
    refine Debounce.sync_nochange t ?_
    have : buttonKeys keys = [] := by simpa using he
    rw [hdeb, this]
    show d.deb.hw = d.deb.last
    rw [h.deb.hw, h.deb.last]
  have hnone_sync : (∀ c, Debounce.Spec.applyKeys w.hand.phys (buttonKeys keys) c = w.hand.phys c) →
      (Debounce.sync d3.deb t).2 = [] := by
    intro he
    refine Debounce.sync_nochange t ?_
    have hf := Debounce.foldl_processKey (buttonKeys keys) d.deb
    simp only at hf
    rw [hdeb, hf.2.2.1, hf.2.1, h.deb.hw, h.deb.last]
    exact funext he
  have hsingle : w.settled = true → (∀ c, L c = w.hand.phys c) → ∀ c,
      (∀ x, Debounce.Spec.applyKeys w.hand.phys (buttonKeys keys) x ≠ w.hand.phys x ↔ x = c) →
      (Debounce.sync d3.deb t).2.length ≤ 1 := by
    intro _ hL c hch
    rw [hdeb]
    exact Debounce.sync_single h.deb hL hlen hch
  have hfine := notes_fine (m := m) hv
    (P := w.hand.phys) (Q := Debounce.Spec.applyKeys w.hand.phys (buttonKeys keys))
    (fun n hn1 => by
      rcases hn n hn1 with h | h
      · exact Or.inl h.2
      · exact Or.inr h.2.2)
    (fun c hc => (h.phys c hc).1) (fun c hc => (hphys' c hc).1) (held_rng h.held)
    (fun hm => ⟨hmid hm, hmid' hm, held_mid h.held hm⟩)
  have hn' : ∀ n ∈ (Debounce.sync d3.deb t).2, n.down = w.hand.phys n.code ∨
      n.down = (stepWorld w (.frame (R := R) t keys wheel rel)).hand.phys n.code := by
    intro n hn1
    rcases hn n hn1 with h | h
    · exact Or.inl h.2
    · exact Or.inr h.2.2
  replace hdinv : DInv (Debounce.sync d3.deb t).1 (stepWorld w (.frame (R := R) t keys wheel rel)).hand
    (after L ((Debounce.sync d3.deb t).2.map Debounce.Notify.edge)) := hdinv
  unfold syncButtons
  generalize hr : Debounce.sync d3.deb t = r at *
  obtain ⟨deb4, ns⟩ := r
  simp only at hv hdinv hn hempty hnone_sync hsingle hfine hn' ⊢
  have hheld4 : Held m { d3 with deb := deb4 } L :=
    held_upd hheld rfl rfl rfl rfl rfl ⟨rfl, rfl, rfl⟩ rfl (by intro hm; exact held_want (d := d3) hheld hm)
  have hfinish : ∀ out d1 d2, each (debounced A) ns { d3 with deb := deb4 } = ⟨out, .ok d2⟩ →
      Held m d1 (after L (ns.map Debounce.Notify.edge)) → SameCfg { d3 with deb := deb4 } d1 →
      (d2 = d1 ∨ ((∀ c, after L (ns.map Debounce.Notify.edge) c = false) ∧ d2 = callbacks d1)) →
      (d2.lh = d.lh ∨ NoneHeld (stepWorld w (.frame (R := R) t keys wheel rel))) →
      ∃ out d4 L4, each (debounced A) ns { d3 with deb := deb4 } = ⟨out, .ok d4⟩ ∧
        J m d4 (stepWorld w (.frame (R := R) t keys wheel rel)) L4 ∧
        ((buttonKeys keys).isEmpty = true → L4 = L) ∧
        (d4.lh = d.lh ∨ NoneHeld (stepWorld w (.frame (R := R) t keys wheel rel))) ∧ d4.has = d.has := by
    intro out d1 d2 he hh hs h2 hlh
    refine ⟨out, d2, after L (ns.map Debounce.Notify.edge), he, ?_, ?_, hlh, ?_⟩
    · exact j_of (d0 := { d3 with deb := deb4 }) h hd3 hs h2 hdinv hh hphys' rfl rfl
    · intro hem
      rw [hempty hem]; rfl
    · rcases h2 with h2 | ⟨_, h2⟩
      · rw [h2]; exact hs.has.trans hd3.1
      · rw [h2]; show (changeScroll (changeLeftHanded d1)).has = _
        rw [(changeScroll_fields _).1, (changeLeftHanded_fields _).1]; exact hs.has.trans hd3.1
  have hsteady_case : Steady { d3 with deb := deb4 } →
      ∃ out d4 L4, each (debounced A) ns { d3 with deb := deb4 } = ⟨out, .ok d4⟩ ∧
        J m d4 (stepWorld w (.frame (R := R) t keys wheel rel)) L4 ∧
        ((buttonKeys keys).isEmpty = true → L4 = L) ∧
        (d4.lh = d.lh ∨ NoneHeld (stepWorld w (.frame (R := R) t keys wheel rel))) ∧ d4.has = d.has := fun hst => by
    obtain ⟨out, d1, he, hh, hs⟩ := notes_steady A ns hheld4 hv hfine hst
    exact hfinish out d1 d1 he hh hs (Or.inl rfl) (Or.inl (hs.lh.trans hd3.2.2.2.1))
  rcases none_or_some (stepWorld w (.frame (R := R) t keys wheel rel)).hand.phys with hnone | hsome
  · by_cases hlh : d.lhWant = d.lh ∧ ScrollInForce d
    · refine hsteady_case (steady_of_force ?_ ?_)
      · show d3.lhWant = d3.lh
        rw [hd3.2.2.1, hd3.2.2.2.1]; exact hlh.1
      · unfold ScrollInForce
        show d3.scWant.onButton = d3.sc.onButton ∧ d3.scWant.button = d3.sc.button ∧ d3.scWant.lock = d3.scLock
        obtain ⟨_, _, _, _, a5, a6, a7, a8⟩ := hd3
        rw [a5, a6, a7, a8]; exact hlh.2
    · -- a change may be outstanding
      have hlate : w.lateLeft = true ∨ w.lateScroll = true := by
        by_cases h1 : d.lhWant = d.lh
        · exact Or.inr (h.scroll (fun h2 => hlh ⟨h1, h2⟩))
        · exact Or.inl (h.left h1)
      rcases hlast hlate hnone with hz | ⟨hs, huniq⟩
      · have : ns = [] := hnone_sync (fun c => by
          have h1 := hnone c
          have h2 := hz c
          show Debounce.Spec.applyKeys w.hand.phys (buttonKeys keys) c = _
          rw [h2]; exact h1)
        subst this
        exact hfinish [] _ _ rfl hheld4 (SameCfg.refl _) (Or.inl rfl) (Or.inr hnone)
      · have hL := hset hs
        rcases none_or_some w.hand.phys with hz | ⟨k, hk⟩
        · have : ns = [] := hnone_sync (fun c => by
            have h1 := hnone c
            have h2 := hz c
            show Debounce.Spec.applyKeys w.hand.phys (buttonKeys keys) c = _
            rw [h2]; exact h1)
          subst this
          exact hfinish [] _ _ rfl hheld4 (SameCfg.refl _) (Or.inl rfl) (Or.inr hnone)
        · have honly : ∀ x, L x = true → x = k := by
            intro x hx
            rw [hL] at hx
            exact huniq x k hx hk
          have hch : ∀ x, Debounce.Spec.applyKeys w.hand.phys (buttonKeys keys) x ≠ w.hand.phys x ↔ x = k := by
            intro x
            have h1 : Debounce.Spec.applyKeys w.hand.phys (buttonKeys keys) x = false := hnone x
            rw [h1]
            constructor
            · intro hne
              refine huniq x k ?_ hk
              cases hx : w.hand.phys x with
              | true => rfl
              | false => exact absurd hx.symm hne
            · rintro rfl
              rw [hk]; simp
          have hlen1 := hsingle hs hL k hch
          have hrel : ∀ n ∈ ns, n.code = k ∧ n.down = false := by
            intro n hn1
            -- the only notification flips what was held
            match ns, hlen1, hn1, hv with
            | [x], _, hn1, hv =>
              have hx : n = x := by simpa using hn1
              subst hx
              have hflip : L n.code = !n.down := hv.1
              have hdown : n.down = false := by
                rcases hn' n hn1 with h1 | h1
                · exfalso
                  rw [hL, ← h1] at hflip
                  cases hd : n.down <;> rw [hd] at hflip <;> cases hflip
                · rw [h1]; exact hnone _
              refine ⟨honly _ ?_, hdown⟩
              rw [hflip, hdown]; rfl
          obtain ⟨out, d1, d2, he, hh, hs2, h2⟩ := notes_last A (k := k) hheld4 hv hfine hrel honly
          exact hfinish out d1 d2 he hh hs2 h2 (Or.inr hnone)
  · refine hsteady_case (Or.inr ?_)
    refine (any_iff (p := (stepWorld w (.frame (R := R) t keys wheel rel)).hand.phys) ?_ ?_).mpr hsome
    · exact hdinv.hw
    · intro c hc
      show _ ∧ d3.has c = true
      rw [hd3.1]; exact hphys' c hc

end Libinput.Mouse
