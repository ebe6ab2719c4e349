import Verif.Mouse.Streams
set_option linter.unusedSimpArgs false
set_option linter.unusedVariables false
/-
A mouse without middle-button emulation and without on-button scrolling: what is reported is what is held.
-/
namespace Libinput.Mouse
open Libinput.Spec Libinput.Alt Libinput.Mouse.Spec
open Libinput.Buttons (Call Ev Stop Counts)
open Libinput.Debounce (DInv Fired)

variable {R : Type}

/-- Neither feature is on or asked for; `lw` is the left-handed setting asked for. -/
structure Plain (lw : Bool) (d : Dev R) : Prop where
  en : d.mb.enabled = false
  wen : d.mb.wantEnabled = false
  on : d.sc.onButton = false
  won : d.scWant.onButton = false
  lw : d.lhWant = lw

/-- `P` holds of the device afterwards, if there is one. -/
def Keeps (P : Dev R → Prop) (r : Res R) : Prop := ∀ d', r.next = .ok d' → P d'

theorem keeps_ret {P : Dev R → Prop} {d : Dev R} (h : P d) : Keeps P (ret d) := by
  intro d' hd
  simp only [ret, Except.ok.injEq] at hd
  subst hd; exact h

theorem keeps_ok {P : Dev R → Prop} {d : Dev R} {out : List (Out R)} (h : P d) : Keeps P ⟨out, .ok d⟩ := by
  intro d' hd
  simp only [Except.ok.injEq] at hd
  subst hd; exact h

theorem keeps_error {P : Dev R → Prop} {e : Stop} {out : List (Out R)} : Keeps P ⟨out, .error e⟩ := by
  intro d' hd; simp at hd

theorem keeps_bind {P Q : Dev R → Prop} {r : Res R} {f : Dev R → Res R} (h : Keeps Q r)
    (hf : ∀ d, Q d → Keeps P (f d)) : Keeps P (r.bind f) := by
  intro d' hd
  unfold Res.bind at hd
  cases hr : r.next with
  | error e => rw [hr] at hd; simp at hd
  | ok d1 => rw [hr] at hd; exact hf d1 (h d1 hr) d' hd

theorem keeps_each {α : Type} {P : Dev R → Prop} {f : Dev R → α → Res R} (l : List α)
    (hf : ∀ d, P d → ∀ a ∈ l, Keeps P (f d a)) : ∀ d, P d → Keeps P (each f l d) := by
  induction l with
  | nil => intro d h; exact keeps_ret h
  | cons a l ih =>
    intro d h
    exact keeps_bind (hf d h a (by simp)) (fun d1 h1 => ih (fun d hd x hx => hf d hd x (by simp [hx])) d1 h1)

theorem plain_left {lw : Bool} {d : Dev R} (h : Plain lw d) : Plain lw (changeLeftHanded d) := by
  have hf := changeLeftHanded_fields d
  exact ⟨by rw [hf.2.2.2.2.2.2.2]; exact h.en, by rw [hf.2.2.2.2.2.2.2]; exact h.wen,
    by rw [hf.2.2.2.2.1]; exact h.on, by rw [hf.2.2.2.1]; exact h.won, by rw [hf.2.2.1]; exact h.lw⟩

theorem plain_scroll {lw : Bool} {d : Dev R} (h : Plain lw d) : Plain lw (changeScroll d) := by
  have hf := changeScroll_fields d
  refine ⟨by rw [hf.2.2.2.2.2.2]; exact h.en, by rw [hf.2.2.2.2.2.2]; exact h.wen, ?_,
    by rw [hf.2.2.2.2.1]; exact h.won, by rw [hf.2.2.1]; exact h.lw⟩
  unfold changeScroll
  split
  · exact h.on
  · split
    · exact h.on
    · have := h.won
      cases hl : d.scWant.lock <;> simp [ButtonScroll.setLockEnabled, hl, this]

theorem plain_callbacks {lw : Bool} {d : Dev R} (h : Plain lw d) : Plain lw (callbacks d) :=
  plain_scroll (plain_left h)

theorem plain_upd {lw : Bool} {d : Dev R} (h : Plain lw d) (deb : Debounce.Dev) (k : Nat → Bool) (i : Bool) (cnt : Counts) :
    Plain lw { d with deb := deb, keyHw := k, inhibited := i, cnt := cnt } :=
  ⟨h.en, h.wen, h.on, h.won, h.lw⟩

/-- One debounced notification on a plain device. -/
theorem plain_debounced (A : Scroll.Arith R) {lw : Bool} {d : Dev R} (h : Plain lw d) (n : Debounce.Notify) :
    Keeps (fun d2 => ∃ d1, Plain lw d1 ∧ d1.deb = d.deb ∧ d1.has = d.has ∧ 
      ((d2 = d1 ∧ 0 < d1.cnt (toLeftHanded d.lh n.code)) ∨ d2 = callbacks d1)) (debounced A d n) := by
  unfold debounced physicalButton
  generalize toLeftHanded d.lh n.code = c
  simp only
  generalize hi : (if c = BTN_MIDDLE then { d with inhibited := n.down } else d) = d0
  have h0 : Plain lw d0 ∧ d0.deb = d.deb ∧ d0.has = d.has := by
    subst hi; split
    · exact ⟨⟨h.en, h.wen, h.on, h.won, h.lw⟩, rfl, rfl⟩
    · exact ⟨h, rfl, rfl⟩
  obtain ⟨h0, e1, e2⟩ := h0
  have hmb : MiddleButton.physicalButton d0.mb n.time c n.down = (d0.mb, [⟨n.time, c, n.down⟩]) := by
    simp [MiddleButton.physicalButton, MiddleButton.filterButton, h0.en]
  rw [hmb]
  simp only [each_one]
  have hself : ({ d0 with mb := d0.mb } : Dev R) = d0 := rfl
  rw [hself]
  unfold notifyButton ButtonScroll.notifyButton
  simp only [h0.on, Bool.false_and, Bool.false_eq_true, if_false, each_one, deliver]
  have hself : ({ d0 with sc := d0.sc } : Dev R) = d0 := rfl
  rw [hself]
  unfold postButton
  cases hp : Buttons.post d0.cnt n.time c n.down with
  | error e => exact keeps_error
  | ok r =>
    obtain ⟨cnt', evs⟩ := r
    obtain ⟨_, hz, hv⟩ := post_pointwise hp
    simp only
    apply keeps_ok
    refine ⟨{ d0 with cnt := cnt' }, ⟨h0.en, h0.wen, h0.on, h0.won, h0.lw⟩, e1, e2, ?_⟩
    by_cases hc : evs ≠ [] ∧ n.down = false
    · rw [if_pos hc]; exact Or.inr rfl
    · rw [if_neg hc]
      refine Or.inl ⟨rfl, ?_⟩
      show 0 < cnt' c
      rw [hv]
      cases hd : n.down with
      | true => simp
      | false =>
        rw [hd] at hz hc hp hv
        simp only [if_true, Bool.false_eq_true, if_false] at hz hv ⊢
        -- the release did not reach the caller, so the count stays above zero
        have hne : evs = [] := by
          cases evs with
          | nil => rfl
          | cons e es => exact absurd ⟨by simp, rfl⟩ hc
        subst hne
        have hed := Buttons.post_ok_edges hp
        obtain ⟨_, he2, _⟩ := hed
        have := congrFun he2 c
        simp only [List.map_nil, after, down, hv, if_true] at this
        simp at this
        omega

theorem plain_debounced_keeps (A : Scroll.Arith R) {lw : Bool} {d : Dev R} (h : Plain lw d) (n : Debounce.Notify) :
    Keeps (fun d2 => Plain lw d2 ∧ d2.deb = d.deb ∧ d2.has = d.has) (debounced A d n) := by
  intro d2 hd
  obtain ⟨d1, h1, e1, e2, h2⟩ := plain_debounced A h n d2 hd
  rcases h2 with ⟨rfl, _⟩ | rfl
  · exact ⟨h1, e1, e2⟩
  · refine ⟨plain_callbacks h1, ?_, ?_⟩
    · show (changeScroll (changeLeftHanded d1)).deb = _
      rw [changeScroll_deb, changeLeftHanded_deb, e1]
    · show (changeScroll (changeLeftHanded d1)).has = _
      rw [(changeScroll_fields _).1, (changeLeftHanded_fields _).1, e2]

theorem any_of {d d' : Dev R} (h1 : d'.deb = d.deb) (h2 : d'.has = d.has) : anyButtonDown d' = anyButtonDown d := by
  unfold anyButtonDown; rw [h1, h2]

/-- If after some notifications nothing is reported and no button is held, no left-handed change is pending. -/
theorem plain_notes (A : Scroll.Arith R) {lw : Bool} {d d2 : Dev R} {ns : List Debounce.Notify} {out : List (Out R)}
    (h : Plain lw d) (hns : ns ≠ []) (he : each (debounced A) ns d = ⟨out, .ok d2⟩)
    (hb : ∀ n ∈ ns, getKeyType n.code = .button) (hz : ∀ c, getKeyType c = .button → d2.cnt c = 0)
    (hany : ¬ anyButtonDown d = true) : d2.lhWant = d2.lh := by
  obtain ⟨l, n, rfl⟩ : ∃ l n, ns = l ++ [n] := ⟨ns.dropLast, ns.getLast hns, (List.dropLast_concat_getLast hns).symm⟩
  rw [each_append] at he
  have hk := keeps_each (P := fun x => Plain lw x ∧ x.deb = d.deb ∧ x.has = d.has) (f := debounced A) l
    (fun x hx a _ d2 hd2 => by
      obtain ⟨a1, a2, a3⟩ := plain_debounced_keeps A hx.1 a d2 hd2
      exact ⟨a1, a2.trans hx.2.1, a3.trans hx.2.2⟩) d ⟨h, rfl, rfl⟩
  unfold Res.bind at he
  cases hr : (each (debounced A) l d).next with
  | error e => rw [hr] at he; simp at he
  | ok d1 =>
    obtain ⟨p1, q1, q2⟩ := hk d1 hr
    rw [hr] at he
    simp only [Res.mk.injEq, each_one] at he
    obtain ⟨dd, pd, r1, r2, r3⟩ := plain_debounced A p1 n d2 he.2
    rcases r3 with ⟨rfl, hpos⟩ | rfl
    · have := hz _ (toLeftHanded_button d1.lh (hb n (by simp)))
      omega
    · have hany' : ¬ anyButtonDown dd = true := by
        rw [any_of (r1.trans q1) (r2.trans q2)]; exact hany
      have h1 := changeLeftHanded_free hany'
      have hf := changeScroll_fields (changeLeftHanded dd)
      show (changeScroll (changeLeftHanded dd)).lhWant = (changeScroll (changeLeftHanded dd)).lh
      rw [hf.2.2.1, hf.2.2.2.1]; exact h1

/-- Without the two features the use counts are the debounced buttons. -/
theorem plain_count {lw : Bool} {m : Mode} {d : Dev R} {L : Nat → Bool} (hp : Plain lw d) (h : Held m d L) (c : Nat)
    (hc : getKeyType c = .button) : d.cnt c = (L (toLeftHanded d.lh c)).toNat := by
  obtain ⟨mw, me, vc, hk⟩ := h
  have heff : me = false := by
    have := hk.mb.eff
    simp only at this
    rw [← this]; exact hp.en
  obtain ⟨_, _, _, hcnt⟩ := hk.mb.off heff
  rw [hk.core.cnt c, hcnt]
  simp [hc, hp.on]

theorem plain_unique {lw : Bool} {m m' : Mode} {d : Dev R} {L L' : Nat → Bool} (hp : Plain lw d) (h : Held m d L) (h' : Held m' d L') :
    L = L' := by
  funext c
  have hr := held_rng h
  have hr' := held_rng h'
  by_cases hc : 0x110 ≤ c ∧ c < 0x120
  · have hb := mouse_button (toLeftHanded_range d.lh hc)
    have h1 := plain_count hp h _ hb
    have h2 := plain_count hp h' _ hb
    rw [toLeftHanded_invol] at h1 h2
    rw [h1] at h2
    cases h3 : L c <;> cases h4 : L' c <;> simp [h3, h4] at h2 <;> rfl
  · have a : L c = false := by
      cases h3 : L c with
      | false => rfl
      | true => exact absurd (hr c h3) hc
    have b : L' c = false := by
      cases h3 : L' c with
      | false => rfl
      | true => exact absurd (hr' c h3) hc
    rw [a, b]

theorem plain_zero {lw : Bool} {m : Mode} {d : Dev R} (hp : Plain lw d) (h : Held m d (fun _ => false)) :
    ∀ c, getKeyType c = .button → d.cnt c = 0 := by
  intro c hc; rw [plain_count hp h c hc]; rfl

/-- The left-handed setting asked for, after one more operation. -/
def wantLeft (lw : Bool) : Op R → Bool
  | .setLeftHanded on => on
  | _ => lw

theorem plain_notify (A : Scroll.Arith R) {lw : Bool} {d : Dev R} (h : Plain lw d) (c : Call) :
    Keeps (Plain lw) (notifyButton A d c) := by
  unfold notifyButton ButtonScroll.notifyButton
  simp only [h.on, Bool.false_and, Bool.false_eq_true, if_false, each_one, deliver]
  have hself : ({ d with sc := d.sc } : Dev R) = d := rfl
  rw [hself]
  unfold postButton
  cases hp : Buttons.post d.cnt c.time c.code c.pressed with
  | error e => exact keeps_error
  | ok r =>
    simp only
    apply keeps_ok
    have h1 : Plain lw { d with cnt := r.1 } := ⟨h.en, h.wen, h.on, h.won, h.lw⟩
    split
    · exact plain_callbacks h1
    · exact h1

theorem plain_key {lw : Bool} {d : Dev R} (h : Plain lw d) (t c : Nat) (p : Bool) :
    Keeps (Plain lw) (notifyKey d t c p) := by
  unfold notifyKey
  cases hp : Buttons.post d.cnt t c p with
  | error e => exact keeps_error
  | ok r => exact keeps_ok ⟨h.en, h.wen, h.on, h.won, h.lw⟩

theorem plain_processKey {lw : Bool} {d : Dev R} (h : Plain lw d) (t : Nat) (e : KeyEv) :
    Keeps (Plain lw) (processKey t d e) := by
  unfold processKey
  split
  · exact keeps_ret h
  · split
    · exact keeps_ret h
    · exact keeps_ret ⟨h.en, h.wen, h.on, h.won, h.lw⟩
    · simp only
      split
      · exact keeps_ret h
      · exact plain_key (d := { d with keyHw := fun c => if c = e.code then e.value != 0 else d.keyHw c })
          ⟨h.en, h.wen, h.on, h.won, h.lw⟩ _ _ _

theorem plain_notes_keeps (A : Scroll.Arith R) {lw : Bool} (ns : List Debounce.Notify) (d : Dev R) (h : Plain lw d) :
    Keeps (Plain lw) (each (debounced A) ns d) :=
  keeps_each ns (fun x hx a _ d2 hd2 => (plain_debounced_keeps A hx a d2 hd2).1) d h

theorem plain_release (A : Scroll.Arith R) {lw : Bool} (t : Nat) (codes : List Nat) : ∀ (d : Dev R), Plain lw d →
    Keeps (Plain lw) (releasePressed A t codes d) := by
  induction codes with
  | nil => intro d h; exact keeps_ret h
  | cons c codes ih =>
    intro d h
    unfold releasePressed
    split
    · exact ih d h
    · refine keeps_bind (Q := Plain lw) ?_ ?_
      · split
        · exact keeps_ret h
        · exact plain_key h _ _ _
        · exact plain_notify A h _
      · intro d1 h1
        split
        · exact keeps_ret h1
        · exact ih d1 h1

theorem plain_step (A : Scroll.Arith R) {lw : Bool} {d : Dev R} (h : Plain lw d) (op : Op R)
    (h1 : op ≠ .setMiddle true) (h2 : op ≠ .setScrollMethod true) :
    Keeps (Plain (wantLeft lw op)) (step A d op) := by
  have hfire : ∀ (d : Dev R) now, Plain lw d → Keeps (Plain lw) (debounceTimers A d now) := by
    intro d now h
    unfold debounceTimers
    exact plain_notes_keeps A _ _ ⟨h.en, h.wen, h.on, h.won, h.lw⟩
  cases op with
  | frame t keys wheel rel =>
    refine keeps_bind (hfire d t h) fun d h => ?_
    refine keeps_bind (keeps_each keys (fun x hx a _ => plain_processKey hx t a) d h) fun d h => ?_
    refine keeps_bind (Q := Plain lw) ?_ fun d h => ?_
    · obtain ⟨out, sc, e, c1, _, _⟩ := motion_stage A d t rel
      rw [e]
      exact keeps_ok ⟨h.en, h.wen, c1.trans h.on, h.won, h.lw⟩
    refine keeps_bind (Q := Plain lw) ?_ fun d h => ?_
    · obtain ⟨out, e⟩ := wheel_stage d t wheel.1 wheel.2
      rw [e]
      exact keeps_ok h
    · unfold syncButtons
      exact plain_notes_keeps A _ _ ⟨h.en, h.wen, h.on, h.won, h.lw⟩
  | debounceTimers now => exact hfire d now h
  | middleTimer now =>
    unfold step middleTimer
    have hmb : (MiddleButton.fire d.mb now).1.enabled = d.mb.enabled ∧
        (MiddleButton.fire d.mb now).1.wantEnabled = d.mb.wantEnabled := by
      unfold MiddleButton.fire
      split
      · exact ⟨rfl, rfl⟩
      · split
        · cases hs : d.mb.st <;>
            simp [MiddleButton.handle, MiddleButton.setSt, MiddleButton.err, MiddleButton.idleH, MiddleButton.ldownH,
              MiddleButton.rdownH, MiddleButton.middleH, MiddleButton.lupPendingH, MiddleButton.rupPendingH,
              MiddleButton.passthroughH, MiddleButton.ignoreLRH, MiddleButton.ignoreLH, MiddleButton.ignoreRH, hs]
        · exact ⟨rfl, rfl⟩
    exact keeps_each _ (fun x hx a _ => plain_notify A hx a) _ ⟨hmb.1.trans h.en, hmb.2.trans h.wen, h.on, h.won, h.lw⟩
  | scrollTimer now =>
    have hf : (ButtonScroll.fire d.sc now).onButton = d.sc.onButton := by
      unfold ButtonScroll.fire; split <;> (try split) <;> (try split) <;> rfl
    exact keeps_ret ⟨h.en, h.wen, hf.trans h.on, h.won, h.lw⟩
  | setLeftHanded on => exact keeps_ret (plain_left ⟨h.en, h.wen, h.on, h.won, rfl⟩)
  | setMiddle on =>
    have ho : on = false := by cases on with
      | false => rfl
      | true => exact absurd rfl h1
    subst ho
    refine keeps_ret ⟨?_, ?_, h.on, h.won, h.lw⟩ <;>
      simp [MiddleButton.setConfig, MiddleButton.applyConfig, h.en]
  | setScrollMethod on =>
    have ho : on = false := by cases on with
      | false => rfl
      | true => exact absurd rfl h2
    subst ho
    exact keeps_ret (plain_scroll ⟨h.en, h.wen, h.on, rfl, h.lw⟩)
  | setScrollButton b => exact keeps_ret (plain_scroll ⟨h.en, h.wen, h.on, h.won, h.lw⟩)
  | setScrollLock on => exact keeps_ret (plain_scroll ⟨h.en, h.wen, h.on, h.won, h.lw⟩)
  | suspend t =>
    unfold step suspend
    refine keeps_bind (plain_release A t _ d h) fun d h => ?_
    exact keeps_ret ⟨h.en, h.wen, h.on, h.won, h.lw⟩

/-- With nothing held and nothing about to be reported, no left-handed change is pending. -/
def Quiet (d : Dev R) (w : World) (L : Nat → Bool) : Prop :=
  (∀ c, L c = false) → NoneHeld w → d.lhWant = d.lh

theorem quiet_fire (A : Scroll.Arith R) {lw : Bool} {m : Mode} {d d1 : Dev R} {w : World} {L L1 : Nat → Bool} {now : Nat}
    {out : List (Out R)} (hp : Plain lw d) (h : J m d w L) (hmid : MidOk m w.hand.phys) (hq : Quiet d w L)
    (he : debounceTimers A d now = ⟨out, .ok d1⟩) (hp1 : Plain lw d1) (h1 : Held m d1 L1) : Quiet d1 w L1 := by
  intro hz hn
  have hL1 : L1 = fun _ => false := funext hz
  subst hL1
  obtain ⟨hv, _, hnn⟩ := Debounce.fire_inv now h.deb.inv
  unfold debounceTimers at he
  generalize hr : Debounce.fire d.deb.deb now = r at *
  obtain ⟨s1, ns⟩ := r
  simp only at hv hnn he
  have hp0 : Plain lw { d with deb := { d.deb with deb := s1 } } := ⟨hp.en, hp.wen, hp.on, hp.won, hp.lw⟩
  have hfine := notes_fine (m := m) (Q := w.hand.phys) hv (fun n hn1 => Or.inl (hnn n hn1).2.2)
    (fun c hc => (h.phys c hc).1) (fun c hc => (h.phys c hc).1) (held_rng h.held)
    (fun hm => ⟨hmid hm, hmid hm, held_mid h.held hm⟩)
  by_cases hns : ns = []
  · subst hns
    simp only [each, ret, Res.mk.injEq, Except.ok.injEq] at he
    obtain ⟨_, rfl⟩ := he
    have hheld0 : Held m { d with deb := { d.deb with deb := s1 } } L :=
      held_upd h.held rfl rfl rfl rfl rfl ⟨rfl, rfl, rfl⟩ rfl (by intro hm; exact held_want (d := d) h.held hm)
    have hL := plain_unique hp0 hheld0 h1
    exact hq (fun c => by rw [hL]) hn
  · refine plain_notes A hp0 hns he (fun n hn => mouse_button (hfine n hn).1) (plain_zero hp1 h1) ?_
    rw [any_iff (d := { d with deb := { d.deb with deb := s1 } }) h.deb.hw h.phys]
    rintro ⟨c, hc⟩
    rw [hn c] at hc; cases hc

theorem quiet_frame (A : Scroll.Arith R) {lw : Bool} {m : Mode} {has : Nat → Bool} {d d' : Dev R} {w : World} {L L' : Nat → Bool}
    {t : Nat} {keys : List KeyEv} {wheel : Int × Int} {rel : Option (R × R)} {out : List (Out R)}
    (hp : Plain lw d) (h : I m has d w L) (hq : Quiet d w L)
    (hc : CarefulOp has w (.frame t keys wheel rel))
    (he : step A d (.frame t keys wheel rel) = ⟨out, .ok d'⟩) (hp' : Plain lw d')
    (h' : I m has d' (stepWorld w (.frame t keys wheel rel)) L') :
    Quiet d' (stepWorld w (.frame (R := R) t keys wheel rel)) L' := by
  obtain ⟨o1, d1, L1, e1, j1, f1, s1, l1, a1⟩ := fire_stage A t h.j h.mid
  have hp1 : Plain lw d1 := (plain_step A hp (.debounceTimers t) (by simp) (by simp)) d1 (by simp only [step, e1])
  have hq1 := quiet_fire A hp h.j h.mid hq e1 hp1 j1.held
  obtain ⟨o2, cnt', e2, h2⟩ := held_keys t keys j1.held
  generalize hd2 : ({ d1 with
        deb := (buttonKeys keys).foldl (fun d k => Debounce.processKey d k.1 k.2) d1.deb,
        keyHw := applyKeyboard d1.keyHw keys, cnt := cnt' } : Dev R) = d2 at e2 h2
  have hp2 : Plain lw d2 := by subst hd2; exact ⟨hp1.en, hp1.wen, hp1.on, hp1.won, hp1.lw⟩
  obtain ⟨o3, sc, e3, c1, c2, c3⟩ := motion_stage A d2 t rel
  have h3 : Held m { d2 with sc := sc } L1 :=
    held_upd h2 rfl rfl rfl rfl rfl ⟨c1, c2, c3⟩ rfl (by intro hm; exact held_want (d := d2) h2 hm)
  have hp3 : Plain lw { d2 with sc := sc } := ⟨hp2.en, hp2.wen, c1.trans hp2.on, hp2.won, hp2.lw⟩
  obtain ⟨o4, e4⟩ := wheel_stage { d2 with sc := sc } t wheel.1 wheel.2
  have e5 : (syncButtons A { d2 with sc := sc } t).next = .ok d' := by
    have : (step A d (.frame t keys wheel rel)).next = .ok d' := by rw [he]
    simpa only [step, e1, Res.bind, e2, e3, e4] using this
  intro hz hn
  have hL' : L' = fun _ => false := funext hz
  subst hL'
  have hsame : ({ d2 with sc := sc } : Dev R).lhWant = d1.lhWant ∧ ({ d2 with sc := sc } : Dev R).lh = d1.lh := by
    subst hd2; exact ⟨rfl, rfl⟩
  have hdeb2 : ({ d2 with sc := sc } : Dev R).deb = (buttonKeys keys).foldl (fun d k => Debounce.processKey d k.1 k.2) d1.deb := by
    subst hd2; rfl
  have hhas : ({ d2 with sc := sc } : Dev R).has = d1.has := by subst hd2; rfl
  generalize ({ d2 with sc := sc } : Dev R) = d3 at *
  -- the debouncer
  have hstep := Debounce.step_inv (.frame t (buttonKeys keys)) (by
    intro t' k' he; cases he; exact hc.1) j1.deb
  have hsd : Debounce.step d1.deb (.frame t (buttonKeys keys)) = Debounce.sync d3.deb t := by
    simp only [Debounce.step, Debounce.fire_fired f1, List.nil_append]
    rw [hdeb2]
  rw [hsd] at hstep
  obtain ⟨hv, ⟨hdinv, _⟩, hnn⟩ := hstep
  unfold syncButtons at e5
  generalize hr : Debounce.sync d3.deb t = r at *
  obtain ⟨s5, ns⟩ := r
  simp only at hv hdinv hnn e5
  have hpx : Plain lw { d3 with deb := s5 } := ⟨hp3.en, hp3.wen, hp3.on, hp3.won, hp3.lw⟩
  by_cases hns : ns = []
  · subst hns
    simp only [each, ret, Except.ok.injEq] at e5
    subst e5
    have hheld0 : Held m { d3 with deb := s5 } L1 :=
      held_upd h3 rfl rfl rfl rfl rfl ⟨rfl, rfl, rfl⟩ rfl (by intro hm; exact held_want (d := d3) h3 hm)
    have hL := plain_unique hpx hheld0 h'.j.held
    show d3.lhWant = d3.lh
    rw [hsame.1, hsame.2]
    rcases none_or_some w.hand.phys with hnone | ⟨b, hb⟩
    · exact hq1 (fun c => by rw [hL]) hnone
    · by_cases hw : d1.lhWant = d1.lh
      · exact hw
      · rcases hc.2.2 (Or.inl (j1.left hw)) hn with hx | ⟨hx, _⟩
        · rw [hx b] at hb; cases hb
        · have := s1 (Or.inl (h.set hx)) b
          rw [hL, hb] at this; cases this
  · obtain ⟨out5, hout⟩ : ∃ o, each (debounced A) ns { d3 with deb := s5 } = ⟨o, .ok d'⟩ :=
      ⟨_, by rw [← e5]⟩
    have hfine : ∀ n ∈ ns, getKeyType n.code = .button := by
      intro n hn1
      have hok := hnn n hn1
      by_cases hph : w.hand.phys n.code = true
      · exact mouse_button (h.j.phys _ hph).1
      · rcases hok with ⟨_, hdn⟩ | ⟨hch, _⟩
        · -- a release of something that was reported down
          have hin : (0x110 ≤ n.code ∧ n.code < 0x120) := by
            have := notes_fine (m := .noLock) (L := L1) (P := w.hand.phys)
              (Q := Debounce.Spec.applyKeys w.hand.phys (buttonKeys keys)) (ns := ns) hv
              (fun n hn1 => by
                rcases hnn n hn1 with ⟨_, h⟩ | ⟨_, _, h⟩
                · exact Or.inl h
                · exact Or.inr h)
              (fun c hc => (h.j.phys c hc).1) (fun c hcc => by
                by_cases hch : Debounce.Spec.applyKeys w.hand.phys (buttonKeys keys) c = w.hand.phys c
                · exact (h.j.phys c (by rw [← hch]; exact hcc)).1
                · obtain ⟨h1, _⟩ := Debounce.applyKeys_ne _ _ _ hch
                  obtain ⟨e, he, rfl⟩ := List.mem_map.mp h1
                  obtain ⟨h1, h2, h3⟩ := hc.2.1 e he
                  exact ⟨h1, h2⟩) (held_rng h3) (by intro hm; cases hm)
            exact (this n hn1).1
          exact mouse_button hin
        · obtain ⟨h1, _⟩ := Debounce.applyKeys_ne _ _ _ hch
          obtain ⟨e, he, h2⟩ := List.mem_map.mp h1
          obtain ⟨h3, h4, h5⟩ := hc.2.1 e he
          rw [← h2]
          exact mouse_button ⟨h3, h4⟩
    refine plain_notes A hpx hns hout hfine (plain_zero hp' h'.j.held) ?_
    rw [any_iff (d := { d3 with deb := s5 }) (p := (stepWorld w (.frame (R := R) t keys wheel rel)).hand.phys) hdinv.hw ?_]
    · rintro ⟨c, hcc⟩
      rw [hn c] at hcc; cases hcc
    · intro c hcc
      rw [hn c] at hcc; cases hcc

end Libinput.Mouse
