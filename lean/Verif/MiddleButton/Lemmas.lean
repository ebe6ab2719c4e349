import Verif.MiddleButton.Spec
import Verif.Buttons.Lemmas
set_option linter.unusedSimpArgs false
namespace Libinput.MiddleButton
open Libinput.Buttons (Call Counts exec)
open Libinput.MiddleButton.Spec

/-- What each state knows about the physical buttons. -/
def Phys (st : MSt) (p : Nat → Bool) : Prop :=
  match st with
  | .idle => p BTN_LEFT = false ∧ p BTN_RIGHT = false
  | .leftDown => p BTN_LEFT = true ∧ p BTN_RIGHT = false
  | .rightDown => p BTN_LEFT = false ∧ p BTN_RIGHT = true
  | .middle => p BTN_LEFT = true ∧ p BTN_RIGHT = true
  | .leftUpPending => p BTN_LEFT = true ∧ p BTN_RIGHT = false
  | .rightUpPending => p BTN_LEFT = false ∧ p BTN_RIGHT = true
  | .ignoreLR => p BTN_LEFT = true ∧ p BTN_RIGHT = true
  | .ignoreL => p BTN_LEFT = true
  | .ignoreR => p BTN_RIGHT = true
  | .passthrough => True

/-- Is the physical left (right) state passed on in this state? -/
def passL : MSt → Bool
  | .passthrough | .ignoreR => true
  | _ => false
def passR : MSt → Bool
  | .passthrough | .ignoreL => true
  | _ => false

/-- The use counts the client-facing gate has in this state. -/
def expected (st : MSt) (p : Nat → Bool) : Counts := fun b =>
  if b = BTN_LEFT then (if passL st then (p b).toNat else 0)
  else if b = BTN_RIGHT then (if passR st then (p b).toNat else 0)
  else if b = BTN_MIDDLE then (p b).toNat + (if st = .middle then 1 else 0)
  else (p b).toNat

def TimerOk (s : State) : Prop :=
  match s.st with
  | .leftDown | .rightDown => s.timer = some (s.firstTime + 50000)
  | _ => s.timer = none

structure Inv (s : State) (w : World) (cnt : Counts) : Prop where
  wnt : s.wantEnabled = w.want
  eff : s.enabled = w.eff
  errs : s.errors = 0
  tmr : TimerOk s
  rng : ∀ b, w.held b = true → 0x110 ≤ b ∧ b < 0x130
  on : w.eff = true → s.mask = w.held ∧ Phys s.st w.held ∧ cnt = expected s.st w.held ∧
        (s.st = .passthrough → noneHeld w.held = false)
  off : w.eff = false → w.want = false ∧ s.mask = (fun _ => false) ∧ s.st = .idle ∧
        cnt = fun b => (w.held b).toNat
  rest : noneHeld w.held = true → w.eff = w.want

theorem noneHeld_iff {held : Nat → Bool} (h : ∀ b, held b = true → 0x110 ≤ b ∧ b < 0x130) :
    noneHeld held = true ↔ ∀ b, held b = false := by
  simp only [noneHeld, List.all_eq_true, List.mem_range, Bool.not_eq_true']
  constructor
  · intro hz b
    cases hb : held b with
    | false => rfl
    | true =>
      obtain ⟨h1, h2⟩ := h b hb
      have := hz (b - 0x110) (by omega)
      rw [show 0x110 + (b - 0x110) = b by omega] at this
      rw [this] at hb; cases hb
  · intro hz i _; exact hz _

theorem maskEmpty_eq (m : Nat → Bool) : maskEmpty m = noneHeld m := rfl

theorem noneHeld_false_of {p : Nat → Bool} {b : Nat} (h1 : 0x110 ≤ b) (h2 : b < 0x130) (h : p b = true) :
    noneHeld p = false := by
  rw [Bool.eq_false_iff]
  intro hz
  simp only [noneHeld, List.all_eq_true, List.mem_range, Bool.not_eq_true'] at hz
  have := hz (b - 0x110) (by omega)
  rw [show 0x110 + (b - 0x110) = b by omega] at this
  rw [this] at h; cases h

/-- Updating the physical state of one button. -/
def upd (p : Nat → Bool) (c : Nat) (d : Bool) : Nat → Bool := fun b => if b = c then d else p b

theorem exec_nil' {cnt cnt' : Counts} (h : ∀ b, cnt b = cnt' b) : exec cnt [] = some cnt' := by
  simp only [exec]; rw [funext h]

theorem exec_one_press {cnt cnt' : Counts} {t c : Nat} (hc : c < 0x130) (h1 : cnt c < 255)
    (h : ∀ b, (if b = c then cnt c + 1 else cnt b) = cnt' b) : exec cnt [⟨t, c, true⟩] = some cnt' := by
  rw [Buttons.exec_press (by simp only [Buttons.KEY_CNT]; omega) h1]
  exact exec_nil' h

theorem exec_one_release {cnt cnt' : Counts} {t c : Nat} (hc : c < 0x130) (h1 : 0 < cnt c)
    (h : ∀ b, (if b = c then cnt c - 1 else cnt b) = cnt' b) : exec cnt [⟨t, c, false⟩] = some cnt' := by
  rw [Buttons.exec_release (by simp only [Buttons.KEY_CNT]; omega) h1]
  exact exec_nil' h

/-- A list of calls changes the counts pointwise; used to split two calls. -/
theorem exec_cons {cnt cnt1 cnt' : Counts} {c : Call} {cs : List Call}
    (h1 : exec cnt [c] = some cnt1) (h2 : exec cnt1 cs = some cnt') : exec cnt (c :: cs) = some cnt' := by
  rw [show c :: cs = [c] ++ cs from rfl, Buttons.exec_append, h1]; exact h2

macro "codes" : tactic =>
  `(tactic| simp only [BTN_LEFT, BTN_RIGHT, BTN_MIDDLE] at *)

macro "cnt_eq" : tactic =>
  `(tactic| (intro b
             simp only [expected, passL, passR, upd, BTN_LEFT, BTN_RIGHT, BTN_MIDDLE] at *
             by_cases h1 : b = 272
             · subst h1; simp_all
             · by_cases h2 : b = 273
               · subst h2; simp_all
               · by_cases h3 : b = 274
                 · subst h3; simp_all
                 · simp_all))

macro "side" : tactic =>
  `(tactic| (simp only [expected, passL, passR, upd, BTN_LEFT, BTN_RIGHT, BTN_MIDDLE] at *
             simp_all; done))

theorem expected_lt (st : MSt) (p : Nat → Bool) (b : Nat) : expected st p b < 255 := by
  simp only [expected]
  have := Bool.toNat_le (p b)
  split
  · split <;> omega
  · split
    · split <;> omega
    · split
      · split <;> omega
      · omega

/-- The event handler followed by passing the event on if it was not swallowed: counts follow the table. -/
theorem handle_left (s : State) (p : Nat → Bool) (t : Nat) (d : Bool)
    (hp : p BTN_LEFT = !d) (hph : Phys s.st p) (ht : TimerOk s) :
    let r := handle s t (eventOf BTN_LEFT d)
    exec (expected s.st p) (r.2.1 ++ if r.2.2 then [] else [⟨t, BTN_LEFT, d⟩])
      = some (expected r.1.st (upd p BTN_LEFT d)) ∧
    Phys r.1.st (upd p BTN_LEFT d) ∧ TimerOk r.1 ∧ r.1.errors = s.errors ∧ r.1.mask = s.mask ∧
    r.1.enabled = s.enabled ∧ r.1.wantEnabled = s.wantEnabled := by
  have hne : BTN_LEFT ≠ BTN_RIGHT := by decide
  rcases s with ⟨en, want, st, tm, mask, ft, er⟩
  cases st <;> cases d <;> simp only [Phys, TimerOk, Bool.not_true, Bool.not_false] at hph ht hp <;>
    (try (simp [hp] at hph; done)) <;>
    refine ⟨?_, ?_, ?_, ?_, ?_, ?_, ?_⟩ <;>
    (try (simp [handle, eventOf, idleH, ldownH, rdownH, middleH, lupPendingH, rupPendingH, passthroughH,
      ignoreLRH, ignoreLH, ignoreRH, setSt, err, Phys, upd, TimerOk, hph, ht, hne, hne.symm]; done)) <;>
    simp only [handle, eventOf, idleH, ldownH, rdownH, middleH, lupPendingH, rupPendingH, passthroughH,
      ignoreLRH, ignoreLH, ignoreRH, setSt, err, if_true, if_false, Bool.false_eq_true, List.append_nil,
      List.nil_append, List.append_assoc, List.cons_append] <;>
    first
    | (apply exec_nil'; cnt_eq; done)
    | (apply exec_one_press (by decide) (expected_lt _ _ _); cnt_eq; done)
    | (apply exec_one_release (by decide) (by side); cnt_eq; done)
    | (apply exec_cons
       · apply exec_one_press (by decide) (expected_lt _ _ _); intro b; rfl
       · apply exec_one_release (by decide) (by side); cnt_eq)

theorem handle_right (s : State) (p : Nat → Bool) (t : Nat) (d : Bool)
    (hp : p BTN_RIGHT = !d) (hph : Phys s.st p) (ht : TimerOk s) :
    let r := handle s t (eventOf BTN_RIGHT d)
    exec (expected s.st p) (r.2.1 ++ if r.2.2 then [] else [⟨t, BTN_RIGHT, d⟩])
      = some (expected r.1.st (upd p BTN_RIGHT d)) ∧
    Phys r.1.st (upd p BTN_RIGHT d) ∧ TimerOk r.1 ∧ r.1.errors = s.errors ∧ r.1.mask = s.mask ∧
    r.1.enabled = s.enabled ∧ r.1.wantEnabled = s.wantEnabled := by
  have hne : BTN_LEFT ≠ BTN_RIGHT := by decide
  rcases s with ⟨en, want, st, tm, mask, ft, er⟩
  cases st <;> cases d <;> simp only [Phys, TimerOk, Bool.not_true, Bool.not_false] at hph ht hp <;>
    (try (simp [hp] at hph; done)) <;>
    refine ⟨?_, ?_, ?_, ?_, ?_, ?_, ?_⟩ <;>
    (try (simp [handle, eventOf, idleH, ldownH, rdownH, middleH, lupPendingH, rupPendingH, passthroughH,
      ignoreLRH, ignoreLH, ignoreRH, setSt, err, Phys, upd, TimerOk, hph, ht, hne, hne.symm]; done)) <;>
    simp only [handle, eventOf, idleH, ldownH, rdownH, middleH, lupPendingH, rupPendingH, passthroughH,
      ignoreLRH, ignoreLH, ignoreRH, setSt, err, if_true, if_false, Bool.false_eq_true, List.append_nil,
      List.nil_append, List.append_assoc, List.cons_append, hne.symm] <;>
    first
    | (apply exec_nil'; cnt_eq; done)
    | (apply exec_one_press (by decide) (expected_lt _ _ _); cnt_eq; done)
    | (apply exec_one_release (by decide) (by side); cnt_eq; done)
    | (apply exec_cons
       · apply exec_one_press (by decide) (expected_lt _ _ _); intro b; rfl
       · apply exec_one_release (by decide) (by side); cnt_eq)

theorem handle_other (s : State) (p : Nat → Bool) (t c : Nat) (d : Bool)
    (hc : 0x112 ≤ c ∧ c < 0x130)
    (hp : p c = !d) (hph : Phys s.st p) (ht : TimerOk s) :
    let r := handle s t (eventOf c d)
    exec (expected s.st p) (r.2.1 ++ if r.2.2 then [] else [⟨t, c, d⟩])
      = some (expected r.1.st (upd p c d)) ∧
    Phys r.1.st (upd p c d) ∧ TimerOk r.1 ∧ r.1.errors = s.errors ∧ r.1.mask = s.mask ∧
    r.1.enabled = s.enabled ∧ r.1.wantEnabled = s.wantEnabled := by
  have hne : BTN_LEFT ≠ BTN_RIGHT := by decide
  have hcl : ¬ c = BTN_LEFT := by simp only [BTN_LEFT]; omega
  have hcr : ¬ c = BTN_RIGHT := by simp only [BTN_RIGHT]; omega
  have hcl' : ¬ BTN_LEFT = c := fun h => hcl h.symm
  have hcr' : ¬ BTN_RIGHT = c := fun h => hcr h.symm
  rcases s with ⟨en, want, st, tm, mask, ft, er⟩
  -- the pass-through of the event itself in the new state
  have hpass : ∀ st2, exec (expected st2 p) [⟨t, c, d⟩] = some (expected st2 (upd p c d)) := by
    intro st2
    cases d with
    | true =>
      apply exec_one_press (by omega) (expected_lt _ _ _)
      intro b
      by_cases hb : b = c
      · subst hb
        simp only [expected, upd, hcl, hcr, hp, if_true, if_false, Bool.not_true, Bool.toNat_false, Bool.toNat_true]
        split <;> omega
      · simp [expected, upd, hb]
    | false =>
      apply exec_one_release (by omega)
      · simp only [expected, hcl, hcr, hp, if_false, Bool.not_false, Bool.toNat_true]
        split <;> omega
      · intro b
        by_cases hb : b = c
        · subst hb
          simp only [expected, upd, hcl, hcr, hp, if_true, if_false, Bool.not_false, Bool.toNat_false, Bool.toNat_true]
          split <;> omega
        · simp [expected, upd, hb]
  cases st <;> simp only [Phys, TimerOk] at hph ht <;>
    refine ⟨?_, ?_, ?_, ?_, ?_, ?_, ?_⟩ <;>
    (try (simp [handle, eventOf, idleH, ldownH, rdownH, middleH, lupPendingH, rupPendingH, passthroughH,
      ignoreLRH, ignoreLH, ignoreRH, setSt, err, Phys, upd, TimerOk, hph, ht, hcl, hcr, hcl', hcr']; done)) <;>
    simp only [handle, eventOf, idleH, ldownH, rdownH, middleH, lupPendingH, rupPendingH, passthroughH,
      ignoreLRH, ignoreLH, ignoreRH, setSt, err, if_true, if_false, Bool.false_eq_true, List.append_nil,
      List.nil_append, List.append_assoc, List.cons_append, hcl, hcr] <;>
    first
    | (exact hpass _)
    | (refine exec_cons ?_ (hpass _)
       first
       | (apply exec_one_press (by decide) (expected_lt _ _ _); clear hpass; cnt_eq; done)
       | (apply exec_one_release (by decide) (by clear hpass; side); clear hpass; cnt_eq; done))
    | (rw [← hpass _]; congr 1; funext b; clear hpass; revert b; cnt_eq; done)

theorem handle_ok (s : State) (p : Nat → Bool) (t c : Nat) (d : Bool)
    (hc : 0x110 ≤ c ∧ c < 0x130)
    (hp : p c = !d) (hph : Phys s.st p) (ht : TimerOk s) :
    let r := handle s t (eventOf c d)
    exec (expected s.st p) (r.2.1 ++ if r.2.2 then [] else [⟨t, c, d⟩])
      = some (expected r.1.st (upd p c d)) ∧
    Phys r.1.st (upd p c d) ∧ TimerOk r.1 ∧ r.1.errors = s.errors ∧ r.1.mask = s.mask ∧
    r.1.enabled = s.enabled ∧ r.1.wantEnabled = s.wantEnabled := by
  by_cases h1 : c = BTN_LEFT
  · subst h1; exact handle_left s p t d hp hph ht
  · by_cases h2 : c = BTN_RIGHT
    · subst h2; exact handle_right s p t d hp hph ht
    · refine handle_other s p t c d ⟨?_, hc.2⟩ hp hph ht
      simp only [BTN_LEFT, BTN_RIGHT] at h1 h2; omega

/-- With everything up the machine is idle or passing through, and `ALL_UP` leads to idle. -/
theorem allUp_ok (s : State) (p : Nat → Bool) (t : Nat) (hz : noneHeld p = true) (hph : Phys s.st p)
    (ht : TimerOk s) :
    let r := handle s t .allUp
    r.2.1 = [] ∧ r.1.st = .idle ∧ r.1.timer = none ∧ r.1.errors = s.errors ∧ r.1.mask = s.mask ∧
    r.1.enabled = s.enabled ∧ r.1.wantEnabled = s.wantEnabled ∧
    expected r.1.st p = expected s.st p := by
  have hL : p BTN_LEFT = false := by
    rw [Bool.eq_false_iff]; intro h
    rw [noneHeld_false_of (by decide) (by decide) h] at hz; cases hz
  have hR : p BTN_RIGHT = false := by
    rw [Bool.eq_false_iff]; intro h
    rw [noneHeld_false_of (by decide) (by decide) h] at hz; cases hz
  rcases s with ⟨en, want, st, tm, mask, ft, er⟩
  cases st <;> simp [Phys, hL, hR] at hph
  · simp only [TimerOk] at ht
    simp [handle, idleH, ht]
  · refine ⟨rfl, rfl, rfl, rfl, rfl, rfl, rfl, ?_⟩
    funext b
    simp only [handle, passthroughH, setSt, expected, passL, passR]
    by_cases h1 : b = BTN_LEFT
    · subst h1; simp [hL]
    · by_cases h2 : b = BTN_RIGHT
      · subst h2; simp [h1, hR]
      · simp [h1, h2]

theorem upd_rng {p : Nat → Bool} {c : Nat} {d : Bool} (hc : 0x110 ≤ c ∧ c < 0x130)
    (h : ∀ b, p b = true → 0x110 ≤ b ∧ b < 0x130) :
    ∀ b, upd p c d b = true → 0x110 ≤ b ∧ b < 0x130 := by
  intro b hb
  simp only [upd] at hb
  split at hb
  · subst b; exact hc
  · exact h b hb

theorem expected_rest {p : Nat → Bool} (h : ∀ b, p b = false) (st : MSt) (hst : st ≠ .middle) :
    expected st p = fun _ => 0 := by
  funext b
  simp [expected, h, hst]

theorem button_inv {s : State} {w : World} {cnt : Counts} (t c : Nat) (d : Bool) (hi : Inv s w cnt)
    (hc : 0x110 ≤ c ∧ c < 0x130) (hp : w.held c = !d) :
    ∃ cnt', exec cnt (physicalButton s t c d).2 = some cnt' ∧
      Inv (physicalButton s t c d).1 (stepWorld w (.button t c d)) cnt' := by
  have hrng : ∀ b, upd w.held c d b = true → 0x110 ≤ b ∧ b < 0x130 := upd_rng hc hi.rng
  cases he : w.eff with
  | false =>
    obtain ⟨hw, hm, hst, hcnt⟩ := hi.off he
    have hen : s.enabled = false := by rw [hi.eff, he]
    simp only [physicalButton, filterButton, hen, Bool.not_false, if_true, Bool.false_eq_true, if_false,
      List.nil_append]
    refine ⟨fun b => (upd w.held c d b).toNat, ?_, ?_⟩
    · subst hcnt
      cases d with
      | true =>
        apply exec_one_press hc.2 (by have := Bool.toNat_le (w.held c); omega)
        intro b; by_cases hb : b = c
        · subst hb; simp [upd, hp]
        · simp [upd, hb]
      | false =>
        apply exec_one_release hc.2 (by simp [hp])
        intro b; by_cases hb : b = c
        · subst hb; simp [upd, hp]
        · simp [upd, hb]
    · have heff : (if noneHeld (upd w.held c d) then w.want else w.eff) = false := by
        rw [hw, he]; simp
      have hE : (stepWorld w (.button t c d)).eff = false := heff
      refine ⟨hi.wnt, ?_, hi.errs, hi.tmr, hrng, ?_, ?_, ?_⟩
      · rw [hE]; exact hen
      · intro h; rw [hE] at h; cases h
      · intro _; exact ⟨hw, hm, hst, rfl⟩
      · intro _; rw [hE]; exact hw.symm
  | true =>
    obtain ⟨hm, hph, hcnt, hpt⟩ := hi.on he
    have hen : s.enabled = true := by rw [hi.eff, he]
    have hr : inRange c = true := by
      have h2 : c < 0x110 + 32 := by omega
      simp [inRange, BTN_LEFT, hc.1, h2]
    obtain ⟨hex, hph', ht', her', hm', hen', hw'⟩ := handle_ok s w.held t c d hc hp hph hi.tmr
    rw [← hcnt] at hex
    simp only [physicalButton, filterButton, hen, hr, Bool.not_true, Bool.false_eq_true, if_false]
    generalize hg : handle s t (eventOf c d) = r at *
    obtain ⟨s1, o1, rc⟩ := r
    simp only at hex hph' ht' her' hm' hen' hw' ⊢
    have hmask : (fun b => if b = c then d else s1.mask b) = upd w.held c d := by
      rw [hm', hm]; rfl
    have hbit : s1.mask c ≠ d := by rw [hm', hm, hp]; cases d <;> simp
    simp only [hmask, maskEmpty_eq]
    by_cases hz : noneHeld (upd w.held c d) = true
    · simp only [hbit, hz, ne_eq, not_false_eq_true, and_self, if_true]
      have hall := allUp_ok { s1 with mask := upd w.held c d } (upd w.held c d) t hz hph' ht'
      obtain ⟨ho2, hst2, htm2, her2, hm2, hen2, hw2, hexp⟩ := hall
      generalize hg2 : handle { s1 with mask := upd w.held c d } t .allUp = r2 at *
      obtain ⟨s2, o2, rc2⟩ := r2
      simp only at ho2 hst2 htm2 her2 hm2 hen2 hw2 hexp
      subst ho2
      have hnone : ∀ b, upd w.held c d b = false := (noneHeld_iff hrng).mp hz
      have hap : applyConfig s2 = { s2 with enabled := w.want } := by
        unfold applyConfig
        have h1 : s2.wantEnabled = w.want := by rw [hw2, hw', hi.wnt]
        by_cases h : s2.wantEnabled = s2.enabled
        · have h5 : w.want = s2.enabled := h1.symm.trans h
          rw [if_pos h, h5]
        · rw [if_neg h, hm2, maskEmpty_eq, hz, h1]; rfl
      refine ⟨fun _ => 0, ?_, ?_⟩
      · have h2 : expected s1.st (upd w.held c d) = fun _ => 0 := by
          rw [← hexp, hst2]; exact expected_rest hnone _ (by simp)
        have h3 : (if rc = true then (applyConfig s2, o1 ++ []) else (applyConfig s2, o1 ++ [] ++ [⟨t, c, d⟩])).2
            = o1 ++ if rc = true then [] else [⟨t, c, d⟩] := by cases rc <;> simp
        rw [h3, hex, h2]
      · have h3 : (if rc = true then (applyConfig s2, o1 ++ []) else (applyConfig s2, o1 ++ [] ++ [(⟨t, c, d⟩ : Call)])).1
            = applyConfig s2 := by cases rc <;> rfl
        rw [h3, hap]
        have hE : (stepWorld w (.button t c d)).eff = w.want := by
          show (if noneHeld (upd w.held c d) then w.want else w.eff) = w.want
          simp [hz]
        have hH : (stepWorld w (.button t c d)).held = upd w.held c d := rfl
        have hW : (stepWorld w (.button t c d)).want = w.want := rfl
        refine ⟨?_, hE.symm, ?_, ?_, hrng, ?_, ?_, ?_⟩
        · show s2.wantEnabled = _
          rw [hw2, hW, hw', hi.wnt]
        · show s2.errors = 0
          rw [her2]; exact her'.trans hi.errs
        · simp only [TimerOk, hst2]; exact htm2
        · intro _
          rw [hH]
          refine ⟨hm2, ?_, ?_, ?_⟩
          · show Phys s2.st _
            rw [hst2]; exact ⟨hnone _, hnone _⟩
          · show _ = expected s2.st _
            rw [hst2]; exact (expected_rest hnone _ (by simp)).symm
          · intro h
            replace h : s2.st = .passthrough := h
            rw [hst2] at h; cases h
        · intro h
          rw [hE] at h
          rw [hW, hH]
          refine ⟨h, ?_, hst2, ?_⟩
          · show s2.mask = _
            rw [hm2]; funext b; exact hnone b
          · funext b; simp [hnone]
        · intro _; rw [hE, hW]
    · have hz' : noneHeld (upd w.held c d) = false := by simpa using hz
      simp only [hz', ne_eq, Bool.false_eq_true, and_false, if_false]
      have hE : (stepWorld w (.button t c d)).eff = true := by
        show (if noneHeld (upd w.held c d) then w.want else w.eff) = true
        simp [hz', he]
      have hH : (stepWorld w (.button t c d)).held = upd w.held c d := rfl
      have hW : (stepWorld w (.button t c d)).want = w.want := rfl
      refine ⟨expected s1.st (upd w.held c d), ?_, ?_⟩
      · rw [← hex]; cases rc <;> simp
      · have h3 : ∀ (x : State), (if rc = true then (x, o1) else (x, o1 ++ [(⟨t, c, d⟩ : Call)])).1 = x := by
          intro x; cases rc <;> rfl
        rw [h3]
        refine ⟨?_, ?_, ?_, ht', hrng, ?_, ?_, ?_⟩
        · show s1.wantEnabled = _
          rw [hw', hi.wnt, hW]
        · show s1.enabled = _
          rw [hen', hE, hen]
        · exact her'.trans hi.errs
        · intro _; rw [hH]
          exact ⟨rfl, hph', rfl, fun _ => hz'⟩
        · intro h; rw [hE] at h; cases h
        · intro h; rw [hH, hz'] at h; cases h

theorem fire_inv {s : State} {w : World} {cnt : Counts} (now : Nat) (hi : Inv s w cnt) :
    ∃ cnt', exec cnt (fire s now).2 = some cnt' ∧ Inv (fire s now).1 w cnt' := by
  unfold fire
  cases htm : s.timer with
  | none => exact ⟨cnt, rfl, hi⟩
  | some e =>
    simp only
    split
    · -- due: the state is leftDown or rightDown
      have ht := hi.tmr
      have hst : s.st = .leftDown ∨ s.st = .rightDown := by
        unfold TimerOk at ht
        cases h : s.st <;> rw [h] at ht <;> simp_all
      have he : w.eff = true := by
        cases h : w.eff with
        | true => rfl
        | false =>
          obtain ⟨_, _, h2, _⟩ := hi.off h
          rcases hst with h | h <;> rw [h2] at h <;> cases h
      obtain ⟨hm, hph, hcnt, _⟩ := hi.on he
      refine ⟨expected .passthrough w.held, ?_, ?_⟩
      · rw [hcnt]
        rcases hst with h | h
        · rw [h] at hph ⊢
          simp only [Phys] at hph
          simp only [handle, h, ldownH]
          apply exec_one_press (by decide) (expected_lt _ _ _)
          cnt_eq
        · rw [h] at hph ⊢
          simp only [Phys] at hph
          simp only [handle, h, rdownH]
          apply exec_one_press (by decide) (expected_lt _ _ _)
          cnt_eq
      · have hz : noneHeld w.held = false := by
          rcases hst with h | h <;> rw [h] at hph <;> simp only [Phys] at hph
          · exact noneHeld_false_of (b := BTN_LEFT) (by decide) (by decide) hph.1
          · exact noneHeld_false_of (b := BTN_RIGHT) (by decide) (by decide) hph.2
        have key : ∀ (s' : State), s'.st = .passthrough → s'.timer = none → s'.mask = s.mask →
            s'.errors = s.errors → s'.enabled = s.enabled → s'.wantEnabled = s.wantEnabled →
            Inv s' w (expected .passthrough w.held) := by
          intro s' h1 h2 h3 h4 h5 h6
          refine ⟨h6.trans hi.wnt, h5.trans hi.eff, h4.trans hi.errs, ?_, hi.rng, ?_, ?_, hi.rest⟩
          · simp only [TimerOk, h1]; exact h2
          · intro _; exact ⟨h3.trans hm, by rw [h1]; trivial, by rw [h1], fun _ => hz⟩
          · intro h; rw [he] at h; cases h
        rcases hst with h | h <;> simp only [handle, h, ldownH, rdownH, setSt] <;>
          exact key _ rfl rfl rfl rfl rfl rfl
    · exact ⟨cnt, rfl, hi⟩

theorem set_inv {s : State} {w : World} {cnt : Counts} (on : Bool) (hi : Inv s w cnt)
    (hok : on = true → w.eff = true ∨ ∀ b, w.held b = false) :
    Inv (setConfig s on) (stepWorld w (.set on)) cnt := by
  have hH : (stepWorld w (.set on)).held = w.held := rfl
  have hW : (stepWorld w (.set on)).want = on := rfl
  have hE : (stepWorld w (.set on)).eff = if noneHeld w.held then on else w.eff := rfl
  cases he : w.eff with
  | true =>
    obtain ⟨hm, hph, hcnt, hpt⟩ := hi.on he
    have hen : s.enabled = true := by rw [hi.eff, he]
    by_cases hz : noneHeld w.held = true
    · rw [hz] at hE
      simp only [if_true] at hE
      have hnone := (noneHeld_iff hi.rng).mp hz
      have hst : s.st = .idle := by
        have hpt' := hpt
        cases h : s.st <;> rw [h] at hph hpt' <;> simp [Phys, hnone, hz] at hph hpt' ⊢
      have hap : setConfig s on = { s with wantEnabled := on, enabled := on } := by
        unfold setConfig applyConfig
        by_cases h : on = s.enabled
        · simp [h]
        · simp [h, hm, maskEmpty_eq, hz]
      rw [hap]
      refine ⟨hW.symm, hE.symm, hi.errs, hi.tmr, hi.rng, ?_, ?_, ?_⟩
      · intro _; rw [hH]; exact ⟨hm, hph, hcnt, hpt⟩
      · intro h
        rw [hE] at h
        refine ⟨by rw [hW]; exact h, ?_, hst, ?_⟩
        · show s.mask = _
          rw [hm]; funext b; exact hnone b
        · rw [hcnt, hst, hH, expected_rest hnone _ (by simp)]
          funext b; simp [hnone]
      · intro _; rw [hE, hW]
    · have hz' : noneHeld w.held = false := by simpa using hz
      rw [hz'] at hE
      simp only [Bool.false_eq_true, if_false] at hE
      have hap : setConfig s on = { s with wantEnabled := on } := by
        unfold setConfig applyConfig
        by_cases h : on = s.enabled
        · simp [h]
        · simp [h, hm, maskEmpty_eq, hz']
      rw [hap]
      refine ⟨hW.symm, by rw [hE]; exact hi.eff, hi.errs, hi.tmr, hi.rng, ?_, ?_, ?_⟩
      · intro _; rw [hH]; exact ⟨hm, hph, hcnt, hpt⟩
      · intro h; rw [hE, he] at h; cases h
      · intro h; rw [hH, hz'] at h; cases h
  | false =>
    obtain ⟨hw, hm, hst, hcnt⟩ := hi.off he
    have hen : s.enabled = false := by rw [hi.eff, he]
    have hme : maskEmpty s.mask = true := by rw [hm]; decide
    have hap : setConfig s on = { s with wantEnabled := on, enabled := on } := by
      unfold setConfig applyConfig
      by_cases h : on = s.enabled
      · simp [h]
      · simp [h, hme]
    have hE' : (stepWorld w (.set on)).eff = on := by
      rw [hE]
      cases on with
      | false => rw [he]; simp
      | true =>
        rcases hok rfl with h | h
        · rw [he] at h; cases h
        · rw [(noneHeld_iff hi.rng).mpr h]; rfl
    rw [hap]
    refine ⟨hW.symm, hE'.symm, hi.errs, hi.tmr, hi.rng, ?_, ?_, ?_⟩
    · intro h
      rw [hE'] at h
      rcases hok h with h2 | hnone
      · rw [he] at h2; cases h2
      rw [hH]
      refine ⟨?_, ?_, ?_, ?_⟩
      · show s.mask = _
        rw [hm]; funext b; exact (hnone b).symm
      · show Phys s.st _
        rw [hst]; exact ⟨hnone _, hnone _⟩
      · show _ = expected s.st _
        rw [hst, hcnt, expected_rest hnone _ (by simp)]; funext b; simp [hnone]
      · intro h
        replace h : s.st = .passthrough := h
        rw [hst] at h; cases h
    · intro h
      rw [hE'] at h
      exact ⟨hW.trans h, hm, hst, hcnt⟩
    · intro _; rw [hE', hW]

/-! ### Deferral of the setting -/

theorem handle_want (s : State) (t : Nat) (ev : MEv) (x : Bool) :
    handle { s with wantEnabled := x } t ev
      = ({ (handle s t ev).1 with wantEnabled := x }, (handle s t ev).2) := by
  rcases s with ⟨en, want, st, tm, mask, ft, er⟩
  cases st <;> cases ev <;> rfl

/-- While a button is held the setting makes no difference to one operation. -/
theorem step_want (s : State) (op : Op) (x : Bool) (hm : maskEmpty s.mask = false) :
    (step { s with wantEnabled := x } op).2 = (step s op).2 ∧
    (maskEmpty (step s op).1.mask = false →
      ∃ y, (step { s with wantEnabled := x } op).1 = { (step s op).1 with wantEnabled := y }) := by
  cases op with
  | set on =>
    refine ⟨rfl, fun _ => ⟨on, ?_⟩⟩
    simp only [step, setConfig, applyConfig, hm]
    by_cases h : on = s.enabled <;> simp [h]
  | timer now =>
    obtain ⟨en, want, st, tm, mask, ft, er⟩ := s
    cases tm with
    | none => exact ⟨rfl, fun _ => ⟨x, rfl⟩⟩
    | some e =>
      simp only [step, fire]
      by_cases hle : e ≤ now
      · simp only [if_pos hle]
        have := handle_want ⟨en, want, st, none, mask, ft, er⟩ now .timeout x
        simp only at this
        rw [this]
        exact ⟨rfl, fun _ => ⟨x, rfl⟩⟩
      · simp only [if_neg hle]
        exact ⟨trivial, fun _ => ⟨x, rfl⟩⟩
  | button t c d =>
    obtain ⟨en, want, st, tm, mask, ft, er⟩ := s
    simp only [step, physicalButton, filterButton]
    cases en with
    | false => exact ⟨rfl, fun _ => ⟨x, rfl⟩⟩
    | true =>
      simp only [Bool.not_true, Bool.false_eq_true, if_false]
      cases hr : inRange c with
      | false => exact ⟨rfl, fun _ => ⟨x, rfl⟩⟩
      | true =>
        simp only [Bool.not_true, Bool.false_eq_true, if_false]
        have hw0 := handle_want ⟨true, want, st, tm, mask, ft, er⟩ t (eventOf c d) x
        simp only at hw0
        rw [hw0]
        generalize handle ⟨true, want, st, tm, mask, ft, er⟩ t (eventOf c d) = r
        obtain ⟨s1, o1, rc⟩ := r
        simp only
        by_cases hz : s1.mask c ≠ d ∧ maskEmpty (fun b => if b = c then d else s1.mask b) = true
        · rw [if_pos hz, if_pos hz]
          have hw := handle_want { s1 with mask := fun b => if b = c then d else s1.mask b } t .allUp x
          simp only at hw
          rw [hw]
          have hmm : (handle { s1 with mask := fun b => if b = c then d else s1.mask b } t .allUp).1.mask
              = fun b => if b = c then d else s1.mask b := by
            rcases s1 with ⟨en, want, st, tm, mask, ft, er⟩
            cases st <;> rfl
          generalize handle { s1 with mask := fun b => if b = c then d else s1.mask b } t .allUp = r2 at *
          obtain ⟨s2, o2, rc2⟩ := r2
          simp only at hmm
          refine ⟨?_, ?_⟩
          · cases rc <;> rfl
          · have hap : ∀ q : State, (applyConfig q).mask = q.mask := by
              intro q; unfold applyConfig; split
              · rfl
              · split <;> rfl
            intro h
            exfalso
            have : (if rc = true then (applyConfig s2, o1 ++ o2)
                else (applyConfig s2, o1 ++ o2 ++ [(⟨t, c, d⟩ : Call)])).1 = applyConfig s2 := by
              cases rc <;> rfl
            simp only at h
            rw [this, hap, hmm, hz.2] at h
            cases h
        · rw [if_neg hz, if_neg hz]
          cases rc
          · exact ⟨rfl, fun _ => ⟨x, rfl⟩⟩
          · exact ⟨rfl, fun _ => ⟨x, rfl⟩⟩

/-! ### Forgetting irrelevant bookkeeping -/

/-- Drop the error counter, and the first-press time where it is not used. -/
def norm (s : State) : State :=
  { s with errors := 0, firstTime := if s.st = .leftDown ∨ s.st = .rightDown then s.firstTime else 0 }

theorem handle_norm {s s' : State} (h : norm s = norm s') (t : Nat) (ev : MEv) :
    (handle s t ev).2 = (handle s' t ev).2 ∧ norm (handle s t ev).1 = norm (handle s' t ev).1 := by
  rcases s with ⟨en, want, st, tm, mask, ft, er⟩
  rcases s' with ⟨en', want', st', tm', mask', ft', er'⟩
  simp only [norm, State.mk.injEq, and_true] at h
  obtain ⟨rfl, rfl, rfl, rfl, rfl, hf⟩ := h
  cases st <;> simp at hf <;> (try subst hf) <;>
    cases ev <;> simp [handle, idleH, ldownH, rdownH, middleH, lupPendingH, rupPendingH, passthroughH,
      ignoreLRH, ignoreLH, ignoreRH, setSt, err, norm]

theorem norm_eq_iff (s s' : State) : norm s = norm s' ↔
    s.enabled = s'.enabled ∧ s.wantEnabled = s'.wantEnabled ∧ s.st = s'.st ∧ s.timer = s'.timer ∧
    s.mask = s'.mask ∧ (if s.st = .leftDown ∨ s.st = .rightDown then s.firstTime else 0)
      = (if s'.st = .leftDown ∨ s'.st = .rightDown then s'.firstTime else 0) := by
  simp [norm]

theorem applyConfig_norm {s s' : State} (h : norm s = norm s') :
    norm (applyConfig s) = norm (applyConfig s') := by
  have h' := (norm_eq_iff s s').mp h
  obtain ⟨h1, h2, h3, h4, h5, h6⟩ := h'
  unfold applyConfig
  rw [h1, h2, h5]
  split
  · exact h
  · split
    · exact h
    · rw [norm_eq_iff]; exact ⟨rfl, rfl, h3, h4, rfl, h6⟩

theorem step_norm {s s' : State} (h : norm s = norm s') (op : Op) :
    (step s op).2 = (step s' op).2 ∧ norm (step s op).1 = norm (step s' op).1 := by
  have h' := (norm_eq_iff s s').mp h
  obtain ⟨h1, h2, h3, h4, h5, h6⟩ := h'
  cases op with
  | set on =>
    refine ⟨rfl, ?_⟩
    apply applyConfig_norm
    rw [norm_eq_iff]; exact ⟨h1, rfl, h3, h4, h5, h6⟩
  | timer now =>
    simp only [step, fire, h4]
    cases s'.timer with
    | none => exact ⟨rfl, h⟩
    | some e =>
      simp only
      split
      · have hn : norm { s with timer := none } = norm { s' with timer := none } := by
          rw [norm_eq_iff]; exact ⟨h1, h2, h3, rfl, h5, h6⟩
        obtain ⟨ho, hs⟩ := handle_norm hn now .timeout
        exact ⟨congrArg Prod.fst ho, hs⟩
      · exact ⟨rfl, h⟩
  | button t c d =>
    simp only [step, physicalButton, filterButton, h1]
    cases he : s'.enabled with
    | false => exact ⟨rfl, h⟩
    | true =>
      simp only [Bool.not_true, Bool.false_eq_true, if_false]
      cases hr : inRange c with
      | false => exact ⟨rfl, by rw [norm_eq_iff]; exact ⟨h1, h2, h3, h4, h5, h6⟩⟩
      | true =>
        simp only [Bool.not_true, Bool.false_eq_true, if_false]
        obtain ⟨ho, hs⟩ := handle_norm h t (eventOf c d)
        generalize handle s t (eventOf c d) = r at *
        generalize handle s' t (eventOf c d) = r' at *
        obtain ⟨s1, o1, rc⟩ := r
        obtain ⟨s1', o1', rc'⟩ := r'
        simp only [Prod.mk.injEq] at ho hs
        obtain ⟨rfl, rfl⟩ := ho
        have hs' := (norm_eq_iff s1 s1').mp hs
        obtain ⟨g1, g2, g3, g4, g5, g6⟩ := hs'
        simp only [g5]
        split
        · have hn : norm { s1 with mask := fun b => if b = c then d else s1'.mask b }
              = norm { s1' with mask := fun b => if b = c then d else s1'.mask b } := by
            rw [norm_eq_iff]; exact ⟨g1, g2, g3, g4, rfl, g6⟩
          obtain ⟨ho2, hs2⟩ := handle_norm hn t .allUp
          have hap := applyConfig_norm hs2
          generalize handle { s1 with mask := fun b => if b = c then d else s1'.mask b } t .allUp = q at *
          generalize handle { s1' with mask := fun b => if b = c then d else s1'.mask b } t .allUp = q' at *
          obtain ⟨s2, o2, rc2⟩ := q
          obtain ⟨s2', o2', rc2'⟩ := q'
          simp only [Prod.mk.injEq] at ho2
          obtain ⟨rfl, rfl⟩ := ho2
          cases rc
          · exact ⟨rfl, hap⟩
          · exact ⟨rfl, hap⟩
        · have hn : norm { s1 with mask := fun b => if b = c then d else s1'.mask b }
              = norm { s1' with mask := fun b => if b = c then d else s1'.mask b } := by
            rw [norm_eq_iff]; exact ⟨g1, g2, g3, g4, rfl, g6⟩
          cases rc
          · exact ⟨rfl, hn⟩
          · exact ⟨rfl, hn⟩

theorem run_norm {s s' : State} (h : norm s = norm s') (ops : List Op) :
    (run s ops).2 = (run s' ops).2 := by
  induction ops generalizing s s' with
  | nil => rfl
  | cons op ops ih =>
    obtain ⟨h1, h2⟩ := step_norm h op
    simp only [run]
    rw [h1, ih h2]

theorem run_append (s : State) (a b : List Op) :
    run s (a ++ b) = ((run (run s a).1 b).1, (run s a).2 ++ (run (run s a).1 b).2) := by
  induction a generalizing s with
  | nil => simp [run]
  | cons op ops ih =>
    simp only [List.cons_append, run]
    rw [ih]
    simp

theorem world_append (en : Bool) (a b : List Op) :
    world en (a ++ b) = b.foldl stepWorld (world en a) := by
  simp [world]

theorem inv_init (en : Bool) : Inv (init en) (world en []) (fun _ => 0) := by
  have hexp : expected .idle (fun _ => false) = fun _ => 0 := expected_rest (fun _ => rfl) _ (by simp)
  refine ⟨rfl, rfl, rfl, rfl, (by intro b h; cases h), ?_, ?_, ?_⟩
  · intro _; exact ⟨rfl, ⟨rfl, rfl⟩, hexp.symm, by intro h; cases h⟩
  · intro h; exact ⟨h, rfl, rfl, rfl⟩
  · intro _; rfl

theorem run_inv (en : Bool) (ops : List Op) (hb : ButtonsWellFormed en ops) (hr : EnabledOnlyAtRest en ops) :
    ∃ cnt, exec (fun _ => 0) (run (init en) ops).2 = some cnt ∧
      Inv (run (init en) ops).1 (world en ops) cnt := by
  suffices h : ∀ done todo, ops = done ++ todo →
      (∃ cnt, exec (fun _ => 0) (run (init en) done).2 = some cnt ∧
        Inv (run (init en) done).1 (world en done) cnt) →
      ∃ cnt, exec (fun _ => 0) (run (init en) ops).2 = some cnt ∧
        Inv (run (init en) ops).1 (world en ops) cnt by
    exact h [] ops rfl ⟨_, rfl, inv_init en⟩
  intro done todo
  induction todo generalizing done with
  | nil => intro h hd; rw [h, List.append_nil]; exact hd
  | cons op todo ih =>
    intro heq ⟨cnt, hex, hi⟩
    apply ih (done ++ [op]) (by rw [heq]; simp)
    rw [run_append, world_append]
    simp only [run, List.append_nil, List.foldl_cons, List.foldl_nil, Buttons.exec_append, hex, Option.bind_some]
    cases op with
    | button t c d =>
      obtain ⟨h1, h2, h3⟩ := hb done todo t c d heq
      exact button_inv t c d hi ⟨h2, h3⟩ h1
    | timer now => exact fire_inv now hi
    | set on =>
      refine ⟨cnt, rfl, set_inv on hi ?_⟩
      intro h; subst h; exact hr done todo heq

end Libinput.MiddleButton
