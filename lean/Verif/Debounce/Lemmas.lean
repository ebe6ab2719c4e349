import Verif.Debounce.Spec
import Verif.Common.ListLemmas
namespace Libinput.Debounce
open Libinput.Spec Libinput.Alt Libinput.Debounce.Spec

def Notify.edge (n : Notify) : Edge Nat := ⟨n.code, n.down⟩

/-- For each state of the machine: physical state, reported state, and which timers run. -/
def rel : DSt → Bool → Bool → Bool → Bool → Bool
  | .isUp, p, l, tm, sh => !p && !l && !tm && !sh
  | .isDown, p, l, tm, sh => p && l && !tm && !sh
  | .isDownWaiting, p, l, tm, sh => p && l && tm && !sh
  | .isUpDelaying, p, l, tm, sh => !p && l && tm && !sh
  | .isUpDelayingSpurious, p, l, tm, sh => !p && l && tm && sh
  | .isUpDetectingSpurious, p, l, tm, sh => !p && !l && tm && sh
  | .isDownDetectingSpurious, p, l, tm, sh => p && !l && tm && sh
  | .isUpWaiting, p, l, tm, sh => !p && !l && tm && !sh
  | .isDownDelaying, p, l, tm, sh => p && !l && tm && !sh
  | .disabled, p, l, tm, sh => (p == l) && !tm && !sh

/-- Invariant: `P` physical, `L` reported, `lc` time of the last physical change,
`clk` largest frame time so far. -/
structure Inv (s : State) (P L : Nat → Bool) (lc : Nat → Nat) (clk : Nat) : Prop where
  other : ∀ c, c ≠ s.code → L c = P c
  rel : rel s.st (P s.code) (L s.code) s.timer.isSome s.timerShort.isSome = true
  ord : ∀ a b, s.timerShort = some a → s.timer = some b → a < b
  bndT : ∀ b, s.timer = some b → b ≤ clk + 25000
  tm : P s.code ≠ L s.code → s.time = lc s.code
  bug : s.bugs = 0
  spur : (s.st = .isUpDetectingSpurious ∨ s.st = .isDownDetectingSpurious) → s.spurious = false

/-- All reported state equals physical state and no timer runs. -/
structure Flat (s : State) (P L : Nat → Bool) : Prop where
  st : s.st = .isUp ∨ s.st = .isDown ∨ s.st = .disabled
  eq : ∀ c, L c = P c
  noT : s.timer = none
  noS : s.timerShort = none
  bug : s.bugs = 0

def upd (f : Nat → α) (c : Nat) (v : α) : Nat → α := fun x => if c = x then v else f x

@[simp] theorem upd_self (f : Nat → α) (c : Nat) (v : α) : upd f c v c = v := by simp [upd]
theorem upd_ne (f : Nat → α) {c x : Nat} (v : α) (h : x ≠ c) : upd f c v x = f x := by
  simp [upd, Ne.symm h]

theorem isSome_false {o : Option Nat} (h : o.isSome = false) : o = none := by
  cases o <;> simp_all

theorem valid_one (L : Nat → Bool) (n : Notify) (h : L n.code = !n.down) :
    Valid L ([n].map Notify.edge) := by simp [Valid, Notify.edge, h]

theorem after_one (L : Nat → Bool) (n : Notify) :
    after L ([n].map Notify.edge) = upd L n.code n.down := by
  funext k; simp [after, Notify.edge, upd]

/-- Outcome of one event: notifications are a valid continuation of what was reported,
the new state and new reported set satisfy `Q`, each notification satisfies `C`. -/
def Good (L : Nat → Bool) (Q : State → (Nat → Bool) → Prop) (C : Notify → Prop)
    (r : State × List Notify) : Prop :=
  Valid L (r.2.map Notify.edge) ∧ Q r.1 (after L (r.2.map Notify.edge)) ∧ ∀ n ∈ r.2, C n

theorem good_quiet {L Q C} {s : State} (h : Q s L) : Good L Q C (quiet s) := by
  refine ⟨trivial, h, ?_⟩
  intro n hn; cases hn

theorem good_note {L : Nat → Bool} {Q C} {s : State} {d : Bool} (hl : L s.code = !d) (h : Q s (upd L s.code d))
    (hc : C ⟨s.time, s.code, d⟩) : Good L Q C (note s d) := by
  refine ⟨valid_one L ⟨s.time, s.code, d⟩ hl, ?_, ?_⟩
  · have := after_one L ⟨s.time, s.code, d⟩
    simp only [note]
    rw [this]; exact h
  · intro n hn
    simp only [note, List.mem_singleton] at hn
    subst hn; exact hc

theorem good_bind {L Q Q' C} {r : State × List Notify} {f : State → State × List Notify}
    (h : Good L Q C r) (hf : ∀ s L', Q s L' → Good L' Q' C (f s)) :
    Good L Q' C ((f r.1).1, r.2 ++ (f r.1).2) := by
  obtain ⟨hv, hq, hc⟩ := h
  obtain ⟨hv', hq', hc'⟩ := hf _ _ hq
  refine ⟨?_, ?_, ?_⟩
  · simp only [List.map_append]
    rw [valid_append]; exact ⟨hv, hv'⟩
  · simp only [List.map_append]
    rw [after_append]; exact hq'
  · intro n hn
    rcases List.mem_append.mp hn with h | h
    · exact hc n h
    · exact hc' n h

theorem good_mono {L Q Q' C C'} {r : State × List Notify} (h : Good L Q C r)
    (hq : ∀ s L', Q s L' → Q' s L') (hc : ∀ n, C n → C' n) : Good L Q' C' r :=
  ⟨h.1, hq _ _ h.2.1, fun n hn => hc n (h.2.2 n hn)⟩

theorem upd_eq {P L : Nat → Bool} {code : Nat} {d : Bool} (ho : ∀ x, x ≠ code → L x = P x)
    (hd : P code = d) : ∀ x, upd L code d x = P x := by
  intro x
  by_cases hx : x = code
  · subst hx; simp [hd]
  · rw [upd_ne _ _ hx]; exact ho x hx

theorem same_eq {P L : Nat → Bool} {code : Nat} (ho : ∀ x, x ≠ code → L x = P x)
    (hd : L code = P code) : ∀ x, L x = P x := by
  intro x
  by_cases hx : x = code
  · subst hx; exact hd
  · exact ho x hx

/-- `OTHERBUTTON` reports whatever is pending and leaves everything settled. -/
theorem other_flat {s : State} {P L : Nat → Bool} {lc : Nat → Nat} {clk : Nat} (t : Nat)
    (h : Inv s P L lc clk) :
    Good L (fun s' L' => Flat s' P L' ∧ Inv s' P L' lc clk ∧ s'.code = s.code)
      (fun n => n.code = s.code ∧ n.time = lc n.code ∧ n.down = P n.code)
      (handle s .otherButton t) := by
  obtain ⟨st, code, time, timer, short, sp, bugs⟩ := s
  obtain ⟨ho, hr, hord, hb, htm, hbug, hsp⟩ := h
  simp only at ho hr hord hb htm hbug hsp
  have ho' : ∀ d, ∀ x, x ≠ code → upd L code d x = P x := fun d x hx => by
    rw [upd_ne L d hx]; exact ho x hx
  cases st <;> simp only [rel, Bool.and_eq_true, Bool.not_eq_true', beq_iff_eq] at hr <;>
    simp only [handle, cancelTimer, cancelTimerShort, isUpH, isDownH, isDownWaitingH, isUpDelayingH,
      isUpDelayingSpuriousH, isUpDetectingSpuriousH, isDownDetectingSpuriousH, isUpWaitingH,
      isDownDelayingH, disabledH, setSt, if_true] <;>
    first
    | (refine good_quiet ⟨⟨by simp, same_eq ho (by simp [hr]), rfl, rfl, hbug⟩,
         ⟨ho, by simp [rel, hr], by simp, by simp, by simp [hr], hbug, by simp⟩, rfl⟩; done)
    | (refine good_note (by simp [hr]) ⟨⟨by simp, upd_eq ho (by simp [hr]), rfl, rfl, hbug⟩,
         ⟨ho' _, by simp [rel, hr], by simp, by simp, by simp [hr], hbug, by simp⟩, rfl⟩
         ⟨rfl, htm (by simp [hr]), by simp [hr]⟩)

/-- A press or release on a settled machine whose state was set up for it. -/
theorem event_flat {s : State} {P L : Nat → Bool} {lc : Nat → Nat} {clk : Nat} (t c : Nat) (d : Bool)
    (h : Flat s P L) (hp : P c = !d) (ht : t ≤ clk) :
    Good L (fun s' L' => Inv s' (upd P c d) L' (upd lc c t) clk ∧ s'.code = c)
      (fun n => n.code = c ∧ n.time = t ∧ n.down = d)
      (handle { (if (s.st != .disabled) = true then setSt s (if d then .isUp else .isDown) else s) with code := c }
        (if d then .press else .release) t) := by
  obtain ⟨st, code, time, timer, short, sp, bugs⟩ := s
  obtain ⟨hst, heq, hT, hS, hbug⟩ := h
  simp only at hst heq hT hS hbug
  subst hT hS hbug
  have hL : L = P := funext heq
  subst hL
  have hother : ∀ x, x ≠ c → L x = upd L c d x := fun x hx => (upd_ne L d hx).symm
  by_cases hdis : st = .disabled
  · subst hdis
    cases d <;> simp only [handle, disabledH, setTime, setSt] <;>
      refine good_note (by simpa using hp) ⟨⟨fun x hx => rfl, by simp [rel], by simp, by simp, by simp, rfl, by simp⟩, rfl⟩ (by simp)
  · have hd : (st != DSt.disabled) = true := by simpa using hdis
    cases d
    · cases sp
      · simp only [hd, if_true, handle, isDownH, setTime, setSt, setTimer, setTimerShort, if_false, Bool.false_eq_true]
        refine good_note (by simpa using hp) ⟨⟨fun x hx => rfl, by simp [rel], ?_, ?_, by simp, rfl, by simp⟩, rfl⟩ (by simp)
        · intro a b ha hb; simp at ha hb; omega
        · intro b hb; simp at hb; omega
      · simp only [hd, if_true, handle, isDownH, setTime, setSt, setTimer, setTimerShort, if_false, Bool.false_eq_true]
        refine good_quiet ⟨⟨hother, by simpa [rel] using hp, ?_, ?_, by simp, rfl, by simp⟩, rfl⟩
        · intro a b ha hb; simp at ha hb; omega
        · intro b hb; simp at hb; omega
    · simp only [hd, if_true, handle, isUpH, setTime, setSt, setTimer]
      refine good_note (by simpa using hp) ⟨⟨fun x hx => rfl, by simp [rel], ?_, ?_, by simp, rfl, by simp⟩, rfl⟩ (by simp)
      · intro a b ha hb; simp at ha
      · intro b hb; simp at hb; omega

/-- A press or release of the button the machine is tracking. -/
theorem event_same {s : State} {P L : Nat → Bool} {lc : Nat → Nat} {clk : Nat} (t : Nat) (d : Bool)
    (h : Inv s P L lc clk) (hp : P s.code = !d) (ht : t ≤ clk) :
    Good L (fun s' L' => Inv s' (upd P s.code d) L' (upd lc s.code t) clk ∧ s'.code = s.code)
      (fun n => n.code = s.code ∧ n.time = t ∧ n.down = d)
      (handle s (if d then .press else .release) t) := by
  obtain ⟨st, code, time, timer, short, sp, bugs⟩ := s
  obtain ⟨ho, hr, hord, hb, htm, hbug, hsp⟩ := h
  simp only at ho hr hord hb htm hbug hsp hp
  have hother : ∀ x, x ≠ code → L x = upd P code d x := fun x hx => by
    rw [upd_ne P d hx]; exact ho x hx
  have hother' : ∀ x, x ≠ code → upd L code d x = upd P code d x := fun x hx => by
    rw [upd_ne P d hx, upd_ne L d hx]; exact ho x hx
  cases d <;> simp only [Bool.not_false, Bool.not_true] at hp <;>
  cases st <;> simp only [rel, Bool.and_eq_true, Bool.not_eq_true', beq_iff_eq, hp, Bool.false_eq_true, reduceCtorEq, false_and] at hr <;>
  simp only [handle, isUpH, isDownH, isDownWaitingH, isUpDelayingH,
      isUpDelayingSpuriousH, isUpDetectingSpuriousH, isDownDetectingSpuriousH, isUpWaitingH,
      isDownDelayingH, disabledH, setSt, setTime, setTimer, setTimerShort, cancelTimer, cancelTimerShort, if_true, if_false, Bool.false_eq_true, reduceCtorEq]
  all_goals try (cases sp <;> simp only [if_true, if_false, Bool.false_eq_true])
  all_goals first
    | (refine good_quiet ⟨⟨hother, by clear ho hother hother' hord hb; simp_all [rel], ?_, ?_, by clear ho hother hother' hord hb; simp_all, hbug, by clear ho hother hother' hord hb; simp_all⟩, rfl⟩ <;>
        (clear ho hother hother'; intros; first | (rename_i h1 h2; exact hord _ _ h1 h2) | (rename_i h1; have := hb _ h1; omega) | (simp_all; done) | (simp_all; omega)))
    | (refine good_note (by clear ho hother hother' hord hb; simp_all) ⟨⟨hother', by clear ho hother hother' hord hb; simp_all [rel], ?_, ?_, by clear ho hother hother' hord hb; simp_all, hbug, by clear ho hother hother' hord hb; simp_all⟩, rfl⟩ (by simp) <;>
        (clear ho hother hother'; intros; first | (rename_i h1 h2; exact hord _ _ h1 h2) | (rename_i h1; have := hb _ h1; omega) | (simp_all; done) | (simp_all; omega)))

/-- Raising the clock keeps the invariant. -/
theorem inv_clk {s : State} {P L : Nat → Bool} {lc : Nat → Nat} {clk clk' : Nat} (h : Inv s P L lc clk)
    (hle : clk ≤ clk') : Inv s P L lc clk' :=
  ⟨h.other, h.rel, h.ord, fun b hb => by have := h.bndT b hb; omega, h.tm, h.bug, h.spur⟩

/-- The short timer firing. -/
theorem fireShort_inv {s : State} {P L : Nat → Bool} {lc : Nat → Nat} {clk : Nat} (now : Nat)
    (h : Inv s P L lc clk) :
    Good L (fun s' L' => Inv s' P L' lc clk ∧ s'.code = s.code ∧ (∀ e, s'.timerShort = some e → now < e) ∧
        (∀ e, s'.timer = some e → s.timer = some e))
      (fun n => n.code = s.code ∧ n.time = lc n.code ∧ n.down = P n.code)
      (fireShort s now) := by
  unfold fireShort
  cases hs : s.timerShort with
  | none => exact good_quiet ⟨h, rfl, by simp [hs], by simp⟩
  | some e =>
    simp only
    split
    · rename_i hle
      obtain ⟨st, code, time, timer, short, sp, bugs⟩ := s
      obtain ⟨ho, hr, hord, hb, htm, hbug, hsp⟩ := h
      simp only at ho hr hord hb htm hbug hsp hs
      subst hs
      have ho' : ∀ d, ∀ x, x ≠ code → upd L code d x = P x := fun d x hx => by
        rw [upd_ne L d hx]; exact ho x hx
      cases st <;> simp only [rel, Bool.and_eq_true, Bool.not_eq_true', beq_iff_eq, Option.isSome_some, reduceCtorEq, and_false, Bool.true_eq_false] at hr
      all_goals simp only [handle, cancelTimerShort, isUpDelayingSpuriousH, isUpDetectingSpuriousH, isDownDetectingSpuriousH, setSt, enableSpurious, cancelTimer, reduceCtorEq, if_false]
      · exact good_note (by simp_all) ⟨⟨ho' _, by simp_all [rel], by simp, hb, by simp_all, hbug, by simp⟩, rfl, by simp, by simp⟩ ⟨rfl, htm (by simp [hr]), by simp [hr]⟩
      · exact good_quiet ⟨⟨ho, by simp_all [rel], by simp, hb, by simp_all, hbug, by simp⟩, rfl, by simp, by simp⟩
      · exact good_note (by simp_all) ⟨⟨ho' _, by simp_all [rel], by simp, by simp, by simp_all, by simp_all, by simp⟩, rfl, by simp, by simp⟩ ⟨rfl, htm (by simp [hr]), by simp [hr]⟩
    · refine good_quiet ⟨h, rfl, ?_, by simp⟩
      intro e' he'
      rw [hs] at he'; cases he'; omega

/-- The long timer firing, once no short timer is due before it. -/
theorem fireLong_inv {s : State} {P L : Nat → Bool} {lc : Nat → Nat} {clk : Nat} (now : Nat)
    (h : Inv s P L lc clk) (hshort : ∀ e, s.timerShort = some e → now < e) :
    Good L (fun s' L' => Inv s' P L' lc clk ∧ s'.code = s.code ∧ (∀ e, s'.timerShort = some e → now < e) ∧
        (∀ e, s'.timer = some e → now < e ∧ s.timer = some e))
      (fun n => n.code = s.code ∧ n.time = lc n.code ∧ n.down = P n.code)
      (fireLong s now) := by
  unfold fireLong
  cases hs : s.timer with
  | none => exact good_quiet ⟨h, rfl, hshort, by simp [hs]⟩
  | some e =>
    simp only
    split
    · rename_i hle
      have hnoshort : s.timerShort = none := by
        cases hq : s.timerShort with
        | none => rfl
        | some a =>
          have h1 := h.ord a e hq hs
          have h2 := hshort a hq
          omega
      obtain ⟨st, code, time, timer, short, sp, bugs⟩ := s
      obtain ⟨ho, hr, hord, hb, htm, hbug, hsp⟩ := h
      simp only at ho hr hord hb htm hbug hsp hs hnoshort
      subst hs hnoshort
      have ho' : ∀ d, ∀ x, x ≠ code → upd L code d x = P x := fun d x hx => by
        rw [upd_ne L d hx]; exact ho x hx
      cases st <;> simp only [rel, Bool.and_eq_true, Bool.not_eq_true', beq_iff_eq, Option.isSome_some, Option.isSome_none, reduceCtorEq, and_false, false_and, Bool.true_eq_false, Bool.false_eq_true, and_true] at hr
      all_goals simp only [handle, cancelTimer, isUpWaitingH, isDownWaitingH, isUpDelayingH, isDownDelayingH, setSt, reduceCtorEq, if_false]
      · exact good_quiet ⟨⟨ho, by simp_all [rel], by simp, by simp, by simp_all, hbug, by simp⟩, rfl, by simp, by simp⟩
      · exact good_note (by simp_all) ⟨⟨ho' _, by simp_all [rel], by simp, by simp, by simp_all, hbug, by simp⟩, rfl, by simp, by simp⟩ ⟨rfl, htm (by simp [hr]), by simp [hr]⟩
      · exact good_quiet ⟨⟨ho, by simp_all [rel], by simp, by simp, by simp_all, hbug, by simp⟩, rfl, by simp, by simp⟩
      · exact good_note (by simp_all) ⟨⟨ho' _, by simp_all [rel], by simp, by simp, by simp_all, hbug, by simp⟩, rfl, by simp, by simp⟩ ⟨rfl, htm (by simp [hr]), by simp [hr]⟩
    · refine good_quiet ⟨h, rfl, hshort, ?_⟩
      intro e' he'
      rw [hs] at he'; cases he'
      exact ⟨by omega, rfl⟩

theorem fire_inv {s : State} {P L : Nat → Bool} {lc : Nat → Nat} {clk : Nat} (now : Nat)
    (h : Inv s P L lc clk) :
    Good L (fun s' L' => Inv s' P L' lc clk ∧ s'.code = s.code ∧ (∀ e, s'.timerShort = some e → now < e) ∧
        (∀ e, s'.timer = some e → now < e ∧ s.timer = some e))
      (fun n => n.code = s.code ∧ n.time = lc n.code ∧ n.down = P n.code)
      (fire s now) := by
  have h1 := fireShort_inv now h
  have := good_bind (f := fun s => fireLong s now) h1 (Q' := fun s' L' => Inv s' P L' lc clk ∧ s'.code = s.code ∧
      (∀ e, s'.timerShort = some e → now < e) ∧ (∀ e, s'.timer = some e → now < e ∧ s.timer = some e)) (by
    rintro s1 L1 ⟨hi, hc, hs, ht⟩
    refine good_mono (fireLong_inv now hi hs) ?_ ?_
    · rintro s2 L2 ⟨hi2, hc2, hs2, ht2⟩
      exact ⟨hi2, hc2.trans hc, hs2, fun e he => ⟨(ht2 e he).1, ht e (ht2 e he).2⟩⟩
    · rintro n ⟨a, b, c⟩
      exact ⟨a.trans hc, b, c⟩)
  exact this

/-- Processing several changed buttons in one frame. -/
theorem loop_multi {hw : Nat → Bool} {t clk : Nat} (ht : t ≤ clk) (cs : List Nat) :
    ∀ {s : State} {P L : Nat → Bool} {lc : Nat → Nat}, Flat s P L → Inv s P L lc clk → cs.Nodup →
      (∀ c ∈ cs, P c = !hw c) →
      Good L (fun s' L' => Inv s' (fun x => if x ∈ cs then hw x else P x) L'
          (fun x => if x ∈ cs then t else lc x) clk ∧ (s'.code = s.code ∧ cs = [] ∨ s'.code ∈ cs))
        (fun n => n.code ∈ cs ∧ n.time = t ∧ n.down = hw n.code)
        (loop hw t true cs s true) := by
  induction cs with
  | nil =>
    intro s P L lc hf hi _ _
    exact good_quiet ⟨by simpa using hi, Or.inl ⟨rfl, rfl⟩⟩
  | cons c cs ih =>
    intro s P L lc hf hi hn hp
    rw [List.nodup_cons] at hn
    have h1 := event_flat (lc := lc) (clk := clk) t c (hw c) hf (hp c (by simp)) ht
    have hP : (fun x => if x ∈ c :: cs then hw x else P x)
        = (fun x => if x ∈ cs then hw x else upd P c (hw c) x) := by
      funext x
      by_cases hx : c = x
      · subst hx; simp [upd]
      · simp [upd, hx, Ne.symm hx]
    have hlc : (fun x => if x ∈ c :: cs then t else lc x)
        = (fun x => if x ∈ cs then t else upd lc c t x) := by
      funext x
      by_cases hx : c = x
      · subst hx; simp [upd]
      · simp [upd, hx, Ne.symm hx]
    -- event, then flush, then the rest
    have h2 := good_bind (f := fun s => handle s .otherButton t)
      (Q' := fun s' L' => Flat s' (upd P c (hw c)) L' ∧ Inv s' (upd P c (hw c)) L' (upd lc c t) clk ∧ s'.code = c) h1 (by
        rintro s1 L1 ⟨hi1, hc1⟩
        refine good_mono (other_flat t hi1) (fun _ _ h => ⟨h.1, h.2.1, h.2.2.trans hc1⟩) ?_
        rintro n ⟨a, b, d⟩
        rw [hc1] at a
        rw [a] at b d
        simp only [upd_self] at b d
        exact ⟨a, b, d⟩)
    have h3 := good_bind (f := fun s => loop hw t true cs s true) (good_mono h2 (fun _ _ h => h)
        (C' := fun n => n.code ∈ c :: cs ∧ n.time = t ∧ n.down = hw n.code) (by
          rintro n ⟨a, b, d⟩
          exact ⟨by simp [a], b, by rw [a]; exact d⟩))
      (Q' := fun s' L' => Inv s' (fun x => if x ∈ c :: cs then hw x else P x) L'
          (fun x => if x ∈ c :: cs then t else lc x) clk ∧ (s'.code = s.code ∧ c :: cs = [] ∨ s'.code ∈ c :: cs)) (by
        rintro s2 L2 ⟨hf2, hi2, hc2⟩
        rw [hP, hlc]
        refine good_mono (ih hf2 hi2 hn.2 ?_) (fun _ _ h => ⟨h.1, h.2.elim
            (fun h => Or.inr (by rw [h.1, hc2]; simp)) (fun h => Or.inr (List.mem_cons_of_mem _ h))⟩) ?_
        · intro x hx
          have : c ≠ x := fun h => hn.1 (h ▸ hx)
          simp only [upd, this, if_false]
          exact hp x (List.mem_cons_of_mem _ hx)
        · rintro n ⟨a, b, d⟩
          exact ⟨List.mem_cons_of_mem _ a, b, d⟩)
    simpa [loop] using h3

theorem handleState_inv {s : State} {P L hw : Nat → Bool} {lc : Nat → Nat} {t clk : Nat} (ht : t ≤ clk)
    (h : Inv s P L lc clk) (hne : changedButtons hw P ≠ []) :
    Good L (fun s' L' => Inv s' (fun x => if x ∈ changedButtons hw P then hw x else P x) L'
          (fun x => if x ∈ changedButtons hw P then t else lc x) clk ∧
          s'.code ∈ changedButtons hw P)
        (fun n => (n.time = lc n.code ∧ n.down = P n.code) ∨
          (n.code ∈ changedButtons hw P ∧ n.time = t ∧ n.down = hw n.code))
        (handleState s hw P t) := by
  have hnd : (changedButtons hw P).Nodup := by
    unfold changedButtons buttonCodes
    exact List.Nodup.sublist (List.take_sublist _ _)
      ((List.nodup_range.sublist List.filter_sublist).sublist List.filter_sublist)
  have hch : ∀ c ∈ changedButtons hw P, P c = !hw c := by
    intro c hc
    have := List.mem_of_mem_take hc
    simp only [List.mem_filter, bne_iff_ne, ne_eq] at this
    have h2 := this.2
    cases h1 : P c <;> cases h3 : hw c <;> simp_all
  unfold handleState
  generalize changedButtons hw P = cs at *
  obtain ⟨c, rest, rfl⟩ : ∃ c rest, cs = c :: rest := by
    cases cs with
    | nil => exact absurd rfl hne
    | cons c rest => exact ⟨c, rest, rfl⟩
  by_cases hm : rest = []
  · subst hm
    have hsing : ∀ {β : Type} (f g : Nat → β) , (fun x => if x ∈ [c] then f x else g x) = upd g c (f c) := by
      intro β f g
      funext x
      by_cases hx : c = x
      · subst hx; simp [upd]
      · simp [upd, hx, Ne.symm hx]
    have hsing2 : (fun x => if x ∈ [c] then t else lc x) = upd lc c t := hsing (fun _ => t) lc
    rw [hsing hw P, hsing2]
    simp only [List.length_singleton, Nat.lt_irrefl, decide_false, Bool.false_or, List.headD_cons]
    by_cases hcode : c = s.code
    · have h1 : (c != s.code) = false := by simp [hcode]
      simp only [h1, Bool.false_eq_true, if_false]
      have h2 := event_same t (hw c) h (by rw [← hcode]; exact hch c (by simp)) ht
      rw [← hcode] at h2
      have h3 : ({ s with code := c } : State) = s := by rw [hcode]
      have h4 : loop hw t false [c] s false = handle s (if hw c = true then .press else .release) t := by
        simp [loop, h3]
      rw [h4]
      refine good_mono h2 (fun _ _ h => ⟨h.1, by simp [h.2]⟩) ?_
      rintro n ⟨a, b, d⟩
      exact Or.inr ⟨by simp [a], b, by rw [a]; exact d⟩
    · have h1 : (c != s.code) = true := by simp [hcode]
      simp only [h1, if_true]
      have h2 := other_flat t h
      refine good_bind (f := fun s => loop hw t false [c] s true)
        (good_mono h2 (fun _ _ h => h) (C' := fun n => (n.time = lc n.code ∧ n.down = P n.code) ∨
          (n.code ∈ [c] ∧ n.time = t ∧ n.down = hw n.code)) (fun n hn => Or.inl hn.2)) ?_
      rintro s1 L1 ⟨hf1, hi1, hc1⟩
      have h5 := event_flat (lc := lc) (clk := clk) t c (hw c) hf1 (hch c (by simp)) ht
      have h4 : loop hw t false [c] s1 true = handle { (if (s1.st != .disabled) = true then setSt s1 (if hw c then .isUp else .isDown) else s1) with code := c }
        (if hw c then .press else .release) t := by
        simp [loop]
      rw [h4]
      refine good_mono h5 (fun _ _ h => ⟨h.1, by simp [h.2]⟩) ?_
      rintro n ⟨a, b, d⟩
      exact Or.inr ⟨by simp [a], b, by rw [a]; exact d⟩
  · have hlen : 1 < (c :: rest).length := by
      have := List.length_pos_iff.mpr hm
      simp; omega
    simp only [hlen, decide_true, Bool.true_or, if_true]
    refine good_bind (f := fun s => loop hw t true (c :: rest) s true)
        (good_mono (other_flat t h) (fun _ _ h => h) (C' := fun n => (n.time = lc n.code ∧ n.down = P n.code) ∨
          (n.code ∈ c :: rest ∧ n.time = t ∧ n.down = hw n.code)) (fun n hn => Or.inl hn.2)) ?_
    rintro s1 L1 ⟨hf1, hi1, hc1⟩
    exact good_mono (loop_multi ht (c :: rest) hf1 hi1 hnd hch) (fun _ _ h => ⟨h.1, h.2.elim (fun h => by cases h.2) id⟩) (fun n hn => Or.inr hn)

/-! ### Frames -/

theorem foldl_processKey (keys : List (Nat × Bool)) (d : Dev) :
    let d' := keys.foldl (fun d k => processKey d k.1 k.2) d
    d'.deb = d.deb ∧ d'.last = d.last ∧ d'.hw = applyKeys d.hw keys ∧
      (d'.pending = false → d.pending = false ∧ d'.hw = d.hw) := by
  induction keys generalizing d with
  | nil => simp [applyKeys]
  | cons k ks ih =>
    simp only [List.foldl_cons]
    have h := ih (processKey d k.1 k.2)
    simp only at h
    obtain ⟨h1, h2, h3, h4⟩ := h
    have hdeb : (processKey d k.1 k.2).deb = d.deb := by unfold processKey; split <;> (try split) <;> rfl
    have hlast : (processKey d k.1 k.2).last = d.last := by unfold processKey; split <;> (try split) <;> rfl
    have hhw : (processKey d k.1 k.2).hw
        = if isButton k.1 then (fun c => if c = k.1 then k.2 else d.hw c) else d.hw := by
      unfold processKey
      by_cases hb : isButton k.1
      · simp only [hb, Bool.not_true, Bool.false_eq_true, if_false, if_true]
        split
        · rename_i he
          funext c
          by_cases hc : c = k.1
          · subst hc; simp [he]
          · simp [hc]
        · funext c
          by_cases hc : c = k.1
          · simp [hc]
          · simp [hc, Ne.symm hc]
      · simp [hb]
    have hpend : (processKey d k.1 k.2).pending = false → d.pending = false ∧ (processKey d k.1 k.2).hw = d.hw := by
      unfold processKey; split
      · intro h; exact ⟨h, rfl⟩
      · split
        · intro h; exact ⟨h, rfl⟩
        · intro h; cases h
    refine ⟨h1.trans hdeb, h2.trans hlast, ?_, ?_⟩
    · rw [h3, hhw]; simp [applyKeys]
    · intro hp
      obtain ⟨h5, h6⟩ := h4 hp
      obtain ⟨h7, h8⟩ := hpend h5
      exact ⟨h7, h6.trans h8⟩

theorem applyKeys_ne (p : Nat → Bool) (keys : List (Nat × Bool)) (c : Nat)
    (h : applyKeys p keys c ≠ p c) : c ∈ keys.map Prod.fst ∧ isButton c = true := by
  induction keys generalizing p with
  | nil => exact absurd rfl h
  | cons k ks ih =>
    simp only [applyKeys, List.foldl_cons] at h
    by_cases hb : isButton k.1
    · simp only [hb, if_true] at h
      by_cases hc : c = k.1
      · subst hc; exact ⟨by simp, hb⟩
      · have := ih (fun c => if c = k.1 then k.2 else p c) (by
          simp only [applyKeys, hc, if_false]; exact h)
        exact ⟨by simp [this.1], this.2⟩
    · simp only [hb, if_false, Bool.false_eq_true] at h
      have := ih p h
      exact ⟨by simp [this.1], this.2⟩

theorem isButton_le {c : Nat} (h : isButton c = true) : c ≤ KEY_MAX := by
  unfold isButton getKeyType at h
  unfold KEY_MAX
  split at h
  · simp at h
  · split at h
    · simp at h
    · split at h
      · omega
      · split at h
        · simp at h
        · split at h
          · omega
          · split at h
            · simp at h
            · split at h
              · omega
              · simp at h

theorem mem_buttonCodes {c : Nat} : c ∈ buttonCodes ↔ isButton c = true := by
  unfold buttonCodes
  simp only [List.mem_filter, List.mem_range]
  constructor
  · exact fun h => h.2
  · intro h
    have := isButton_le h
    exact ⟨by omega, h⟩

theorem mem_changed {p : Nat → Bool} {keys : List (Nat × Bool)} (hlen : keys.length ≤ 16) (c : Nat) :
    c ∈ changedButtons (applyKeys p keys) p ↔ applyKeys p keys c ≠ p c := by
  have hfull : (buttonCodes.filter (fun c => applyKeys p keys c != p c)).length ≤ 16 := by
    have hsub : (buttonCodes.filter (fun c => applyKeys p keys c != p c)) ⊆ keys.map Prod.fst := by
      intro x hx
      simp only [List.mem_filter, bne_iff_ne] at hx
      exact (applyKeys_ne p keys x hx.2).1
    have hnd : (buttonCodes.filter (fun c => applyKeys p keys c != p c)).Nodup := by
      unfold buttonCodes
      exact (List.nodup_range.sublist List.filter_sublist).sublist List.filter_sublist
    have := ListL.nodup_subset_length _ _ hnd hsub
    simp only [List.length_map] at this
    omega
  unfold changedButtons
  rw [List.take_of_length_le hfull]
  simp only [List.mem_filter, bne_iff_ne]
  constructor
  · exact fun h => h.2
  · exact fun h => ⟨mem_buttonCodes.mpr (applyKeys_ne p keys c h).2, h⟩

/-- Device-level invariant. -/
structure DInv (d : Dev) (w : World) (L : Nat → Bool) : Prop where
  inv : Inv d.deb w.phys L w.changedAt w.latest
  hw : d.hw = w.phys
  last : d.last = w.phys
  pend : d.pending = false

/-- Content of the notifications made while processing `op` in world `w`. -/
def NoteOk (w : World) (op : Op) (n : Notify) : Prop :=
  (n.time = w.changedAt n.code ∧ n.down = w.phys n.code) ∨
  ((stepWorld w op).phys n.code ≠ w.phys n.code ∧
    n.time = (stepWorld w op).changedAt n.code ∧ n.down = (stepWorld w op).phys n.code)

/-- In a pending state the long timer runs out at most 25ms after the last change. -/
def InvT (s : State) (w : World) (L : Nat → Bool) : Prop :=
  w.phys s.code ≠ L s.code → ∀ b, s.timer = some b → b ≤ w.changedAt s.code + 25000

theorem after_ne {P L : Nat → Bool} {es : List (Edge Nat)} (h : ∀ e ∈ es, e.down = P e.key) {c : Nat}
    (hne : P c ≠ after L es c) : P c ≠ L c := by
  induction es generalizing L with
  | nil => exact hne
  | cons e es ih =>
    simp only [after] at hne
    have := ih (fun x hx => h x (List.mem_cons_of_mem _ hx)) hne
    by_cases hc : e.key = c
    · simp only [hc, if_true] at this
      rw [← hc] at this
      exact absurd (h e (by simp)).symm this
    · simpa [hc] using this

theorem fire_invT {s : State} {w : World} {L : Nat → Bool} (now : Nat)
    (h : Inv s w.phys L w.changedAt w.latest) (hT : InvT s w L) :
    InvT (fire s now).1 w (after L ((fire s now).2.map Notify.edge)) := by
  obtain ⟨_, ⟨_, hc, _, ht⟩, hn⟩ := fire_inv now h
  intro hne b hb
  rw [hc] at hne ⊢
  refine hT (after_ne ?_ hne) b (ht b hb).2
  intro e he
  simp only [List.mem_map] at he
  obtain ⟨n, hn1, rfl⟩ := he
  exact (hn n hn1).2.2

def DGood (L : Nat → Bool) (Q : Dev → (Nat → Bool) → Prop) (C : Notify → Prop)
    (r : Dev × List Notify) : Prop :=
  Valid L (r.2.map Notify.edge) ∧ Q r.1 (after L (r.2.map Notify.edge)) ∧ ∀ n ∈ r.2, C n

theorem step_inv {d : Dev} {w : World} {L : Nat → Bool} (op : Op)
    (h16 : ∀ t keys, op = .frame t keys → keys.length ≤ 16) (h : DInv d w L) :
    DGood L (fun d' L' => DInv d' (stepWorld w op) L' ∧
        ((∀ t keys, op = .frame t keys → w.latest ≤ t) → InvT d.deb w L → InvT d'.deb (stepWorld w op) L'))
      (NoteOk w op) (step d op) := by
  obtain ⟨hi, hhw, hlast, hpend⟩ := h
  cases op with
  | timer now =>
    obtain ⟨hv, ⟨hi', _⟩, hc⟩ := fire_inv now hi
    exact ⟨hv, ⟨⟨hi', hhw, hlast, hpend⟩, fun _ hT => fire_invT now hi hT⟩, fun n hn => Or.inl (hc n hn).2⟩
  | frame t keys =>
    have hlen := h16 t keys rfl
    obtain ⟨hv, ⟨hi', _⟩, hc⟩ := fire_inv t hi
    have hf := foldl_processKey keys { d with deb := (fire d.deb t).1 }
    simp only at hf
    obtain ⟨f1, f2, f3, f4⟩ := hf
    simp only [step]
    generalize hd' : keys.foldl (fun d k => processKey d k.1 k.2) { d with deb := (fire d.deb t).1 } = d' at *
    rw [hhw] at f3
    rw [hlast] at f2
    have hlc : (fun x => if x ∈ changedButtons (applyKeys w.phys keys) w.phys then t else w.changedAt x)
        = (stepWorld w (.frame t keys)).changedAt := by
      funext x
      simp only [stepWorld, mem_changed hlen]
    have hP : (fun x => if x ∈ changedButtons (applyKeys w.phys keys) w.phys then applyKeys w.phys keys x else w.phys x)
        = (stepWorld w (.frame t keys)).phys := by
      funext x
      simp only [stepWorld]
      split
      · rfl
      · rename_i hx
        rw [mem_changed hlen] at hx
        exact (by simpa using hx : _ = _).symm
    have hnochange : applyKeys w.phys keys = w.phys →
        (stepWorld w (.frame t keys)).phys = w.phys ∧ (stepWorld w (.frame t keys)).changedAt = w.changedAt := by
      intro he
      simp [stepWorld, he]
    have hi2 : Inv d'.deb w.phys (after L ((fire d.deb t).2.map Notify.edge)) w.changedAt (stepWorld w (.frame t keys)).latest := by
      rw [f1]
      exact inv_clk hi' (by simp [stepWorld]; omega)
    have hquiet : applyKeys w.phys keys = w.phys → ∀ dd : Dev, dd.deb = d'.deb → dd.hw = d'.hw → dd.last = w.phys → dd.pending = false →
        DGood L (fun d' L' => DInv d' (stepWorld w (.frame t keys)) L' ∧
          ((∀ t' keys', Op.frame t keys = .frame t' keys' → w.latest ≤ t') → InvT d.deb w L → InvT d'.deb (stepWorld w (.frame t keys)) L'))
          (NoteOk w (.frame t keys)) (dd, (fire d.deb t).2 ++ []) := by
      intro he dd e1 e2 e3 e4
      obtain ⟨n1, n2⟩ := hnochange he
      rw [List.append_nil]
      refine ⟨hv, ⟨⟨?_, ?_, ?_, e4⟩, ?_⟩, fun n hn => Or.inl (hc n hn).2⟩
      · simp only [n1, n2, e1]; exact hi2
      · rw [e2, f3, n1, he]
      · rw [e3, n1]
      · intro _ hT
        have := fire_invT t hi hT
        simp only [InvT, n1, n2]
        simp only [e1, f1]
        exact this
    unfold sync
    by_cases hp : d'.pending = true
    · simp only [hp, if_true]
      rw [f2, f3]
      by_cases hany : buttonCodes.any (fun c => applyKeys w.phys keys c != w.phys c) = true
      · simp only [hany, if_true]
        have hne : changedButtons (applyKeys w.phys keys) w.phys ≠ [] := by
          simp only [List.any_eq_true, bne_iff_ne] at hany
          obtain ⟨x, hx1, hx2⟩ := hany
          intro he
          have := (mem_changed (p := w.phys) hlen x).mpr hx2
          rw [he] at this; cases this
        have hs := handleState_inv (hw := applyKeys w.phys keys) (t := t)
          (by simp [stepWorld]; omega) hi2 hne
        rw [hlc, hP] at hs
        generalize handleState d'.deb (applyKeys w.phys keys) w.phys t = r at hs ⊢
        obtain ⟨sv, si, sc⟩ := hs
        refine ⟨?_, ⟨⟨?_, ?_, ?_, rfl⟩, ?_⟩, ?_⟩
        · simp only [List.map_append]; rw [valid_append]; exact ⟨hv, sv⟩
        · simp only [List.map_append]; rw [after_append]; exact si.1
        · rfl
        · rfl
        · intro hmono _ _ b hb
          have h1 := si.1.bndT b hb
          have h2 := hmono t keys rfl
          have h3 := si.2
          rw [mem_changed hlen] at h3
          simp only [stepWorld] at h1 ⊢
          simp only [h3, ne_eq, not_false_eq_true, if_true]
          omega
        · intro n hn
          rcases List.mem_append.mp hn with hn | hn
          · exact Or.inl (hc n hn).2
          · rcases sc n hn with hn | ⟨m1, m2, m3⟩
            · exact Or.inl hn
            · rw [mem_changed hlen] at m1
              refine Or.inr ⟨m1, ?_, m3⟩
              simp only [stepWorld, m1, ne_eq, not_false_eq_true, if_true, m2]
      · simp only [hany, Bool.false_eq_true, if_false]
        have he : applyKeys w.phys keys = w.phys := by
          funext x
          by_cases hx : applyKeys w.phys keys x = w.phys x
          · exact hx
          · exfalso; apply hany
            simp only [List.any_eq_true, bne_iff_ne]
            exact ⟨x, mem_buttonCodes.mpr (applyKeys_ne w.phys keys x hx).2, hx⟩
        exact hquiet he _ rfl f3.symm he rfl
    · have hp' : d'.pending = false := by simpa using hp
      simp only [hp', Bool.false_eq_true, if_false]
      have he : applyKeys w.phys keys = w.phys := by
        rw [← f3, (f4 hp').2, hhw]
      exact hquiet he d' rfl rfl f2 hp'

theorem init_inv (en : Bool) : DInv (init en) start (fun _ => false) := by
  refine ⟨⟨by simp [start], ?_, by simp [init], by simp [init], by simp [start], rfl, ?_⟩, rfl, rfl, rfl⟩
  · cases en <;> simp [init, start, rel]
  · cases en <;> simp [init]

theorem run_inv (ops : List Op) {d : Dev} {w : World} {L : Nat → Bool} (h16 : AtMost16 ops) (h : DInv d w L) :
    Valid L ((run d ops).2.map Notify.edge) ∧
    DInv (run d ops).1 (ops.foldl stepWorld w) (after L ((run d ops).2.map Notify.edge)) := by
  induction ops generalizing d w L with
  | nil => exact ⟨trivial, h⟩
  | cons op ops ih =>
    obtain ⟨hv, ⟨hi, _⟩, _⟩ := step_inv op (fun t keys he => h16 t keys (by simp [he])) h
    obtain ⟨hv2, hi2⟩ := ih (fun t keys hm => h16 t keys (List.mem_cons_of_mem _ hm)) hi
    simp only [run, List.map_append, List.foldl_cons]
    rw [valid_append, after_append]
    exact ⟨⟨hv, hv2⟩, hi2⟩

theorem stepWorld_latest (w : World) (op : Op) : w.latest ≤ (stepWorld w op).latest := by
  cases op <;> simp [stepWorld]; omega

theorem run_invT (ops : List Op) {d : Dev} {w : World} {L : Nat → Bool} (h16 : AtMost16 ops)
    (hord : FramesInOrder ops) (hlo : ∀ t keys, Op.frame t keys ∈ ops → w.latest ≤ t)
    (h : DInv d w L) (hT : InvT d.deb w L) :
    InvT (run d ops).1.deb (ops.foldl stepWorld w) (after L ((run d ops).2.map Notify.edge)) := by
  induction ops generalizing d w L with
  | nil => exact hT
  | cons op ops ih =>
    obtain ⟨hv, ⟨hi, hT'⟩, _⟩ := step_inv op (fun t keys he => h16 t keys (by simp [he])) h
    have hT2 := hT' (fun t keys he => hlo t keys (by simp [he])) hT
    have hord' : FramesInOrder ops := by
      cases op with
      | frame t keys => exact hord.2
      | timer now => exact hord
    have hlo' : ∀ t keys, Op.frame t keys ∈ ops → (stepWorld w op).latest ≤ t := by
      intro t keys hm
      have h1 := hlo t keys (List.mem_cons_of_mem _ hm)
      cases op with
      | frame t0 keys0 =>
        have := hord.1 t keys hm
        simp only [stepWorld]; omega
      | timer now => exact h1
    have := ih (fun t keys hm => h16 t keys (List.mem_cons_of_mem _ hm)) hord' hlo' hi hT2
    simp only [run, List.map_append, List.foldl_cons]
    rw [after_append]
    exact this

/-- After a timer dispatch late enough for everything armed, nothing is pending. -/
theorem fire_settles {s : State} {P L : Nat → Bool} {lc : Nat → Nat} {clk : Nat} (now : Nat)
    (h : Inv s P L lc clk) (hlate : P s.code ≠ L s.code → ∀ b, s.timer = some b → b ≤ now) (c : Nat) :
    after L ((fire s now).2.map Notify.edge) c = P c := by
  obtain ⟨_, ⟨hi, hc, hS, hT⟩, hn⟩ := fire_inv now h
  generalize fire s now = r at *
  by_cases hcc : c = s.code
  · subst hcc
    by_cases hpend : P s.code = L s.code
    · -- not pending before: notifications only repeat the physical state
      by_cases hx : P s.code = after L (r.2.map Notify.edge) s.code
      · exact hx.symm
      · exact absurd hpend (after_ne (P := P) (L := L) (es := r.2.map Notify.edge) (by
          intro e he
          simp only [List.mem_map] at he
          obtain ⟨n, hn1, rfl⟩ := he
          exact (hn n hn1).2.2) hx)
    · have hTn : r.1.timer = none := by
        cases ht : r.1.timer with
        | none => rfl
        | some b =>
          have h1 := hT b ht
          have := hlate hpend b h1.2
          omega
      have hr := hi.rel
      rw [hTn, hc] at hr
      cases hst : r.1.st <;> simp_all [rel]
  · have := hi.other c (by rw [hc]; exact hcc)
    exact this

theorem run_append (d : Dev) (a b : List Op) :
    run d (a ++ b) = ((run (run d a).1 b).1, (run d a).2 ++ (run (run d a).1 b).2) := by
  induction a generalizing d with
  | nil => simp [run]
  | cons op ops ih => simp [run, ih]

end Libinput.Debounce
