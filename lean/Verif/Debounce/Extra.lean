import Verif.Debounce.Lemmas
set_option linter.unusedSimpArgs false
/-
Further facts about the debouncer, used where it is composed with the later stages.
-/
namespace Libinput.Debounce
open Libinput.Spec Libinput.Alt Libinput.Debounce.Spec

/-- Nothing to report if every event repeats what is held. -/
theorem valid_none {L : Nat → Bool} {es : List (Edge Nat)} (hv : Valid L es) (h : ∀ e ∈ es, e.down = L e.key) :
    es = [] := by
  cases es with
  | nil => rfl
  | cons e es =>
    have h1 := h e (by simp)
    have h2 := hv.1
    rw [h1] at h2
    cases hl : L e.key <;> rw [hl] at h2 <;> cases h2

/-- A key that is up and is never pressed has no events. -/
theorem valid_never {k : Nat} {es : List (Edge Nat)} : ∀ {L : Nat → Bool}, Valid L es →
    (∀ e ∈ es, e.key = k → e.down = false) → L k = false → ∀ e ∈ es, e.key ≠ k := by
  induction es with
  | nil => intro L _ _ _ e he; cases he
  | cons x xs ih =>
    intro L hv h hk
    have hx : x.key ≠ k := by
      intro he
      have h1 := h x (by simp) he
      have h2 := hv.1
      rw [he, hk, h1] at h2; cases h2
    intro e he
    rcases List.mem_cons.mp he with he | he
    · rw [he]; exact hx
    · exact ih hv.2 (fun y hy => h y (List.mem_cons_of_mem _ hy)) (by simp [hx, hk]) e he

/-- Releases of one key: at most one. -/
theorem valid_releases {k : Nat} {es : List (Edge Nat)} {L : Nat → Bool} (hv : Valid L es)
    (h : ∀ e ∈ es, e.key = k ∧ e.down = false) : es = [] ∨ (es = [⟨k, false⟩] ∧ L k = true) := by
  cases es with
  | nil => exact Or.inl rfl
  | cons x xs =>
    right
    obtain ⟨h1, h2⟩ := h x (by simp)
    have h3 := hv.1
    rw [h1, h2] at h3
    refine ⟨?_, h3⟩
    cases xs with
    | nil =>
      obtain ⟨a, b⟩ := x
      simp only at h1 h2
      subst h1 h2; rfl
    | cons y ys =>
      exfalso
      obtain ⟨h4, h5⟩ := h y (by simp)
      have h6 := hv.2.1
      rw [h1, h4, h2, h5] at h6
      simp at h6

/-- No timer is due. -/
def Fired (s : State) (now : Nat) : Prop :=
  (∀ e, s.timerShort = some e → now < e) ∧ (∀ e, s.timer = some e → now < e)

theorem fire_fired {s : State} {now : Nat} (h : Fired s now) : fire s now = (s, []) := by
  have h1 : fireShort s now = (s, []) := by
    unfold fireShort
    cases ht : s.timerShort with
    | none => rfl
    | some e =>
      have := h.1 e ht
      simp only
      rw [if_neg (by omega)]
  have h2 : fireLong s now = (s, []) := by
    unfold fireLong
    cases ht : s.timer with
    | none => rfl
    | some e =>
      have := h.2 e ht
      simp only
      rw [if_neg (by omega)]
  simp only [fire, h1, h2, List.append_nil]

theorem sync_nochange {d : Dev} (t : Nat) (h : d.hw = d.last) : (sync d t).2 = [] := by
  unfold sync
  split
  · have : buttonCodes.any (fun c => d.hw c != d.last c) = false := by
      rw [List.any_eq_false]
      intro x _
      rw [h]; simp
    rw [this]; rfl
  · rfl

theorem handle_length (s : State) (ev : DEv) (t : Nat) : (handle s ev t).2.length ≤ 1 := by
  rcases s with ⟨st, code, time, tm, ts, sp, bugs⟩
  cases st <;> cases ev <;> cases sp <;>
    simp [handle, isUpH, isDownH, isDownWaitingH, isUpDelayingH, isUpDelayingSpuriousH,
      isUpDetectingSpuriousH, isDownDetectingSpuriousH, isUpWaitingH, isDownDelayingH, disabledH,
      quiet, note, setSt, setTimer, setTime, setTimerShort, logBug, cancelTimer, cancelTimerShort, enableSpurious]

/-- One changed button while nothing is pending: at most one notification. -/
theorem handleState_single {s : State} {P L hw : Nat → Bool} {lc : Nat → Nat} {t clk : Nat}
    (h : Inv s P L lc clk) (hL : ∀ c, L c = P c) {c : Nat} (hch : changedButtons hw P = [c]) :
    (handleState s hw P t).2.length ≤ 1 := by
  have hloop : ∀ s fl, (loop hw t false [c] s fl).2.length ≤ 1 := by
    intro s fl
    simp only [loop, Bool.false_eq_true, if_false, List.append_nil]
    exact handle_length _ _ _
  have hother : (handle s .otherButton t).2 = [] := by
    obtain ⟨hv, _, hn⟩ := other_flat t h
    have := valid_none hv (by
      intro e he
      simp only [List.mem_map] at he
      obtain ⟨n, hn1, rfl⟩ := he
      show n.down = L n.code
      rw [hL]; exact (hn n hn1).2.2)
    simpa using this
  unfold handleState
  simp only [hch, List.length_singleton, Nat.lt_irrefl, decide_false, Bool.false_or]
  split
  · simp only [hother, List.nil_append]
    exact hloop _ _
  · exact hloop _ _

theorem sync_single {d : Dev} {w : World} {L : Nat → Bool} {keys : List (Nat × Bool)} {t : Nat} (h : DInv d w L)
    (hL : ∀ c, L c = w.phys c) (h16 : keys.length ≤ 16) {c : Nat}
    (hch : ∀ x, applyKeys w.phys keys x ≠ w.phys x ↔ x = c) :
    (sync (keys.foldl (fun d k => processKey d k.1 k.2) d) t).2.length ≤ 1 := by
  have hf := foldl_processKey keys d
  simp only at hf
  obtain ⟨f1, f2, f3, _⟩ := hf
  generalize keys.foldl (fun d k => processKey d k.1 k.2) d = d' at *
  have hchanged : changedButtons (applyKeys w.phys keys) w.phys = [c] := by
    have hnd : (changedButtons (applyKeys w.phys keys) w.phys).Nodup := by
      unfold changedButtons buttonCodes
      exact List.Nodup.sublist (List.take_sublist _ _)
        ((List.nodup_range.sublist List.filter_sublist).sublist List.filter_sublist)
    have hmem : ∀ x, x ∈ changedButtons (applyKeys w.phys keys) w.phys ↔ x = c := by
      intro x; rw [mem_changed h16, hch]
    generalize changedButtons (applyKeys w.phys keys) w.phys = l at *
    cases l with
    | nil => have := (hmem c).mpr rfl; cases this
    | cons a l =>
      have ha := (hmem a).mp (by simp)
      subst ha
      cases l with
      | nil => rfl
      | cons b l =>
        have hb := (hmem b).mp (by simp)
        subst hb
        simp at hnd
  unfold sync
  split
  · simp only
    split
    · rw [f1, f2, f3, h.last, h.hw]
      exact handleState_single h.inv hL hchanged
    · simp
  · simp

end Libinput.Debounce
