import Verif.Buttons.Model
namespace Libinput.Buttons
open Libinput.Spec Libinput.Alt

/-- What a client sees of an event. -/
def Ev.edge (e : Ev) : Edge Nat := ⟨e.code, e.down⟩

/-- The net number of presses of `code` in a sequence of calls, as an integer.
Specification helper: it only looks at the calls. -/
def net (calls : List Call) (code : Nat) : Int :=
  (calls.map (fun c => if c.code = code then (if c.pressed then 1 else -1) else 0)).sum

theorem net_cons (c : Call) (cs : List Call) (k : Nat) :
    net (c :: cs) k = (if c.code = k then (if c.pressed then 1 else -1) else 0) + net cs k := by
  simp [net]

theorem post_ok_edges {cnt cnt' : Counts} {t c : Nat} {p : Bool} {evs : List Ev}
    (h : post cnt t c p = .ok (cnt', evs)) :
    Valid (fun k => decide (0 < cnt k)) (evs.map Ev.edge) ∧
    after (fun k => decide (0 < cnt k)) (evs.map Ev.edge) = (fun k => decide (0 < cnt' k)) ∧
    (∀ k, (cnt' k : Int) = cnt k + (if c = k then (if p then 1 else -1) else 0)) := by
  unfold post updateKeyDownCount at h
  cases p <;> simp only [Bool.false_eq_true, if_false, if_true] at h
  · split at h
    · cases h
    rename_i x cnt2 n heq
    split at heq
    · cases heq
    split at heq
    · cases heq
    rename_i hlt hne
    simp only [Except.ok.injEq, Prod.mk.injEq] at heq
    obtain ⟨rfl, rfl⟩ := heq
    simp at h
    by_cases h1 : cnt c - 1 = 0
    · have hc : cnt c = 1 := by omega
      simp [hc] at h
      obtain ⟨rfl, rfl⟩ := h
      refine ⟨by simp [Valid, Ev.edge, hc], ?_, ?_⟩
      · funext k
        simp only [List.map_cons, List.map_nil, Ev.edge, after, set]
        by_cases hk : k = c
        · simp [hk]
        · simp [hk, Ne.symm hk]
      · intro k; simp only [set]
        by_cases hk : k = c
        · subst hk; simp [hc]
        · have : ¬ c = k := fun h => hk h.symm
          simp [hk, this]
    · simp [h1] at h
      obtain ⟨rfl, rfl⟩ := h
      refine ⟨by simp, ?_, ?_⟩
      · funext k
        simp only [List.map_nil, after, set]
        by_cases hk : k = c
        · subst hk; simp; omega
        · simp [hk]
      · intro k; simp only [set]
        by_cases hk : k = c
        · subst hk; simp; omega
        · have : ¬ c = k := fun h => hk h.symm
          simp [hk, this]
  · split at h
    · cases h
    rename_i x cnt2 n heq
    split at heq
    · cases heq
    split at heq
    · cases heq
    rename_i hlt hne
    simp only [Except.ok.injEq, Prod.mk.injEq] at heq
    obtain ⟨rfl, rfl⟩ := heq
    by_cases h1 : cnt c = 0
    · simp [h1] at h
      obtain ⟨rfl, rfl⟩ := h
      refine ⟨by simp [Valid, Ev.edge, h1], ?_, ?_⟩
      · funext k
        simp only [List.map_cons, List.map_nil, Ev.edge, after, set]
        by_cases hk : k = c
        · simp [hk]
        · simp [hk, Ne.symm hk]
      · intro k; simp only [set]
        by_cases hk : k = c
        · subst hk; simp [h1]
        · have : ¬ c = k := fun h => hk h.symm
          simp [hk, this]
    · simp [h1] at h
      obtain ⟨rfl, rfl⟩ := h
      refine ⟨by simp, ?_, ?_⟩
      · funext k
        simp only [List.map_nil, after, set]
        by_cases hk : k = c
        · subst hk; simp; omega
        · simp [hk]
      · intro k; simp only [set]
        by_cases hk : k = c
        · subst hk; simp
        · have : ¬ c = k := fun h => hk h.symm
          simp [hk, this]

theorem run_valid (calls : List Call) (cnt : Counts) :
    Valid (fun k => decide (0 < cnt k)) ((run cnt calls).1.map Ev.edge) := by
  induction calls generalizing cnt with
  | nil => simp [run]
  | cons c cs ih =>
    unfold run
    cases h : post cnt c.time c.code c.pressed with
    | error e => simp
    | ok r =>
      obtain ⟨cnt', evs⟩ := r
      obtain ⟨hv, ha, _⟩ := post_ok_edges h
      simp only [List.map_append]
      rw [valid_append]
      exact ⟨hv, by rw [ha]; exact ih cnt'⟩

theorem run_after (calls : List Call) (cnt : Counts) (hok : (run cnt calls).2 = none) :
    after (fun k => decide (0 < cnt k)) ((run cnt calls).1.map Ev.edge)
      = fun k => decide (0 < (cnt k : Int) + net calls k) := by
  induction calls generalizing cnt with
  | nil => funext k; simp [run, net]
  | cons c cs ih =>
    unfold run at hok ⊢
    cases h : post cnt c.time c.code c.pressed with
    | error e => simp [h] at hok
    | ok r =>
      obtain ⟨cnt', evs⟩ := r
      obtain ⟨hv, ha, hc⟩ := post_ok_edges h
      simp only [h] at hok ⊢
      simp only [List.map_append]
      rw [after_append, ha, ih cnt' hok]
      funext k
      rw [hc k, net_cons]
      congr 1
      apply propext
      constructor <;> intro h <;> omega

theorem post_ok_iff (cnt : Counts) (t c : Nat) (p : Bool) :
    (∃ r, post cnt t c p = .ok r) ↔ c < KEY_CNT ∧ (if p then cnt c ≠ 255 else cnt c ≠ 0) := by
  unfold post updateKeyDownCount
  by_cases hc : KEY_CNT ≤ c
  · simp [hc, Nat.not_lt.mpr hc]
  · have : c < KEY_CNT := by omega
    cases p
    · by_cases h0 : cnt c = 0
      · simp [hc, h0]
      · simp only [hc, h0, if_false, Bool.false_eq_true, ne_eq, not_false_eq_true, and_true, this, iff_true]
        split <;> exact ⟨_, rfl⟩
    · by_cases h0 : cnt c = 255
      · simp [hc, h0]
      · simp only [hc, h0, if_false, if_true, ne_eq, not_false_eq_true, and_true, this, iff_true]
        split <;> exact ⟨_, rfl⟩

theorem run_ok_iff (calls : List Call) (cnt : Counts) (hle : ∀ k, cnt k ≤ 255) :
    (run cnt calls).2 = none ↔
      (∀ c ∈ calls, c.code < KEY_CNT) ∧
      ∀ pre post, calls = pre ++ post → ∀ k, 0 ≤ (cnt k : Int) + net pre k ∧ (cnt k : Int) + net pre k ≤ 255 := by
  induction calls generalizing cnt with
  | nil =>
    simp only [run, List.not_mem_nil, false_imp_iff, implies_true, true_and, true_iff]
    intro pre post h k
    have : pre = [] := by
      cases pre <;> simp_all
    subst this
    have := hle k
    simp [net]; omega
  | cons c cs ih =>
    unfold run
    cases h : post cnt c.time c.code c.pressed with
    | error e =>
      simp only [reduceCtorEq, false_iff]
      rintro ⟨h1, h2⟩
      have hno : ¬ ∃ r, post cnt c.time c.code c.pressed = .ok r := by
        rw [h]; simp
      rw [post_ok_iff] at hno
      have hc := h1 c (by simp)
      have := h2 [c] cs (by simp) c.code
      rw [net_cons] at this
      simp only [net, List.map_nil, List.sum_nil, if_true] at this
      cases hp : c.pressed <;> simp [hp, hc] at hno this <;> omega
    | ok r =>
      obtain ⟨cnt', evs⟩ := r
      have hex : ∃ r, post cnt c.time c.code c.pressed = .ok r := ⟨_, h⟩
      rw [post_ok_iff] at hex
      obtain ⟨hv, ha, hc⟩ := post_ok_edges h
      have hle' : ∀ k, cnt' k ≤ 255 := by
        intro k
        have h1 := hc k
        have h2 := hle k
        by_cases hk : c.code = k
        · subst hk
          cases hp : c.pressed <;> simp [hp] at h1 hex <;> omega
        · simp [hk] at h1; omega
      simp only
      rw [ih cnt' hle']
      constructor
      · rintro ⟨h1, h2⟩
        refine ⟨?_, ?_⟩
        · intro d hd
          rcases List.mem_cons.mp hd with rfl | hd
          · exact hex.1
          · exact h1 d hd
        · intro pre post heq k
          cases pre with
          | nil =>
            have := hle k
            simp [net]; omega
          | cons d ds =>
            simp only [List.cons_append, List.cons.injEq] at heq
            obtain ⟨rfl, heq⟩ := heq
            have := h2 ds post heq k
            rw [hc k] at this
            rw [net_cons]; omega
      · rintro ⟨h1, h2⟩
        refine ⟨fun d hd => h1 d (List.mem_cons_of_mem _ hd), ?_⟩
        intro pre post heq k
        have := h2 (c :: pre) post (by simp [heq]) k
        rw [net_cons] at this
        rw [hc k]; omega

end Libinput.Buttons

namespace Libinput.Buttons
open Libinput.Spec Libinput.Alt

/-- The counts after a sequence of calls, or `none` if the program stopped. -/
def exec (cnt : Counts) : List Call → Option Counts
  | [] => some cnt
  | c :: cs =>
    match post cnt c.time c.code c.pressed with
    | .error _ => none
    | .ok (cnt', _) => exec cnt' cs

theorem exec_append (cnt : Counts) (a b : List Call) :
    exec cnt (a ++ b) = (exec cnt a).bind (fun c => exec c b) := by
  induction a generalizing cnt with
  | nil => simp [exec]
  | cons c cs ih =>
    simp only [List.cons_append, exec]
    split
    · rfl
    · rw [ih]

theorem exec_press {cnt : Counts} {t c : Nat} {cs : List Call} (hc : c < KEY_CNT) (h : cnt c < 255) :
    exec cnt (⟨t, c, true⟩ :: cs) = exec (set cnt c (cnt c + 1)) cs := by
  have h1 : ¬ KEY_CNT ≤ c := by omega
  have h2 : ¬ cnt c = 255 := by omega
  simp only [exec, post, updateKeyDownCount, h1, h2, if_false, if_true]
  split <;> rename_i h <;> split at h <;> simp_all

theorem exec_release {cnt : Counts} {t c : Nat} {cs : List Call} (hc : c < KEY_CNT) (h : 0 < cnt c) :
    exec cnt (⟨t, c, false⟩ :: cs) = exec (set cnt c (cnt c - 1)) cs := by
  have h1 : ¬ KEY_CNT ≤ c := by omega
  have h2 : ¬ cnt c = 0 := by omega
  simp only [exec, post, updateKeyDownCount, h1, h2, if_false, Bool.false_eq_true]
  split <;> rename_i h <;> split at h <;> simp_all

theorem run_of_exec {cnt cnt' : Counts} {calls : List Call} (h : exec cnt calls = some cnt') :
    (run cnt calls).2 = none ∧
    after (fun k => decide (0 < cnt k)) ((run cnt calls).1.map Ev.edge) = fun k => decide (0 < cnt' k) := by
  induction calls generalizing cnt with
  | nil => simp only [exec, Option.some.injEq] at h; subst h; simp [run]
  | cons c cs ih =>
    simp only [exec] at h
    unfold run
    cases hp : post cnt c.time c.code c.pressed with
    | error e => simp [hp] at h
    | ok r =>
      obtain ⟨c2, evs⟩ := r
      simp only [hp] at h
      obtain ⟨hn, ha⟩ := ih h
      obtain ⟨_, ha1, _⟩ := post_ok_edges hp
      refine ⟨hn, ?_⟩
      simp only [List.map_append]
      rw [after_append, ha1, ha]

theorem exec_none_of_run {cnt : Counts} {calls : List Call} (h : exec cnt calls = none) :
    (run cnt calls).2 ≠ none := by
  induction calls generalizing cnt with
  | nil => simp [exec] at h
  | cons c cs ih =>
    simp only [exec] at h
    unfold run
    cases hp : post cnt c.time c.code c.pressed with
    | error e => simp
    | ok r =>
      obtain ⟨c2, evs⟩ := r
      simp only [hp] at h
      exact ih h

end Libinput.Buttons
