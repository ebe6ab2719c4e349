import Verif.Tablet.Contact
import Verif.Tablet.ValuesProps
/-
C47: the tip of a pen follows its pressure.
-/
namespace Libinput.Tablet

theorem near_stays (es : List Ev) : ∀ b, (∀ e ∈ es, shows e = false) → es.foldl nearStep b = true → ∀ e ∈ es, isOut e = false := by
  induction es with
  | nil => intro b _ _ e he; cases he
  | cons a es ih =>
    intro b hs h
    have hs' : ∀ e ∈ es, shows e = false := fun e he => hs e (by simp [he])
    have stuck : ∀ l : List Ev, (∀ e ∈ l, shows e = false) → l.foldl nearStep false = false := by
      intro l
      induction l with
      | nil => intro _; rfl
      | cons c l ihl =>
        intro hl
        have hc := hl c (by simp)
        have : nearStep false c = false := by
          cases c with
          | prox i d => cases i <;> first | rfl | cases hc
          | _ => rfl
        rw [List.foldl_cons, this]
        exact ihl (fun e he => hl e (by simp [he]))
    intro e he
    rcases List.mem_cons.1 he with rfl | he
    · cases e with
      | prox i d =>
        cases i with
        | true => rfl
        | false =>
          rw [List.foldl_cons] at h
          have := stuck es hs'
          simp only [nearStep] at h
          rw [this] at h; cases h
      | _ => rfl
    · exact ih _ hs' h e he

theorem tells (es : List Ev) : ∀ b, es.foldl nearStep b = true → (∃ e ∈ es, shows e = true) → Tells es := by
  induction es with
  | nil => rintro b _ ⟨e, he, _⟩; cases he
  | cons a es ih =>
    rintro b h ⟨e, he, hs⟩
    by_cases hx : ∃ e ∈ es, shows e = true
    · obtain ⟨x, c, y, rfl, hc, hy⟩ := ih _ h hx
      exact ⟨a :: x, c, y, rfl, hc, hy⟩
    · have hn : ∀ e ∈ es, shows e = false := by
        intro e he
        cases h : shows e
        · rfl
        · exact absurd ⟨e, he, h⟩ hx
      rcases List.mem_cons.1 he with rfl | he
      · exact ⟨[], e, es, rfl, hs, near_stays es _ hn h⟩
      · rw [hn e he] at hs; cases hs

/-! ### The theorems -/

/-- While a pen is near, after every operation that tells something about it, the tip is down as its pressure says. -/
theorem tip_follows_pressure (cfg : Cfg) (F : Feels cfg) (worn : Bool) (raw : Axis → Int) (hr : (cfg.range .pressure).min ≤ raw .pressure)
    (tool : Option Kind) (id now : Nat) (ht : ∀ k, tool = some k → k ≠ .mouse ∧ k ≠ .lens)
    (ops : List Op) (op : Op) (hp : PensOnly (ops ++ [op])) (hk : ∀ o ∈ ops ++ [op], o.Plain cfg)
    (hw : worn = false → Unworn cfg (start cfg raw tool id now) ⟨true, raw⟩ (ops ++ [op]))
    (es new : List Ev) (hes : es = events (run cfg (start cfg raw tool id now) ops).2) (hnew : new = news cfg (start cfg raw tool id now) ops op)
    (hn : near (es ++ new) = true) (hs : ∃ e ∈ new, shows e = true) :
    ∃ lo hi, Limits cfg worn lo hi ∧
      tipDown (es ++ new) = touches lo hi (((ops ++ [op]).foldl Dev.step ⟨true, raw⟩).val .pressure) (if new.any isOut then false else tipDown es) := by
  have R := start_rest cfg raw tool id now (fun k hk => by have := ht k hk; cases k <;> first | rfl | simp at this)
  have L : Link cfg worn (start cfg raw tool id now) ⟨true, raw⟩ := by
    unfold start
    cases tool with
    | none => exact ⟨⟨fun t h => (by cases h), hr⟩, rfl, rfl⟩
    | some k =>
      dsimp only
      generalize hx : Pen.updateTool _ _ _ = x
      obtain ⟨q, e⟩ := setTimer_state x now
      rw [e, ← hx]
      exact ⟨⟨fun t h => (by cases h), hr⟩, rfl, rfl⟩
  have hp1 : PensOnly ops := fun o ho => hp o (by simp [ho])
  obtain ⟨_, _, R1⟩ := run_clean cfg ops hp1 _ _ _ R
  have L1 := run_tip F ops _ _ _ _ R hp1 (fun o ho => hk o (by simp [ho])) L
    (fun a pre o post e => hw a pre o (post ++ [op]) (by rw [e]; simp))
  have K := (step_tip F _ _ op _ _ R1 (hp op (by simp)) (hk op (by simp)) L1
    (fun a h => by have := hw a ops op [] rfl h; rw [List.foldl_append] at this; exact this)).2
  unfold news at hnew
  rw [near_foldl, List.foldl_append] at hn
  have T := tells new _ hn hs
  rw [hnew] at T
  obtain ⟨lo, hi, hl, h⟩ := K T
  refine ⟨lo, hi, hl, ?_⟩
  rw [← hnew, ← hes] at h
  rw [tip_foldl, List.foldl_append, h, List.foldl_append, ← tip_foldl]
  rfl

/-- If no pen looks worn when it comes, the thresholds are those of the device. -/
theorem tip_at_thresholds (cfg : Cfg) (F : Feels cfg) (raw : Axis → Int) (hr : (cfg.range .pressure).min ≤ raw .pressure)
    (tool : Option Kind) (id now : Nat) (ht : ∀ k, tool = some k → k ≠ .mouse ∧ k ≠ .lens)
    (ops : List Op) (op : Op) (hp : PensOnly (ops ++ [op])) (hk : ∀ o ∈ ops ++ [op], o.Plain cfg)
    (hw : Unworn cfg (start cfg raw tool id now) ⟨true, raw⟩ (ops ++ [op]))
    (es new : List Ev) (hes : es = events (run cfg (start cfg raw tool id now) ops).2) (hnew : new = news cfg (start cfg raw tool id now) ops op)
    (hn : near (es ++ new) = true) (hs : ∃ e ∈ new, shows e = true) :
    tipDown (es ++ new) = touches (upAt cfg) (downAt cfg) (((ops ++ [op]).foldl Dev.step ⟨true, raw⟩).val .pressure)
      (if new.any isOut then false else tipDown es) := by
  obtain ⟨lo, hi, hl, h⟩ := tip_follows_pressure cfg F false raw hr tool id now ht ops op hp hk (fun _ => hw) es new hes hnew hn hs
  rcases hl with ⟨rfl, rfl⟩ | ⟨h', _⟩
  · exact h
  · cases h'

/-- On a tablet that does not measure distances, pens are never taken for worn ones. -/
theorem tip_without_distance (cfg : Cfg) (F : Feels cfg) (hd : cfg.has .distance = false) (raw : Axis → Int) (hr : (cfg.range .pressure).min ≤ raw .pressure)
    (tool : Option Kind) (id now : Nat) (ht : ∀ k, tool = some k → k ≠ .mouse ∧ k ≠ .lens)
    (ops : List Op) (op : Op) (hp : PensOnly (ops ++ [op])) (hk : ∀ o ∈ ops ++ [op], o.Plain cfg)
    (es new : List Ev) (hes : es = events (run cfg (start cfg raw tool id now) ops).2) (hnew : new = news cfg (start cfg raw tool id now) ops op)
    (hn : near (es ++ new) = true) (hs : ∃ e ∈ new, shows e = true) :
    tipDown (es ++ new) = touches (upAt cfg) (downAt cfg) (((ops ++ [op]).foldl Dev.step ⟨true, raw⟩).val .pressure)
      (if new.any isOut then false else tipDown es) := by
  obtain ⟨lo, hi, hl, h⟩ := tip_follows_pressure cfg F true raw hr tool id now ht ops op hp hk (fun h => by cases h) es new hes hnew hn hs
  rcases hl with ⟨rfl, rfl⟩ | ⟨_, h', _⟩
  · exact h
  · rw [hd] at h'; cases h'

/-- However worn the pen, it touches if it is pressed with a fifth of the range more than a new pen needs, and it does not if
nothing presses it. -/
theorem tip_however_worn (cfg : Cfg) (F : Feels cfg) (hq : (cfg.range .pressure).min ≤ upAt cfg ∧ upAt cfg < downAt cfg)
    (hr : (cfg.range .pressure).min ≤ (cfg.range .pressure).max) (raw : Axis → Int) (hr : (cfg.range .pressure).min ≤ raw .pressure)
    (tool : Option Kind) (id now : Nat) (ht : ∀ k, tool = some k → k ≠ .mouse ∧ k ≠ .lens)
    (ops : List Op) (op : Op) (hp : PensOnly (ops ++ [op])) (hk : ∀ o ∈ ops ++ [op], o.Plain cfg)
    (es new : List Ev) (hes : es = events (run cfg (start cfg raw tool id now) ops).2) (hnew : new = news cfg (start cfg raw tool id now) ops op)
    (hn : near (es ++ new) = true) (hs : ∃ e ∈ new, shows e = true)
    (p : Int) (hpr : p = ((ops ++ [op]).foldl Dev.step ⟨true, raw⟩).val .pressure) :
    (downAt cfg + (part (cfg.range .pressure) 20 - (cfg.range .pressure).min) ≤ p → tipDown (es ++ new) = true) ∧
    (p = (cfg.range .pressure).min → tipDown (es ++ new) = false) := by
  obtain ⟨lo, hi, hl, h⟩ := tip_follows_pressure cfg F true raw hr tool id now ht ops op hp hk (fun h => by cases h) es new hes hnew hn hs
  rw [← hpr] at h
  have h20 : (cfg.range .pressure).min ≤ part (cfg.range .pressure) 20 := by
    have h5 : 0 ≤ ((cfg.range .pressure).max - (cfg.range .pressure).min) * 20 := by omega
    unfold part
    rcases Int.le_total 0 (100 * (cfg.range .pressure).min + ((cfg.range .pressure).max - (cfg.range .pressure).min) * 20) with h | h
    · rw [Int.tdiv_eq_ediv_of_nonneg h]; omega
    · have : Int.tdiv (100 * (cfg.range .pressure).min + ((cfg.range .pressure).max - (cfg.range .pressure).min) * 20) 100 =
          -((-(100 * (cfg.range .pressure).min + ((cfg.range .pressure).max - (cfg.range .pressure).min) * 20)) / 100) := by
        rw [← Int.tdiv_eq_ediv_of_nonneg (by omega), Int.neg_tdiv, Int.neg_neg]
      rw [this]; omega
  have key : (cfg.range .pressure).min ≤ lo ∧ lo < hi ∧ hi ≤ downAt cfg + (part (cfg.range .pressure) 20 - (cfg.range .pressure).min) ∨
      (cfg.range .pressure).min ≤ lo ∧ (cfg.range .pressure).min < hi ∧ hi ≤ downAt cfg + (part (cfg.range .pressure) 20 - (cfg.range .pressure).min) ∧
        lo ≤ part (cfg.range .pressure) 20 := by
    rcases hl with ⟨rfl, rfl⟩ | ⟨_, _, o, h1, h2, rfl, rfl⟩
    · left; omega
    · right; omega
  generalize (if new.any isOut then false else tipDown es) = b at h
  unfold touches at h
  rw [h]
  constructor
  · intro hge
    cases b <;> simp <;> omega
  · intro heq
    cases b <;> simp <;> omega

/-- The tip goes down only if the pen is pressed at least as much as the device demands. -/
theorem down_needs_pressure (cfg : Cfg) (F : Feels cfg) (raw : Axis → Int) (hr : (cfg.range .pressure).min ≤ raw .pressure)
    (tool : Option Kind) (id now : Nat) (ht : ∀ k, tool = some k → k ≠ .mouse ∧ k ≠ .lens)
    (ops : List Op) (op : Op) (hp : PensOnly (ops ++ [op])) (hk : ∀ o ∈ ops ++ [op], o.Plain cfg)
    (es new : List Ev) (hes : es = events (run cfg (start cfg raw tool id now) ops).2) (hnew : new = news cfg (start cfg raw tool id now) ops op)
    (hn : near (es ++ new) = true) (h0 : tipDown es = false) (h1 : tipDown (es ++ new) = true) :
    downAt cfg ≤ ((ops ++ [op]).foldl Dev.step ⟨true, raw⟩).val .pressure := by
  have hs : ∃ e ∈ new, shows e = true := by
    refine Classical.byContradiction fun hc => ?_
    have hnone : ∀ l : List Ev, (∀ e ∈ l, shows e = false) → ∀ b, l.foldl tipStep b = b := by
      intro l
      induction l with
      | nil => intro _ _; rfl
      | cons a l ih =>
        intro hl b
        have ha := hl a (by simp)
        rw [List.foldl_cons, ih (fun e he => hl e (by simp [he]))]
        cases a <;> first | rfl | cases ha
    rw [tip_foldl, List.foldl_append, ← tip_foldl, h0, hnone new ?_] at h1
    · cases h1
    · intro e he
      cases h : shows e
      · rfl
      · exact absurd ⟨e, he, h⟩ hc
  obtain ⟨lo, hi, hl, h⟩ := tip_follows_pressure cfg F true raw hr tool id now ht ops op hp hk (fun h => by cases h) es new hes hnew hn hs
  rw [h0, h1] at h
  simp only [ite_self, touches, Bool.false_eq_true, if_false] at h
  have h' := of_decide_eq_true h.symm
  rcases hl with ⟨_, rfl⟩ | ⟨_, _, o, h2, _, _, rfl⟩
  · exact h'
  · omega

/-! ### A tablet to try the theorems on -/

theorem full_feels : Feels full := ⟨rfl, fun _ _ _ => by simp [full]⟩

/-- 102 of 2047 levels are the 5 % from which on a pen touches; at 20, 1 %, it stops. -/
example : downAt full = 102 ∧ upAt full = 20 := by decide

def raw0 : Axis → Int := fun a => (full.range a).min

/-- A new pen comes, is pressed with 101, 102, 21 and 20. -/
def press : List Op :=
  [.frame [.key 320 1, .abs .x 100, .abs .y 100, .abs .distance 40] 1000, .frame [.abs .distance 0, .abs .pressure 101] 2000,
   .frame [.abs .pressure 102] 3000, .frame [.abs .pressure 21] 4000, .frame [.abs .pressure 20] 5000]

/-- A worn pen, the pressure of which is 50 when nothing touches it. -/
def pressWorn : List Op :=
  [.frame [.key 320 1, .abs .x 100, .abs .y 100, .abs .distance 40, .abs .pressure 50] 1000, .frame [.abs .distance 0, .abs .pressure 151] 2000,
   .frame [.abs .pressure 152] 3000, .frame [.abs .pressure 51] 4000, .frame [.abs .pressure 50] 5000]

/-- The tip after each operation of a history. -/
def tips (cfg : Cfg) (ops : List Op) : List Bool :=
  (List.range ops.length).map (fun n => tipDown (events (run cfg (start cfg raw0 none 0 0) (ops.take (n + 1))).2))

example : tips full press = [false, false, true, true, false] := by decide +kernel

example : tips full pressWorn = [false, false, true, true, false] := by decide +kernel

/-- The hypotheses of the theorems hold after each operation of both histories. -/
example : ∀ ops ∈ [press, pressWorn], ∀ n < 5,
    near (events (run full (start full raw0 none 0 0) (ops.take n)).2 ++ news full (start full raw0 none 0 0) (ops.take n) (ops.getD n .touchRemoved)) = true ∧
    ∃ e ∈ news full (start full raw0 none 0 0) (ops.take n) (ops.getD n .touchRemoved), shows e = true := by decide +kernel

example : PensOnly press ∧ PensOnly pressWorn := by
  constructor <;> intro op h <;> simp [press, pressWorn] at h <;>
    rcases h with rfl | rfl | rfl | rfl | rfl <;> intro evs t h <;> cases h <;> decide

example : (∀ op ∈ press, op.Plain full) ∧ ∀ op ∈ pressWorn, op.Plain full := by
  constructor <;> intro op h <;> simp [press, pressWorn] at h <;>
    rcases h with rfl | rfl | rfl | rfl | rfl <;> intro v h <;> simp at h <;> simp [full] <;> omega

/-- The new pen does not look worn when it comes. -/
example : Unworn full (start full raw0 none 0 0) ⟨true, raw0⟩ press := by
  intro pre op post h hin
  match pre, h with
  | [], h =>
    injection h with h1 h2
    subst h1
    intro hl
    exact absurd hl.1 (by decide)
  | [_], h =>
    injection h with h1 h2; injection h2 with h2 h3
    subst h1 h2
    exact absurd hin (by decide +kernel)
  | [_, _], h =>
    injection h with h1 h2; injection h2 with h2 h3; injection h3 with h3 h4
    subst h1 h2 h3
    exact absurd hin (by decide +kernel)
  | [_, _, _], h =>
    injection h with h1 h2; injection h2 with h2 h3; injection h3 with h3 h4; injection h4 with h4 h5
    subst h1 h2 h3 h4
    exact absurd hin (by decide +kernel)
  | [_, _, _, _], h =>
    injection h with h1 h2; injection h2 with h2 h3; injection h3 with h3 h4; injection h4 with h4 h5; injection h5 with h5 h6
    subst h1 h2 h3 h4 h5
    exact absurd hin (by decide +kernel)
  | _ :: _ :: _ :: _ :: _ :: p, h => simp [press] at h

/-- The worn pen has a limit that is not that of a new one. -/
example : Limits full true 50 152 := .inr ⟨rfl, rfl, 50, by decide, by decide, rfl, by decide⟩

example : (full.range .pressure).min ≤ upAt full ∧ upAt full < downAt full := by decide

/-! ### What the theorems do not say -/

/-- A pen is pressed, and the tablet is suspended meanwhile.  When it is used again, the pen comes twice, and is pressed with the same
pressure as before. -/
def asleep : List Op :=
  [.frame [.key 320 1, .abs .x 100, .abs .y 100] 1000, .frame [.abs .pressure 2000] 2000, .suspend 3000, .resume raw0,
   .frame [.key 320 1] 4000, .frame [.key 320 0] 4100, .frame [.key 320 1, .abs .x 200] 4200, .frame [.abs .pressure 2000] 5000]

/-- The report is dropped as noise, as it does not differ from the last one before the suspension.  The tip stays up until the pressure
changes. -/
theorem same_pressure_is_missed :
    tips full asleep = [false, true, false, false, false, false, false, false] ∧
    tips full (asleep.take 7 ++ [.frame [.abs .pressure 1999] 5000]) = [false, true, false, false, false, false, false, true] := ⟨by decide +kernel, by decide +kernel⟩

/-- A device the pressure of which is noisy. -/
def noisy : Cfg := { full with range := fun a => if a = .pressure then ⟨0, 2047, 200⟩ else full.range a }

/-- Pressures within the noise of the device do not put the tip down, although they are above the threshold. -/
theorem noise_hides_contact :
    tips noisy [.frame [.key 320 1, .abs .x 100, .abs .y 100] 1000, .frame [.abs .pressure 200] 2000] = [false, false] ∧
    downAt noisy = 102 := by decide +kernel

end Libinput.Tablet
