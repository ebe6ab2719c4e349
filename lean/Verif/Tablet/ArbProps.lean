import Verif.Tablet.Arb
/-
C45: while a pen is near, the touch device of the tablet ignores fingers; afterwards it listens again.
-/
namespace Libinput.Tablet

instance decPlain (cfg : Cfg) : ∀ (ops : List WOp) (w : World) (es : List Ev), Decidable (Plain cfg w es ops)
  | [], _, _ => isTrue trivial
  | op :: ops, w, es =>
    have := decPlain cfg ops (wstep cfg w op).1 (es ++ (wstep cfg w op).2)
    inferInstanceAs (Decidable (_ ∧ _))

instance decSlow (cfg : Cfg) : ∀ (ops : List WOp) (w : World) (es : List Ev), Decidable (Slow cfg w es ops)
  | [], _, _ => isTrue trivial
  | op :: ops, w, es =>
    have := decSlow cfg ops (wstep cfg w op).1 (es ++ (wstep cfg w op).2)
    inferInstanceAs (Decidable (_ ∧ _))

theorem near_append (x y : List Ev) : near (x ++ y) = y.foldl nearStep (near x) := by
  rw [near_foldl, near_foldl, List.foldl_append]

theorem wstep_paired (cfg : Cfg) (w : World) (op : WOp) (es : List Ev) (T : Nat) (slow : Bool) (I : Paired cfg w.1 w.2 (near es) T slow)
    (hp : op.Plain w es) (hn : op.time ≤ T)
    (hs : slow = true → near es = false → near (es ++ (wstep cfg w op).2) = true → w.2.bind Touch.timer = none) :
    Paired cfg (wstep cfg w op).1.1 (wstep cfg w op).1.2 (near (es ++ (wstep cfg w op).2)) T slow ∧
      ((∀ t l, op ≠ .tab (.touchAdded t l)) → Known w.1.arb w.2 (near es) ∨ w.1.opened = true ∧ (∃ evs n, op = .tab (.frame evs n)) →
        Known (wstep cfg w op).1.1.arb (wstep cfg w op).1.2 (near (es ++ (wstep cfg w op).2))) := by
  cases op with
  | tick now =>
    simp only [wstep, List.append_nil]
    obtain ⟨i1, i2, i3, i4, i5, i6, i7, i8⟩ := I
    refine ⟨⟨i1, i2, i3, i4, ?_, ?_, ?_, ?_⟩, ?_⟩
    · rw [← i5]; cases w.2 <;> rfl
    · intro x hx
      cases hd : w.2 with
      | none => rw [hd] at hx; cases hx
      | some y =>
        rw [hd] at hx; cases hx
        exact good_tick y _ T now slow (i6 y hd)
    · intro h
      cases hd : w.2 with
      | none => exact i7 hd
      | some y => rw [hd] at h; cases h
    · intro h h' x hx
      cases hd : w.2 with
      | none => rw [hd] at hx; cases hx
      | some y =>
        rw [hd] at hx; cases hx
        have := i8 h h' y hd
        show (y.tick now).timer = none
        unfold Touch.tick
        rw [this]
        exact this
    · intro _ h
      rcases h with h | ⟨_, _, _, h⟩
      · intro hb x hx
        cases hd : w.2 with
        | none => rw [hd] at hx; cases hx
        | some y => exact h hb y hd
      · cases h
  | tab op =>
    simp only [wstep] at hs ⊢
    rw [near_append] at hs ⊢
    obtain ⟨h1, h2⟩ := step_paired cfg w.1 w.2 op (near es) T slow I (fun evs n h => by subst h; exact hp)
      (fun ⟨t, l, h⟩ => by subst h; exact hp) (fun h => by subst h; exact hp) hn (fun a b c x hx => by
        have := hs a b c
        rw [hx] at this
        exact this)
    refine ⟨h1, fun a b => h2 (fun t l h => a t l (by rw [h])) ?_⟩
    rcases b with b | ⟨b, evs, n, h⟩
    · exact .inl b
    · exact .inr ⟨b, evs, n, by cases h; rfl⟩

theorem wrun_paired (cfg : Cfg) (T : Nat) (slow : Bool) (ops : List WOp) : ∀ (w : World) (es : List Ev), Paired cfg w.1 w.2 (near es) T slow →
    Plain cfg w es ops → (∀ op ∈ ops, op.time ≤ T) → (slow = true → Slow cfg w es ops) →
    Paired cfg (wrun cfg w ops).1.1 (wrun cfg w ops).1.2 (near (es ++ (wrun cfg w ops).2)) T slow ∧
      ((∀ op ∈ ops, ∀ t l, op ≠ .tab (.touchAdded t l)) → Known w.1.arb w.2 (near es) →
        Known (wrun cfg w ops).1.1.arb (wrun cfg w ops).1.2 (near (es ++ (wrun cfg w ops).2))) := by
  induction ops with
  | nil => intro w es I _ _ _; simp only [wrun, List.append_nil]; exact ⟨I, fun _ h => h⟩
  | cons op ops ih =>
    intro w es I hp hn hs
    obtain ⟨h1, h2⟩ := wstep_paired cfg w op es T slow I hp.1 (hn op (by simp)) (fun h => (hs h).1)
    obtain ⟨i1, i2⟩ := ih _ _ h1 hp.2 (fun x hx => hn x (by simp [hx])) (fun h => (hs h).2)
    simp only [wrun]
    rw [← List.append_assoc]
    exact ⟨i1, fun a b => i2 (fun x hx => a x (by simp [hx])) (h2 (a op (by simp)) (.inl b))⟩

theorem start_paired (cfg : Cfg) (raw : Axis → Int) (tool : Option Kind) (id now : Nat) (T : Nat) (slow : Bool)
    (h : ∀ k, tool = some k → k.isCursor = false) : Paired cfg (start cfg raw tool id now) none false T slow := by
  have R := start_rest cfg raw tool id now h
  refine ⟨⟨_, _, R⟩, ⟨fun _ => rfl, ?_⟩, ?_, fun _ => ?_, ?_, fun x h => (by cases h), fun _ => ?_, fun _ _ x h => (by cases h)⟩
  all_goals unfold start
  all_goals cases tool with
    | none => first | rfl | (intro h; cases h) | (intro _; rfl)
    | some k =>
      dsimp only
      generalize hx : Pen.updateTool _ _ _ = x
      obtain ⟨q, e⟩ := setTimer_state x now
      rw [e, ← hx]
      first | rfl | (intro _; exact .inr rfl) | (intro _; rfl)

theorem wrun_append (cfg : Cfg) (x y : List WOp) : ∀ w, wrun cfg w (x ++ y) =
    ((wrun cfg (wrun cfg w x).1 y).1, (wrun cfg w x).2 ++ (wrun cfg (wrun cfg w x).1 y).2) := by
  induction x with
  | nil => intro w; rfl
  | cons op x ih => intro w; simp only [List.cons_append, wrun, ih, List.append_assoc]

theorem plain_append (cfg : Cfg) (x y : List WOp) : ∀ w es, Plain cfg w es (x ++ y) ↔
    Plain cfg w es x ∧ Plain cfg (wrun cfg w x).1 (es ++ (wrun cfg w x).2) y := by
  induction x with
  | nil => intro w es; simp [Plain, wrun]
  | cons op x ih => intro w es; simp only [List.cons_append, Plain, wrun, ih, List.append_assoc, and_assoc]

theorem slow_append (cfg : Cfg) (x y : List WOp) : ∀ w es, Slow cfg w es (x ++ y) ↔
    Slow cfg w es x ∧ Slow cfg (wrun cfg w x).1 (es ++ (wrun cfg w x).2) y := by
  induction x with
  | nil => intro w es; simp [Slow, wrun]
  | cons op x ih => intro w es; simp only [List.cons_append, Slow, wrun, ih, List.append_assoc, and_assoc]

theorem pens_of {tool : Option Kind} (ht : ∀ k, tool = some k → k ≠ .mouse ∧ k ≠ .lens) : ∀ k, tool = some k → k.isCursor = false :=
  fun k hk => by have := ht k hk; cases k <;> first | rfl | simp at this

/-! ### A tablet to try the theorems on -/

/-- A pen tablet with tilt. -/
def tilted : Cfg where
  has a := a = .x || a = .y || a = .tiltX || a = .tiltY
  range _ := ⟨0, 10000, 0⟩
  toolCaps _ _ := [.x, .y, .tiltX, .tiltY]
  tilt _ v := v
  puck _ _ := 0

/-- A pen comes, moves, and leaves; it is upright, or `tilt` degrees from it. -/
def comes (tilt : Int) (now : Nat) : WOp := .tab (.frame [.key 320 1, .abs .x 100, .abs .tiltX tilt] now)
def moves (x : Int) (now : Nat) : WOp := .tab (.frame [.abs .x x] now)
def leaves (now : Nat) : WOp := .tab (.frame [.key 320 0] now)

/-- What the touch device does at the end of a history, and whether a tool is near. -/
def ends (cfg : Cfg) (ops : List WOp) : Option Bool × Bool :=
  let r := wrun cfg (start cfg (fun _ => 0) none 0 0, none) ops
  (r.1.2.map Touch.ignores, near r.2)

/-! ### The theorems -/

/-- While a pen is near, the touch device ignores fingers: from the beginning if it was there before the pen came (`pre` ends
with no tool near), and from the first frame of the tablet on otherwise. -/
theorem touch_ignored (cfg : Cfg) (raw : Axis → Int) (tool : Option Kind) (id now : Nat) (pre post : List WOp)
    (ht : ∀ k, tool = some k → k ≠ .mouse ∧ k ≠ .lens)
    (hp : Plain cfg (start cfg raw tool id now, none) [] (pre ++ post))
    (hpost : ∀ op ∈ post, ∀ t l, op ≠ .tab (.touchAdded t l))
    (hpre : near (wrun cfg (start cfg raw tool id now, none) pre).2 = false ∨
      ∃ a evs n, pre = a ++ [.tab (.frame evs n)] ∧ (wrun cfg (start cfg raw tool id now, none) a).1.1.opened = true)
    (d : Touch) (hd : (wrun cfg (start cfg raw tool id now, none) (pre ++ post)).1.2 = some d)
    (hs : d.pad = true → Slow cfg (start cfg raw tool id now, none) [] (pre ++ post))
    (hn : near (wrun cfg (start cfg raw tool id now, none) (pre ++ post)).2 = true) : d.ignores = true := by
  obtain ⟨T, hT⟩ : ∃ T, ∀ op ∈ pre ++ post, op.time ≤ T := by
    generalize pre ++ post = l
    induction l with
    | nil => exact ⟨0, fun _ h => (by cases h)⟩
    | cons x l ih =>
      obtain ⟨T, h⟩ := ih
      refine ⟨max T x.time, fun op ho => ?_⟩
      rcases List.mem_cons.1 ho with rfl | ho
      · omega
      · have := h op ho; omega
  have I := start_paired cfg raw tool id now T d.pad (pens_of ht)
  generalize start cfg raw tool id now = s at *
  have hs0 := hs
  rw [plain_append] at hp
  simp only [slow_append] at hs
  have Q := wrun_paired cfg T d.pad pre (s, none) [] I hp.1 (fun x hx => hT x (by simp [hx])) (fun h => (hs h).1)
  have K : Known (wrun cfg (s, none) pre).1.1.arb (wrun cfg (s, none) pre).1.2 (near ([] ++ (wrun cfg (s, none) pre).2)) := by
    rcases hpre with h | ⟨a, evs, n, rfl, h⟩
    · intro hb
      rw [List.nil_append, h] at hb; cases hb
    · rw [plain_append] at hp
      simp only [slow_append] at hs
      obtain ⟨Q1, _⟩ := wrun_paired cfg T d.pad a (s, none) [] I hp.1.1 (fun x hx => hT x (by simp [hx])) (fun h => (hs h).1.1)
      rw [wrun_append]
      have := wstep_paired cfg _ _ _ T d.pad Q1 hp.1.2.1 (hT _ (by simp)) (fun h => (hs h).1.2.1)
      simp only [wrun, List.append_nil]
      rw [← List.append_assoc]
      exact this.2 (by simp) (.inr ⟨h, evs, n, rfl⟩)
  obtain ⟨W, L⟩ := wrun_paired cfg T d.pad post _ _ Q.1 hp.2 (fun x hx => hT x (by simp [hx])) (fun h => (hs h).2)
  rw [wrun_append] at hd hn
  have k := L hpost K
  simp only [List.nil_append] at k W
  exact good_ignores (W.good d hd) (fun h => h) (k hn d hd)

/-- A touch screen and a touchpad, added before the pen comes and while it is there, with a slow pen. -/
def slowly (pad : Bool) : List WOp :=
  [.tab (.touchAdded pad false), comes 20 1000000, moves 120 1010000, leaves 1020000, .tick 1200000, comes 0 2000000, moves 140 2010000, .tick 2200000]

example : ∀ pad, Plain tilted (start tilted (fun _ => 0) none 0 0, none) [] (slowly pad) ∧
    Slow tilted (start tilted (fun _ => 0) none 0 0, none) [] (slowly pad) ∧ ends tilted (slowly pad) = (some true, true) := by
  decide +kernel

example : Plain tilted (start tilted (fun _ => 0) none 0 0, none) [] [comes 20 1000000, .tab (.touchAdded false false), moves 120 1010000] ∧
    ends tilted [comes 20 1000000, .tab (.touchAdded false false), moves 120 1010000] = (some true, true) := by
  decide +kernel

/-- When no pen is near any more, the touch device listens again, at the latest 90 ms after what happened last. -/
theorem touch_listens (cfg : Cfg) (raw : Axis → Int) (tool : Option Kind) (id now : Nat) (ops : List WOp)
    (ht : ∀ k, tool = some k → k ≠ .mouse ∧ k ≠ .lens)
    (hp : Plain cfg (start cfg raw tool id now, none) [] ops) (T : Nat) (hT : ∀ op ∈ ops, op.time ≤ T)
    (d : Touch) (hd : (wrun cfg (start cfg raw tool id now, none) ops).1.2 = some d)
    (hn : near (wrun cfg (start cfg raw tool id now, none) ops).2 = false) (n : Nat) (h : T + 90000 ≤ n) :
    (d.tick n).ignores = false := by
  have I := start_paired cfg raw tool id now T false (pens_of ht)
  obtain ⟨W, _⟩ := wrun_paired cfg T false ops (start cfg raw tool id now, none) [] I hp hT (fun h => (by cases h))
  simp only [List.nil_append] at W
  have G := W.good d hd
  rw [W.quiet hn] at G
  exact good_listens G n h

example : ∀ pad, Plain tilted (start tilted (fun _ => 0) none 0 0, none) [] (slowly pad ++ [leaves 3000000]) ∧
    ends tilted (slowly pad ++ [leaves 3000000]) = (some true, false) ∧
    ends tilted (slowly pad ++ [leaves 3000000, .tick 3090000]) = (some false, false) := by
  decide +kernel

/-! ### Where it goes wrong -/

/-- A tilted pen that leaves and comes back within 90 ms: the timer of the touchpad is not cancelled, and when it expires the
touchpad listens although the pen is near; nothing tells it otherwise until the pen has left and come again. -/
theorem touchpad_wakes_up :
    let ops := [.tab (.touchAdded true false), comes 20 1000000, leaves 1020000, comes 30 1050000, .tick 1110000, moves 120 1120000, moves 130 9000000]
    Plain tilted (start tilted (fun _ => 0) none 0 0, none) [] ops ∧ ends tilted ops = (some false, true) := by
  decide +kernel

/-- An upright pen is luckier: the next frame tells the touchpad again. -/
example : ends tilted [.tab (.touchAdded true false), comes 0 1000000, leaves 1020000, comes 0 1050000, .tick 1110000] = (some false, true) ∧
    ends tilted [.tab (.touchAdded true false), comes 0 1000000, leaves 1020000, comes 0 1050000, .tick 1110000, moves 120 1120000] = (some true, true) := by
  decide +kernel

/-- A touch device that is removed while a tilted pen is near: the next one never hears of the pen that comes next. -/
theorem next_touch_not_told :
    ends tilted [.tab (.touchAdded false false), comes 20 1000000, .tab .touchRemoved, leaves 1100000, .tab (.touchAdded false false),
      comes 30 5000000, moves 120 5010000, moves 130 9000000] = (some false, true) := by
  decide +kernel

/-- A second touch device in the group of the tablet takes the place of the first, which is left ignoring. -/
theorem first_touch_forgotten :
    let w := wrun tilted (start tilted (fun _ => 0) none 0 0, none) [.tab (.touchAdded false false), comes 20 1000000]
    w.1.2.map Touch.ignores = some true ∧
      (step tilted w.1.1 (.touchAdded true false)).2 = [] ∧
      (wrun tilted w.1 [.tab (.touchAdded true false), leaves 2000000]).1.2 = some { pad := true } := by
  decide +kernel

end Libinput.Tablet
