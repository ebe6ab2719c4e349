import Verif.Tablet.Comes
/-
The events of a tablet tool make sense.
-/
namespace Libinput.Tablet

/-! ### A tablet to try the theorems on -/

/-- A pen tablet with pressure and distance. -/
def demo : Cfg where
  has a := a = .x || a = .y || a = .pressure || a = .distance
  range a := match a with
    | .pressure => ⟨0, 1000, 0⟩
    | .distance => ⟨0, 100, 0⟩
    | _ => ⟨0, 10000, 0⟩
  toolCaps _ _ := [.x, .y, .pressure, .distance]
  tilt _ _ := 0
  puck _ _ := 0

/-- A tablet without pressure. -/
def bare : Cfg where
  has a := a = .x || a = .y
  range _ := ⟨0, 10000, 0⟩
  toolCaps _ _ := [.x, .y]
  tilt _ _ := 0
  puck _ _ := 0

/-- An event without its values. -/
inductive Short where
  | cameIn (t : ToolId) | went (t : ToolId) | tipDown | tipUp | moved | press (c : Nat) | release (c : Nat)
deriving DecidableEq, Repr

def short : Ev → Short
  | .prox true d => .cameIn d.tool
  | .prox false d => .went d.tool
  | .tip true _ => .tipDown
  | .tip false _ => .tipUp
  | .axis _ => .moved
  | .button c true _ => .press c
  | .button c false _ => .release c

/-- The events of a history, without their values. -/
def told (cfg : Cfg) (ops : List Op) (tool : Option Kind := none) : List Short :=
  (events (run cfg (start cfg (fun _ => 0) tool 0 0) ops).2).map short

instance (cfg : Cfg) (serial : Nat) (here : Bool) (es es' : List Ev) (evs : List KEv) :
    Decidable (Orderly cfg serial here es es' evs) :=
  decidable_of_iff
    ((evs.filter isToolKey).length ≤ 1 ∧ (near es' = false → ∀ e ∈ evs, isPress e = false) ∧
      (near es = true → ∀ e ∈ evs, (match e with | .serial n => decide (n = serial ∨ n = 4294967295) | _ => true) = true) ∧
      (cfg.has .pressure = false → (evs.filter (fun e => isTouchKey 0 e || isTouchKey 1 e)).length ≤ 1) ∧
      (cfg.has .pressure = false → ∀ e ∈ evs, isTouchKey 1 e = true →
        near es' = true ∧ tipDown es = false ∧ (near es = true ∨ here = true → ∀ e ∈ evs, isToolKey e = false)) ∧
      (cfg.has .pressure = false → ∀ e ∈ evs, isTouchKey 0 e = true → tipDown es = true))
    ⟨fun ⟨a, b, c, d, e, f⟩ => ⟨a, b, fun h n hn => by simpa using c h _ hn, d, e, f⟩,
     fun ⟨a, b, c, d, e, f⟩ => ⟨a, b, fun h e he => by cases e <;> first | rfl | simpa using c h _ he, d, e, f⟩⟩

instance decPolite (cfg : Cfg) : ∀ (ops : List Op) (s : Pen) (es : List Ev), Decidable (Polite cfg s es ops)
  | [], _, _ => .isTrue trivial
  | op :: ops, s, es =>
    have : Decidable (Polite cfg (step cfg s op).1 (es ++ events (step cfg s op).2) ops) := decPolite cfg ops _ _
    match op with
    | .frame evs t => inferInstanceAs (Decidable (((∀ e ∈ evs, isCursorKey e = false) ∧ Orderly cfg s.t.serial s.st.entering es
        (es ++ events (step cfg s (.frame evs t)).2) evs) ∧ Polite cfg (step cfg s (.frame evs t)).1 (es ++ events (step cfg s (.frame evs t)).2) ops))
    | .foreign t => inferInstanceAs (Decidable ((near es = true → t.serial ≠ s.t.serial) ∧
        Polite cfg (step cfg s (.foreign t)).1 (es ++ events (step cfg s (.foreign t)).2) ops))
    | .timeout t => inferInstanceAs (Decidable (True ∧ Polite cfg (step cfg s (.timeout t)).1 (es ++ events (step cfg s (.timeout t)).2) ops))
    | .suspend t => inferInstanceAs (Decidable (True ∧ Polite cfg (step cfg s (.suspend t)).1 (es ++ events (step cfg s (.suspend t)).2) ops))
    | .resume t => inferInstanceAs (Decidable (True ∧ Polite cfg (step cfg s (.resume t)).1 (es ++ events (step cfg s (.resume t)).2) ops))
    | .setLeft t => inferInstanceAs (Decidable (True ∧ Polite cfg (step cfg s (.setLeft t)).1 (es ++ events (step cfg s (.setLeft t)).2) ops))
    | .touchLeft t => inferInstanceAs (Decidable (True ∧ Polite cfg (step cfg s (.touchLeft t)).1 (es ++ events (step cfg s (.touchLeft t)).2) ops))
    | .touchAdded t l => inferInstanceAs (Decidable (True ∧ Polite cfg (step cfg s (.touchAdded t l)).1 (es ++ events (step cfg s (.touchAdded t l)).2) ops))
    | .touchRemoved => inferInstanceAs (Decidable (True ∧ Polite cfg (step cfg s .touchRemoved).1 (es ++ events (step cfg s .touchRemoved).2) ops))

/-- A pen comes, is pressed down with a button held, leaves all at once, and an eraser comes. -/
def visit : List Op :=
  [.frame [.key 320 1, .abs .x 100, .abs .y 200, .abs .distance 30] 10,
   .frame [.abs .x 150, .abs .pressure 300, .abs .distance 0] 20,
   .frame [.key 331 1] 30,
   .frame [.key 320 0] 40,
   .frame [.key 321 1, .abs .x 120, .abs .distance 20, .abs .pressure 0, .key 331 0] 50]

example : told demo visit = [.cameIn ⟨.pen, 0⟩, .tipDown, .press 331, .tipUp, .release 331, .went ⟨.pen, 0⟩, .cameIn ⟨.eraser, 0⟩] := by
  decide +kernel

/-! ### Whatever the kernel sends -/

/-- Every event other than a proximity-in is about a tool that has been announced and has not left since.  This holds for
every tool and for every history of kernel events, timeouts, suspensions and settings. -/
theorem inside_proximity (cfg : Cfg) (raw : Axis → Int) (tool : Option Kind) (id now : Nat) (ops : List Op)
    (pre post : List Ev) (e : Ev) (h : events (run cfg (start cfg raw tool id now) ops).2 = pre ++ e :: post)
    (he : ∀ d, e ≠ .prox true d) : near pre = true := by
  rw [near_foldl]
  exact inside_spec _ false (run_inside cfg ops _ _ (start_aware cfg raw tool id now)) pre e post h he

example : (events (run demo (start demo (fun _ => 0) none 0 0) visit).2)[3]?.map short = some .tipUp := by decide +kernel

/-- When a pen leaves, all its buttons are up; and its tip is, if the tablet has pressure. -/
theorem leaves_clean (cfg : Cfg) (raw : Axis → Int) (tool : Option Kind) (id now : Nat) (ops : List Op)
    (ht : ∀ k, tool = some k → k ≠ .mouse ∧ k ≠ .lens) (hp : PensOnly ops)
    (pre post : List Ev) (d : Data) (h : events (run cfg (start cfg raw tool id now) ops).2 = pre ++ .prox false d :: post) :
    (∀ c, down pre c = false) ∧ (cfg.has .pressure = true → tipDown pre = false) := by
  have R := start_rest cfg raw tool id now (fun k hk => by have := ht k hk; cases k <;> first | rfl | simp at this)
  obtain ⟨h1, h2, _⟩ := run_clean cfg ops hp _ _ _ R
  constructor
  · intro c
    exact (down_foldl pre c (fun _ => false)).trans (cleanB_spec _ _ h1 pre d post h c)
  · intro hpr
    rw [tip_foldl]
    exact cleanT_spec _ _ (h2 hpr) pre d post h

example : PensOnly visit := by
  intro op h
  simp [visit] at h
  rcases h with rfl | rfl | rfl | rfl | rfl <;> intro evs t h <;> cases h <;> decide

/-- With pens, every frame is dealt with in finitely many rounds. -/
theorem pens_terminate (cfg : Cfg) (raw : Axis → Int) (tool : Option Kind) (id now : Nat) (ops : List Op)
    (ht : ∀ k, tool = some k → k ≠ .mouse ∧ k ≠ .lens) (hp : PensOnly ops) :
    (run cfg (start cfg raw tool id now) ops).1.hung = false := by
  have R := start_rest cfg raw tool id now (fun k hk => by have := ht k hk; cases k <;> first | rfl | simp at this)
  exact (run_clean cfg ops hp _ _ _ R).2.2.pens.hung

/-! ### If the kernel is orderly -/

/-- The events of pens form a sensible stream. -/
theorem stream_makes_sense (cfg : Cfg) (raw : Axis → Int) (tool : Option Kind) (id now : Nat) (ops : List Op)
    (ht : ∀ k, tool = some k → k ≠ .mouse ∧ k ≠ .lens) (hp : Polite cfg (start cfg raw tool id now) [] ops) :
    ∃ v, follow none (events (run cfg (start cfg raw tool id now) ops).2) = some v := by
  obtain ⟨v, f, _⟩ := run_ok cfg ops _ none [] (start_inv cfg raw tool id now
    (fun k hk => by have := ht k hk; cases k <;> first | rfl | simp at this)) rfl hp
  exact ⟨v, f⟩

example : Polite demo (start demo (fun _ => 0) none 0 0) [] visit := by decide +kernel
example : follow none (events (run demo (start demo (fun _ => 0) none 0 0) visit).2) = some (some ⟨⟨.eraser, 0⟩, false, []⟩) := by
  decide +kernel

/-- If the tablet has not been suspended, a tool whose key goes down is in proximity after the frame. -/
theorem tool_comes (cfg : Cfg) (raw : Axis → Int) (tool : Option Kind) (id now : Nat) (ops : List Op) (evs : List KEv) (t : Nat)
    (ht : ∀ k, tool = some k → k ≠ .mouse ∧ k ≠ .lens)
    (hp : Polite cfg (start cfg raw tool id now) [] (ops ++ [.frame evs t])) (ha : Awake ops)
    (k : Kind) (hk : .key (toolKey k) 1 ∈ evs) :
    ∃ w, follow none (events (run cfg (start cfg raw tool id now) (ops ++ [.frame evs t])).2) = some (some w) ∧ w.tool.kind = k := by
  obtain ⟨v, v', _, f, h, _⟩ := frame_told cfg _ ops evs t (start_inv cfg raw tool id now
    (fun k hk => by have := ht k hk; cases k <;> first | rfl | simp at this)) (start_tidy cfg raw tool id now) hp ha
  obtain ⟨w, rfl, hw⟩ := h k hk
  exact ⟨w, f, hw⟩

/-- … and the tool in proximity has left after a frame in which its key goes up. -/
theorem tool_goes (cfg : Cfg) (raw : Axis → Int) (tool : Option Kind) (id now : Nat) (ops : List Op) (evs : List KEv) (t : Nat)
    (ht : ∀ k, tool = some k → k ≠ .mouse ∧ k ≠ .lens)
    (hp : Polite cfg (start cfg raw tool id now) [] (ops ++ [.frame evs t])) (ha : Awake ops)
    (w : View) (hw : follow none (events (run cfg (start cfg raw tool id now) ops).2) = some (some w))
    (hk : .key (toolKey w.tool.kind) 0 ∈ evs) :
    follow none (events (run cfg (start cfg raw tool id now) (ops ++ [.frame evs t])).2) = some none := by
  obtain ⟨v, v', f, f', _, h⟩ := frame_told cfg _ ops evs t (start_inv cfg raw tool id now
    (fun k hk => by have := ht k hk; cases k <;> first | rfl | simp at this)) (start_tidy cfg raw tool id now) hp ha
  rw [f] at hw
  cases hw
  rw [f', h w rfl hk]

example : Awake visit := by
  intro op h
  simp [visit] at h
  rcases h with rfl | rfl | rfl | rfl | rfl <;> intro t h <;> cases h

/-! ### Where the code falls short -/

/-- Two tools that change places within one kernel frame: an eraser giving way to a pen makes the pen come into
proximity while the eraser never left … -/
theorem eraser_never_leaves :
    told demo [.frame [.key 321 1, .abs .x 5] 10, .frame [.key 321 0, .key 320 1, .abs .x 10] 20] =
      [.cameIn ⟨.eraser, 0⟩, .cameIn ⟨.pen, 0⟩] := by decide +kernel

/-- … and a pen giving way to an eraser makes the pen leave, but the eraser is lost. -/
theorem eraser_lost :
    told demo [.frame [.key 320 1, .abs .x 5] 10, .frame [.key 320 0, .key 321 1, .abs .x 10] 20, .frame [.abs .x 20] 30,
      .frame [.abs .pressure 500] 40] = [.cameIn ⟨.pen, 0⟩, .went ⟨.pen, 0⟩] := by decide +kernel

/-- A pen that was in proximity when the tablet was suspended and was taken away meanwhile: the next time it comes is
lost. -/
theorem lost_after_resume :
    told demo [.frame [.key 320 1, .abs .x 5] 10, .suspend 20, .resume (fun _ => 0),
      .frame [.key 320 1, .abs .x 10] 30, .frame [.abs .x 20, .abs .pressure 500] 40, .frame [.key 331 1] 50, .frame [.key 320 0] 60] =
      [.cameIn ⟨.pen, 0⟩, .went ⟨.pen, 0⟩] := by decide +kernel

/-- A puck that comes and goes too far above the tablet makes every pen dead, too. -/
theorem puck_kills_pen :
    told demo [.frame [.key 326 1, .abs .x 5, .abs .distance 60] 10, .frame [.key 326 0] 20,
      .frame [.key 320 1, .abs .x 10, .abs .distance 10] 30, .frame [.abs .pressure 500, .abs .distance 0] 40,
      .frame [.key 320 0] 50] = [] := by decide +kernel

/-- A puck in range, with a second tool key set: the frame is processed over and over. -/
theorem puck_hangs :
    (run demo (start demo (fun _ => 0) none 0 0)
      [.frame [.key 326 1, .abs .x 5, .abs .distance 10] 10, .frame [.key 326 0] 20, .frame [.key 326 1, .key 320 1] 30]).1.hung = true := by
  decide +kernel

/-- On a tablet without pressure, a tip that goes up after the pen left is reported when the next pen comes … -/
theorem tip_up_out_of_nowhere :
    told bare [.frame [.key 320 1, .abs .x 5] 10, .frame [.key 330 1] 20, .frame [.key 320 0] 30, .frame [.key 330 0] 40,
      .frame [.key 320 1, .abs .x 10] 50] =
      [.cameIn ⟨.pen, 0⟩, .tipDown, .tipUp, .went ⟨.pen, 0⟩, .cameIn ⟨.pen, 0⟩, .tipUp] := by decide +kernel

/-- … and a pen that touches in the frame in which it leaves, leaves with its tip down. -/
theorem leaves_with_tip_down :
    told bare [.frame [.key 320 1, .abs .x 5] 10, .frame [.key 320 0, .key 330 1] 20] =
      [.cameIn ⟨.pen, 0⟩, .tipDown, .went ⟨.pen, 0⟩] := by decide +kernel

/-- A button pressed while no tool is near is released without having been pressed. -/
theorem release_without_press :
    told demo [.frame [.key 331 1] 10, .frame [.key 320 1, .abs .x 5] 20, .frame [.key 331 0] 30] =
      [.cameIn ⟨.pen, 0⟩, .release 331] := by decide +kernel

/-- A tool turns into another one while it is in proximity, if its serial number comes late and is known. -/
theorem tool_changes_identity :
    (events (run demo (start demo (fun _ => 0) none 0 0) [.foreign ⟨.pen, 7, [.x, .y], 0, false, 0, 1⟩,
      .frame [.key 320 1, .abs .x 5] 10, .frame [.serial 7, .abs .x 10] 20]).2).map (fun e => match e with
        | .prox _ d | .tip _ d | .axis d | .button _ _ d => d.tool) = [⟨.pen, 0⟩, ⟨.pen, 7⟩] := by decide +kernel

end Libinput.Tablet
