import Verif.Motion.Movers
import Verif.Motion.Demo
/-
Gestures, two-finger scrolling and pointer motion of a touchpad (C40).
-/
namespace Libinput.Motion
open Touch (St)

theorem ginv_init (c : Config) (n : Nat) (m : Method) (dwt areas : Bool) : GInv (init c n m dwt areas) .idle :=
  Rest.inv ⟨rfl, rfl, rfl⟩

/-- Whatever happens, the events come in an order a user can follow: a gesture begins with the right number of fingers when
nothing else is going on, is updated and ended as itself, and in between there is no motion, no scrolling and no other
gesture. -/
theorem gestures_well_formed (c : Config) (hc : Sound c) (n : Nat) (m : Method) (dwt areas : Bool) (ops : List Op) :
    ∃ now, followAll .idle (run (init c n m dwt areas) ops).2 = some now := by
  obtain ⟨x, h, _⟩ := good_run ops (init c n m dwt areas) .idle hc (ginv_init c n m dwt areas)
  exact ⟨x, h⟩

example : Sound demoConfig := rfl

example : (run (demo .twoFinger) (demoSwipe 3 ++ [demoLift 3])).2 =
    [.begin .swipe 3, .update .swipe 3, .update .swipe 3, .end_ .swipe 3 false] := by decide +kernel

/-- The order is a real restriction. -/
example : followAll .idle [.begin .swipe 3, .motion [0]] = none ∧ followAll .idle [.begin .swipe 2] = none ∧
    followAll .idle [.begin .swipe 3, .end_ .swipe 4 true] = none ∧ followAll .idle [.begin .pinch 3, .begin .swipe 3] = none ∧
    followAll .idle [.update .swipe 3] = none ∧ followAll .idle [.two (.axis 0 none (some 3)), .motion [0]] = none ∧
    followAll .idle [.begin .swipe 3, .two (.axis 0 none (some 3))] = none := by decide

/-- When no finger is left, every gesture and every two-finger scroll has ended. -/
theorem gestures_end (c : Config) (hc : Sound c) (n : Nat) (m : Method) (dwt areas : Bool) (ops : List Op) (now : Nat) (vs : List View)
    (g : Frame) (hov : Nat → Bool) (hl : vs.length = n) (hn : noneDown vs) :
    followAll .idle (run (init c n m dwt areas) (ops ++ [.frame now vs g hov])).2 = some .idle := by
  obtain ⟨x, h, hi⟩ := good_run ops (init c n m dwt areas) .idle hc (ginv_init c n m dwt areas)
  rw [run_append, followAll_append, h]
  have hlen := (shape_run ops (init c n m dwt areas)).length
  simp only [Option.bind_some, run, step, List.append_nil]
  refine frame_idle _ x vs g hov now ?_ hn hi
  rw [hlen, hl]
  simp [init]

/-- The same when the touchpad is reset: it is disabled, suspended, removed, or a pen came near. -/
theorem gestures_end_when_cleared (c : Config) (hc : Sound c) (n : Nat) (m : Method) (dwt areas : Bool) (ops : List Op) (now : Nat)
    (vs : List View) (g : Frame) :
    followAll .idle (run (init c n m dwt areas) (ops ++ [.clear now vs g])).2 = some .idle := by
  obtain ⟨x, h, hi⟩ := good_run ops (init c n m dwt areas) .idle hc (ginv_init c n m dwt areas)
  rw [run_append, followAll_append, h]
  simp only [Option.bind_some, run, step, List.append_nil]
  exact clear_idle _ x vs g now hi

/-- Before that, something was going on. -/
example : followAll .idle (run (demo .twoFinger) (demoSwipe 3)).2 = some (.gesture .swipe 3) ∧
    followAll .idle (run (demo .twoFinger) (demoSwipe 2)).2 = some .scrolling ∧
    noneDown (fingersAt .end_ 250 5) := by
  refine ⟨by decide +kernel, by decide +kernel, ?_⟩
  intro v hv
  simp [fingersAt, at_] at hv
  rcases hv with rfl | rfl | rfl | rfl | rfl <;> exact ⟨(fun h => by cases h), (fun h => by cases h)⟩

/-- An event says how many fingers there are.  In a frame that begins or updates a gesture with `n` fingers, exactly `n`
touches count as fingers; a gesture ends without being cancelled only when none does. -/
theorem gesture_fingers (s : Pad) (vs : List View) (g : Frame) (hov : Nat → Bool) (now : Nat) (o : Out) (ho : o ∈ (step s (.frame now vs g hov)).2) :
    match o with
    | .begin _ n | .update _ n => n = counting (s.judge vs g now).1
    | .end_ _ _ false => counting (s.judge vs g now).1 = 0
    | .motion _ => counting (s.judge vs g now).1 = 1 ∨ g.dragging = true ∨ (s.cfg.clickpad = true ∧ g.held = true)
    | _ => True := by
  have h := frame_told s vs g hov now o ho
  cases o with
  | begin k n => rcases h with h | ⟨_, _, _, h⟩; exact h; cases h
  | update k n => rcases h with h | ⟨_, _, _, h⟩; exact h; cases h
  | motion w => rcases h with h | ⟨_, _, _, h⟩; exact h; cases h
  | end_ k n b =>
    cases b with
    | true => trivial
    | false => rcases h with h | ⟨h, _⟩; cases h; exact h
  | edge i a v => trivial
  | edgeStop i a => trivial
  | two e => trivial
  | bug => trivial

/-- Lifting all fingers does not cancel a gesture. -/
theorem lifting_completes (c : Config) (hc : Sound c) (n : Nat) (m : Method) (dwt areas : Bool) (ops : List Op) (now : Nat) (vs : List View)
    (g : Frame) (hov : Nat → Bool) (hl : vs.length = n) (hn : noneDown vs) (k : Kind) (f : Nat) :
    .end_ k f true ∉ (step (run (init c n m dwt areas) ops).1 (.frame now vs g hov)).2 := by
  obtain ⟨x, _, hi⟩ := good_run ops (init c n m dwt areas) .idle hc (ginv_init c n m dwt areas)
  have hlen := (shape_run ops (init c n m dwt areas)).length
  refine frame_completes _ x vs g hov now hi (counting_zero _ vs g now ?_ hn) k f
  rw [hlen, hl]
  simp [init]

theorem gestTimeout_nothing (s : Pad) (now : Nat) (h : s.gest.pending = 0) : (step s (.gestTimeout now)).2 = [] := by
  simp only [step]
  split
  · unfold Pad.gestTimeout
    simp only
    rw [if_pos h]
  · rfl

/-- A gesture survives a short change of the number of fingers: once as many fingers are back as it has, the timer that would
end it does nothing. -/
theorem fingers_back (c : Config) (hc : Sound c) (n : Nat) (m : Method) (dwt areas : Bool) (ops : List Op) (now : Nat) (vs : List View)
    (g : Frame) (hov : Nat → Bool) (k : Kind) (f : Nat) (later : Nat)
    (hg : followAll .idle (run (init c n m dwt areas) (ops ++ [.frame now vs g hov])).2 = some (.gesture k f))
    (hf : counting ((run (init c n m dwt areas) ops).1.judge vs g now).1 = f) :
    (step (run (init c n m dwt areas) (ops ++ [.frame now vs g hov])).1 (.gestTimeout later)).2 = [] := by
  obtain ⟨x, h, hi⟩ := good_run (ops ++ [.frame now vs g hov]) (init c n m dwt areas) .idle hc (ginv_init c n m dwt areas)
  rw [h] at hg
  cases hg
  have hgest := hi.gesture k f rfl
  have hcount := hgest.2.2
  have hpos : f ≠ 0 := by
    have := hi.counts (fun e => by rw [e] at hgest; cases hgest.2.1)
    omega
  rw [run_append] at hcount ⊢
  simp only [run, step] at hcount
  have hp := frame_back _ vs g hov now (by rw [hf]; exact hpos) (by rw [hf]; exact hcount)
  exact gestTimeout_nothing _ later hp

/-- Two of three fingers stay for 50 ms, then the third is back; with nothing pending the timer does nothing, whereas without
the third finger it ends the gesture. -/
example : (run (demo .twoFinger) (demoSwipe 3 ++ [demoFrame 5000 (fingersAt .update 240 2 ++ [at_ .end_ 400 250]),
      demoFrame 55000 (fingersAt .update 230 2 ++ [at_ .begin 400 230]), .gestTimeout 105000, demoFrame 106000 (fingersAt .update 220 3),
      demoFrame 107000 (fingersAt .update 210 3)])).2 =
      [.begin .swipe 3, .update .swipe 3, .update .swipe 3, .update .swipe 3] ∧
    (run (demo .twoFinger) (demoSwipe 3 ++ [demoFrame 5000 (fingersAt .update 240 2 ++ [at_ .end_ 400 250]), .gestTimeout 105000])).2 =
      [.begin .swipe 3, .update .swipe 3, .update .swipe 3, .end_ .swipe 3 true] := by decide +kernel

/-- There are never more fingers in an event than touches on the touchpad. -/
theorem gesture_fingers_down (c : Config) (n : Nat) (m : Method) (dwt areas : Bool) (ops : List Op) (now : Nat) (vs : List View) (g : Frame)
    (hov : Nat → Bool) (hl : vs.length = n) (k : Kind) (f : Nat)
    (h : .begin k f ∈ (step (run (init c n m dwt areas) ops).1 (.frame now vs g hov)).2 ∨
      .update k f ∈ (step (run (init c n m dwt areas) ops).1 (.frame now vs g hov)).2) : f ≤ downs vs := by
  have hlen := (shape_run ops (init c n m dwt areas)).length
  have hle := counting_le (run (init c n m dwt areas) ops).1 vs g now (by rw [hlen, hl]; simp [init])
  rcases h with h | h
  · have h1 := gesture_fingers _ vs g hov now _ h; simp only at h1; omega
  · have h1 := gesture_fingers _ vs g hov now _ h; simp only at h1; omega

example : downs (fingersAt .update 300 3) = 3 ∧
    .begin .swipe 3 ∈ (step (run (demo .twoFinger) ((demoSwipe 3).take 2)).1 (demoFrame 3000 (fingersAt .update 300 3))).2 := by decide +kernel

/-- Only fingers move the pointer: every touch whose movement is in a motion event is down, is no palm and no resting thumb,
moved since the clickpad was pressed, and is not in a software button area; and it is not on a scroll edge, unless this
very frame has a click, which ends edge scrolling first. -/
theorem motion_of_fingers (s : Pad) (vs : List View) (g : Frame) (hov : Nat → Bool) (now : Nat) (w : List Nat)
    (h : .motion w ∈ (step s (.frame now vs g hov)).2) :
    ∀ i ∈ w, ∃ t ∈ (s.judge vs g now).1.touches, t.index = i ∧ t.dirty = true ∧
      (Counts (s.judge vs g now).1 t ∨ (g.click = true ∧ t.dir ≠ none ∧ Counts (s.judge vs g now).1 { t with edgeSt := .area })) :=
  frame_movers s vs g hov now w h

example : .motion [0] ∈ (step (run (demo .twoFinger) ((demoSwipe 1).take 3)).1 (demoFrame 4000 (fingersAt .update 250 1))).2 := by decide +kernel

/-- Nothing but a frame of the touchpad itself moves the pointer, begins or updates a gesture. -/
theorem only_frames (s : Pad) (op : Op) (hop : ∀ now vs g hov, op ≠ .frame now vs g hov) (o : Out) (ho : o ∈ (step s op).2) :
    (∀ w, o ≠ .motion w) ∧ (∀ k n, o ≠ .begin k n) ∧ (∀ k n, o ≠ .update k n) := by
  rcases step_quiet s op hop o ho with h | ⟨k, n, rfl⟩
  · cases o <;> simp_all [Out.minor]
  · simp

/-- What ends by itself: a key press on a paired keyboard cancels a gesture. -/
example : (run (demo .twoFinger) (.pair 1 :: demoSwipe 3 ++ [.key 5000 1 30 true])).2.getLast? = some (.end_ .swipe 3 true) := by decide +kernel

end Libinput.Motion
