import Verif.SoftButtons.Props
/-
Property C31, second half: which button a click gives, and when it is reported.
-/
namespace Libinput.SoftButtons
open Spec

/-! ### The fingers -/

theorem init_suspended (g : Geo) (hasTop : Bool) (m : Method) (n : Nat) : (init g hasTop m n).suspended = false :=
  (init_click g hasTop m n).susp

theorem init_slots (g : Geo) (hasTop : Bool) (m : Method) (n : Nat) :
    SlotInv (init g hasTop m n) (List.replicate n false) (fun _ => []) := by
  refine ⟨fun _ => Or.inl rfl, by simp [init_touches], ?_, ?_⟩
  · intro i b h
    rw [List.getElem?_replicate] at h
    split at h <;> simp_all
  · intro i t h
    rw [init_touches, List.getElem?_replicate] at h
    split at h
    · simp only [Option.some.injEq] at h
      subst h
      rfl
    · simp at h

/-- The record of finger `i` at the end of a history of a new touchpad. -/
abbrev seen (g : Geo) (hasTop : Bool) (m : Method) (n i : Nat) (ops : List Op) : List Item :=
  history i (init g hasTop m n) [] ops

theorem finger_core (g : Geo) (hasTop : Bool) (m : Method) (n : Nat) (ops : List Op)
    (hp : Possible hasTop {} (List.replicate n false) ops) (i : Nat) (t : Touch)
    (ht : (run (init g hasTop m n) ops).1.touches[i]? = some t) : t.core = after (seen g hasTop m n i ops) := by
  obtain ⟨hs', h⟩ := run_slots ops (s := init g hasTop m n) (e := {}) (init_suspended ..) (init_slots ..)
    (by rw [init_hasTop]; exact hp)
  exact h.core i t ht

theorem seen_first (g : Geo) (hasTop : Bool) (m : Method) (n : Nat) (ops : List Op)
    (hp : Possible hasTop {} (List.replicate n false) ops) (i : Nat) :
    seen g hasTop m n i ops = [] ∨ ∃ z t r, seen g hasTop m n i ops = .at z t :: r := by
  obtain ⟨hs', h⟩ := run_slots ops (s := init g hasTop m n) (e := {}) (init_suspended ..) (init_slots ..)
    (by rw [init_hasTop]; exact hp)
  exact h.first i

/-- The number of touches does not change. -/
theorem step_length (s : Pad) (op : Op) : (step s op).1.touches.length = s.touches.length := by
  cases op with
  | button v =>
    simp only [step]
    split
    · rfl
    · unfold processButton; split <;> rfl
  | frame t vs =>
    simp only [step]
    split
    · rfl
    · rw [handleFrame_touches, handleLoop_length]
  | timeout now i =>
    simp only [step]
    repeat' split
    all_goals simp
  | setMethod m => exact congrArg List.length (setMethod_fields s m).2.2.2.2.2.2.2.2.2
  | setMiddle b => exact congrArg List.length (applyMiddle_fields { s with emulWant := b }).2.2.2.2.2.2.2.2.2.1
  | setLeft b => exact congrArg List.length (applyLeft_fields { s with leftWant := b }).2.2.2.2.2.2.2.2.2
  | applyLeft => exact congrArg List.length (applyLeft_fields s).2.2.2.2.2.2.2.2.2
  | suspend t vs =>
    have hc : ∀ s t vs, (clearState s t vs).1.touches.length = s.touches.length := by
      intro s t vs
      unfold clearState
      rw [handleFrame_touches, handleLoop_length, (releaseAll_fields s).2.2.2.2.2.2.2.2.2]
    simp only [step]
    split
    · rfl
    · split
      · rw [(initTop_fields _ _).2.2.2.2.2.2.2.2.2]; exact hc s t vs
      · show (clearState (clearState s t vs).1 t _).1.touches.length = _
        rw [hc, hc]
  | resume t vs =>
    have hc : ∀ s t vs, (clearState s t vs).1.touches.length = s.touches.length := by
      intro s t vs
      unfold clearState
      rw [handleFrame_touches, handleLoop_length, (releaseAll_fields s).2.2.2.2.2.2.2.2.2]
    simp only [step]
    split
    · rfl
    · split
      · show (initTop _ false).touches.length = _
        rw [(initTop_fields _ _).2.2.2.2.2.2.2.2.2]; exact hc s t vs
      · rfl
  | addTrackpoint => simp only [step]; split <;> rfl
  | removeTrackpoint =>
    simp only [step]
    repeat' split
    all_goals rfl

theorem run_length (s : Pad) (ops : List Op) : (run s ops).1.touches.length = s.touches.length := by
  induction ops generalizing s with
  | nil => rfl
  | cons op ops ih => rw [run_cons]; exact (ih _).trans (step_length s op)

theorem run_append (s : Pad) (a : List Op) (op : Op) : (run s (a ++ [op])).1 = (step (run s a).1 op).1 := by
  induction a generalizing s with
  | nil => rfl
  | cons o a ih => rw [List.cons_append, run_cons, run_cons]; exact ih _

/-- What a finger counts as at the end of a history: the software button a click would give for it, or `none`. -/
abbrev countsAs (g : Geo) (hasTop : Bool) (m : Method) (n i : Nat) (ops : List Op) : Option Zone :=
  ((run (init g hasTop m n) ops).1.touches[i]?).bind Touch.cur

theorem countsAs_eq (g : Geo) (hasTop : Bool) (m : Method) (n : Nat) (ops : List Op)
    (hp : Possible hasTop {} (List.replicate n false) ops) (i : Nat) (hi : i < n) :
    countsAs g hasTop m n i ops = (after (seen g hasTop m n i ops)).cur := by
  have hl : i < (run (init g hasTop m n) ops).1.touches.length := by
    rw [run_length, init_touches]; simpa using hi
  obtain ⟨t, ht⟩ : ∃ t, (run (init g hasTop m n) ops).1.touches[i]? = some t :=
    ⟨_, List.getElem?_eq_getElem hl⟩
  have := finger_core g hasTop m n ops hp i t ht
  unfold countsAs
  rw [ht, ← this]
  rfl

/-- **C31.** A finger that did not land on a top button counts as the bottom button it is on, as long as it never left
the bottom buttons; after that it counts as being in the main area until it is lifted, wherever it goes.  A finger that
is not there counts for nothing. -/
theorem finger_counts (g : Geo) (hasTop : Bool) (m : Method) (n : Nat) (ops : List Op)
    (hp : Possible hasTop {} (List.replicate n false) ops) (i : Nat) (hi : i < n)
    (hz : ∀ z, (zones (seen g hasTop m n i ops)).head? = some z → isTop z = false) :
    countsAs g hasTop m n i ops = counts (zones (seen g hasTop m n i ops)) := by
  rw [countsAs_eq g hasTop m n ops hp i hi]
  rcases seen_first g hasTop m n ops hp i with h | ⟨z, t, r, h⟩
  · rw [h]; rfl
  · rw [h]
    rw [h] at hz
    exact after_counts z t r (hz z rfl)

/-- A history for the non-vacuity examples: one finger lands on the bottom right button and slides to the bottom left
one, a second one slides from the bottom left button into the main area and back. -/
def slides : List Op :=
  [.frame 1 [lands 900 550, lands 100 550], .frame 2 [moves 200 550, moves 100 300],
   .frame 3 [rests 200 550, moves 100 550]]

example : Possible false {} (List.replicate 2 false) slides ∧
    countsAs demoGeo false .areas 2 0 slides = some .bottomL ∧ countsAs demoGeo false .areas 2 1 slides = some .area ∧
    zones (seen demoGeo false .areas 2 1 slides) = [.bottomL, .area, .bottomL] := by
  refine ⟨?_, ?_, ?_, ?_⟩
  · simp [Possible, slides, Env.read, fitsAll, fits, lands, moves, rests, there]
  · decide +kernel
  · decide +kernel
  · decide +kernel

/-- **C31.** A finger that landed on a top button and stayed on top buttons counts as the one it is on. -/
theorem finger_on_top (g : Geo) (hasTop : Bool) (m : Method) (n : Nat) (ops : List Op)
    (hp : Possible hasTop {} (List.replicate n false) ops) (i : Nat) (hi : i < n) (z : Zone) (t : Nat) (is : List Item)
    (hs : seen g hasTop m n i ops = .at z t :: is) (hz : isTop z = true) (hall : (zones is).all isTop = true) :
    countsAs g hasTop m n i ops = some ((zones is).getLastD z) := by
  rw [countsAs_eq g hasTop m n ops hp i hi, hs, stay_core z t is hz hall, ← stay_on z t is]
  unfold Stay.core
  split <;> rfl

/-- **C31.** A finger that crosses the top buttons without settling on one (100 ms there, or a click) counts as being
in the main area once it left, until it is lifted. -/
theorem finger_crossed_top (g : Geo) (hasTop : Bool) (m : Method) (n : Nat) (ops : List Op)
    (hp : Possible hasTop {} (List.replicate n false) ops) (i : Nat) (hi : i < n) (z : Zone) (t : Nat) (is : List Item)
    (w : Zone) (tw : Nat) (post : List Item) (hs : seen g hasTop m n i ops = (.at z t :: is) ++ .at w tw :: post)
    (hz : isTop z = true) (hall : (zones is).all isTop = true) (hset : (stay z t is).settled = false)
    (hw : isTop w = false) : countsAs g hasTop m n i ops = some .area := by
  rw [countsAs_eq g hasTop m n ops hp i hi, hs, after_append, stay_core z t is hz hall, leave_early _ hset w tw hw]

/-- **C31.** A finger that settled on a top button and left it keeps counting as that button as long as its timer, set
to 300 ms after leaving, has not fired. -/
theorem finger_left_top (g : Geo) (hasTop : Bool) (m : Method) (n : Nat) (ops : List Op)
    (hp : Possible hasTop {} (List.replicate n false) ops) (i : Nat) (hi : i < n) (z : Zone) (t : Nat) (is : List Item)
    (w : Zone) (tw : Nat) (post : List Item) (hs : seen g hasTop m n i ops = (.at z t :: is) ++ .at w tw :: post)
    (hz : isTop z = true) (hall : (zones is).all isTop = true) (hset : (stay z t is).settled = true)
    (hw : isTop w = false) (hout : (zones post).all (fun z => !isTop z) = true)
    (hdue : ticksBefore (tw + 300000) post) :
    countsAs g hasTop m n i ops = some ((zones is).getLastD z) := by
  rw [countsAs_eq g hasTop m n ops hp i hi, hs, after_append, stay_core z t is hz hall, List.foldl_cons,
    leave_settled _ hset w tw hw, away _ _ post hout hdue, stay_on]

/-- **C31.** Once that timer has fired the finger counts for nothing; after the next click it counts as being in the
main area, until it is lifted. -/
theorem finger_forgotten (g : Geo) (hasTop : Bool) (m : Method) (n : Nat) (ops : List Op)
    (hp : Possible hasTop {} (List.replicate n false) ops) (i : Nat) (hi : i < n) (z : Zone) (t : Nat) (is : List Item)
    (w : Zone) (tw : Nat) (post rest : List Item) (now : Nat)
    (hs : seen g hasTop m n i ops = (.at z t :: is) ++ .at w tw :: (post ++ .tick now :: rest))
    (hz : isTop z = true) (hall : (zones is).all isTop = true) (hset : (stay z t is).settled = true)
    (hw : isTop w = false) (hout : (zones post).all (fun z => !isTop z) = true)
    (hdue : ticksBefore (tw + 300000) post) (hnow : tw + 300000 ≤ now) :
    countsAs g hasTop m n i ops = if rest.any isClick then some .area else none := by
  rw [countsAs_eq g hasTop m n ops hp i hi, hs, after_append, stay_core z t is hz hall, List.foldl_cons,
    leave_settled _ hset w tw hw, List.foldl_append, away _ _ post hout hdue, List.foldl_cons, expire _ _ _ hnow, ignored]

/-- **C31.** A finger that comes back in time counts as the top button it comes back to. -/
theorem finger_returned (g : Geo) (hasTop : Bool) (m : Method) (n : Nat) (ops : List Op)
    (hp : Possible hasTop {} (List.replicate n false) ops) (i : Nat) (hi : i < n) (z : Zone) (t : Nat) (is : List Item)
    (w : Zone) (tw : Nat) (post : List Item) (u : Zone) (tu : Nat)
    (hs : seen g hasTop m n i ops = (.at z t :: is) ++ .at w tw :: (post ++ [.at u tu]))
    (hz : isTop z = true) (hall : (zones is).all isTop = true) (hset : (stay z t is).settled = true)
    (hw : isTop w = false) (hout : (zones post).all (fun z => !isTop z) = true)
    (hdue : ticksBefore (tw + 300000) post) (hu : isTop u = true) :
    countsAs g hasTop m n i ops = some u := by
  rw [countsAs_eq g hasTop m n ops hp i hi, hs, after_append, stay_core z t is hz hall, List.foldl_cons,
    leave_settled _ hset w tw hw, List.foldl_append, away _ _ post hout hdue, List.foldl_cons, come_back _ _ _ _ hu]
  show (if _ then _ else _ : Core).cur = _
  split
  · next h => rw [h]; rfl
  · rfl

/-- A finger settles on the top left button, leaves it, and is forgotten. -/
def leaves : List Op :=
  [.frame 1 [lands 100 50], .timeout 100001 0, .frame 200000 [moves 100 300], .timeout 400000 0, .timeout 500000 0]

/-- Non-vacuity: the stages of `leaves`, and a finger that crosses or comes back. -/
example : Possible true {} (List.replicate 1 false) leaves ∧
    seen demoGeo true .areas 1 0 leaves =
      [.at .topL 1, .tick 100001] ++ .at .area 200000 :: ([.tick 400000] ++ .tick 500000 :: []) ∧
    (stay .topL 1 [.tick 100001]).settled = true ∧
    countsAs demoGeo true .areas 1 0 (leaves.take 2) = some .topL ∧
    countsAs demoGeo true .areas 1 0 (leaves.take 4) = some .topL ∧
    countsAs demoGeo true .areas 1 0 leaves = none ∧
    countsAs demoGeo true .areas 1 0 (leaves ++ [.button true, .frame 600000 [rests 100 300]]) = some .area ∧
    countsAs demoGeo true .areas 1 0 (leaves.take 4 ++ [.frame 450000 [moves 900 50]]) = some .topR ∧
    countsAs demoGeo true .areas 1 0 [.frame 1 [lands 100 50], .frame 2 [moves 100 300]] = some .area := by
  refine ⟨?_, ?_, ?_, ?_, ?_, ?_, ?_, ?_, ?_⟩
  · simp [Possible, leaves, Env.read, fitsAll, fits, lands, moves, there]
  all_goals decide +kernel

/-! ### The settings -/

theorem postButtons_conf (s : Pad) (t : Nat) (vs : List View) : (postButtons s t vs).1.method = s.method ∧
    (postButtons s t vs).1.emul = s.emul ∧ (postButtons s t vs).1.emulWant = s.emulWant ∧
    (postButtons s t vs).1.left = s.left ∧ (postButtons s t vs).1.leftWant = s.leftWant ∧
    (postButtons s t vs).1.down = s.down ∧ (postButtons s t vs).1.trackpoint = s.trackpoint := by
  unfold postButtons notify
  dsimp only
  repeat' split
  all_goals exact ⟨rfl, rfl, rfl, rfl, rfl, rfl, rfl⟩

/-- The settings in the model. -/
def Pad.conf (s : Pad) : Conf := ⟨s.method, s.emul, s.emulWant, s.left, s.leftWant⟩

theorem initSoftbuttons_conf (s : Pad) : (initSoftbuttons s).conf = s.conf := by
  unfold initSoftbuttons; split <;> rfl

theorem initTop_conf (s : Pad) (b : Bool) : (initTop s b).conf = s.conf := by
  unfold initTop; split <;> rfl

theorem switchMethod_conf (s : Pad) : (switchMethod s).conf = s.conf := by
  unfold switchMethod
  split
  · exact initSoftbuttons_conf s
  all_goals rfl

theorem applyMiddle_conf (s : Pad) :
    (applyMiddle s).conf = if s.down then s.conf else { s.conf with emul := s.emulWant } := by
  unfold applyMiddle
  cases h : s.down
  · simp only [Bool.false_eq_true, if_false]
    split
    · next h2 => simp [Pad.conf, h2]
    · split
      · exact initSoftbuttons_conf _
      · rfl
  · simp

theorem handleFrame_conf (s : Pad) (t : Nat) (vs : List View) :
    (handleFrame s t vs).1.conf = if s.down then s.conf else { s.conf with emul := s.emulWant } := by
  rw [handleFrame_eq]
  simp only
  rw [applyMiddle_conf]
  obtain ⟨h1, h2, h3, h4, h5, h6, -⟩ := postButtons_conf (handleState s t vs) t vs
  simp only [postProcess, Pad.conf, h1, h2, h3, h4, h5, h6]
  rfl

theorem releaseAll_conf (s : Pad) : (releaseAll s).conf = s.conf := by
  unfold releaseAll; split <;> rfl

theorem clearState_conf (s : Pad) (t : Nat) (vs : List View) :
    (clearState s t vs).1.conf = { s.conf with emul := s.emulWant } := by
  unfold clearState
  rw [handleFrame_conf, (releaseAll_fields s).1, releaseAll_conf]
  have : (releaseAll s).emulWant = s.emulWant := congrArg Conf.emulWant (releaseAll_conf s)
  rw [this]; rfl

theorem step_conf (s : Pad) (e : Env) (op : Op) (hd : s.down = e.down) (hs : s.suspended = e.suspended) :
    (step s op).1.conf = s.conf.follow s.hasTop e op := by
  have hcl : s.closed = !(e.read s.hasTop) := by
    unfold Pad.closed Env.read
    rw [hs]
    cases e.suspended <;> cases s.hasTop <;> rfl
  cases op with
  | button v =>
    simp only [step, Conf.follow]
    split
    · rfl
    · unfold processButton; split <;> rfl
  | frame t vs =>
    simp only [step, Conf.follow, hcl]
    cases hr : e.read s.hasTop
    · simp
    · simp only [Bool.not_true, Bool.false_eq_true, if_false, handleFrame_conf, hd, Bool.true_and]
      cases e.down <;> simp [Pad.conf]
  | timeout now i =>
    simp only [step, Conf.follow]
    repeat' split
    all_goals rfl
  | setMethod m => exact switchMethod_conf _
  | setMiddle b =>
    simp only [step, Conf.follow, setMiddle, applyMiddle_conf, hd]
    cases e.down <;> rfl
  | setLeft b =>
    simp only [step, Conf.follow, applyLeft, hd]
    cases e.down <;> simp <;> repeat' split
    all_goals simp_all [Pad.conf]
  | applyLeft =>
    simp only [step, Conf.follow, applyLeft, hd]
    cases e.down <;> simp <;> repeat' split
    all_goals simp_all [Pad.conf]
  | suspend t vs =>
    simp only [step, Conf.follow, hs]
    split
    · rfl
    · split
      · rw [initTop_conf]; exact clearState_conf s t vs
      · show (clearState (clearState s t vs).1 t _).1.conf = _
        have h1 := clearState_conf s t vs
        have h2 : (clearState s t vs).1.emulWant = s.emulWant := by
          have := congrArg Conf.emulWant h1; exact this
        rw [clearState_conf, h1, h2]; rfl
  | resume t vs =>
    simp only [step, Conf.follow, hs]
    cases e.suspended <;> simp
    split
    · show (initTop _ false).conf = _
      rw [initTop_conf]; exact clearState_conf s t vs
    · rfl
  | addTrackpoint => simp only [step, Conf.follow]; split <;> rfl
  | removeTrackpoint =>
    simp only [step, Conf.follow]
    repeat' split
    all_goals rfl

theorem handleFrame_down (s : Pad) (t : Nat) (vs : List View) : (handleFrame s t vs).1.down = s.down := by
  rw [handleFrame_eq]
  simp only
  rw [(applyMiddle_fields _).1]
  exact (postButtons_conf (handleState s t vs) t vs).2.2.2.2.2.1

theorem step_down (s : Pad) (e : Env) (op : Op) (hd : s.down = e.down) (hs : s.suspended = e.suspended) :
    (step s op).1.down = (e.follow s.hasTop op).down := by
  have hcl : s.closed = !(e.read s.hasTop) := by
    unfold Pad.closed Env.read
    rw [hs]
    cases e.suspended <;> cases s.hasTop <;> rfl
  cases op with
  | button v =>
    simp only [step, Env.follow, hcl]
    cases e.read s.hasTop
    · exact hd
    · unfold processButton; cases v <;> rfl
  | frame t vs =>
    simp only [step, Env.follow, hcl]
    cases e.read s.hasTop
    · exact hd
    · exact (handleFrame_down s t vs).trans hd
  | timeout now i =>
    simp only [step, Env.follow]
    repeat' split
    all_goals exact hd
  | setMethod m => exact (setMethod_fields s m).1.trans hd
  | setMiddle b => exact (applyMiddle_fields { s with emulWant := b }).1.trans hd
  | setLeft b => exact (applyLeft_fields { s with leftWant := b }).1.trans hd
  | applyLeft => exact (applyLeft_fields s).1.trans hd
  | suspend t vs =>
    simp only [step, Env.follow, hs]
    split
    · exact hd
    · split
      · rw [(initTop_fields _ _).1]
        exact (handleFrame_down (releaseAll s) t vs).trans (releaseAll_fields s).1
      · exact (handleFrame_down (releaseAll _) t _).trans (releaseAll_fields _).1
  | resume t vs =>
    simp only [step, Env.follow, hs]
    cases e.suspended <;> simp
    · exact hd
    · split
      · show (initTop _ false).down = _
        rw [(initTop_fields _ _).1]
        exact (handleFrame_down (releaseAll s) t vs).trans (releaseAll_fields s).1
      · exact hd
  | addTrackpoint => simp only [step, Env.follow]; split <;> exact hd
  | removeTrackpoint =>
    simp only [step, Env.follow]
    repeat' split
    all_goals exact hd

theorem run_conf (ops : List Op) {s : Pad} {e : Env} (hd : s.down = e.down) (hs : s.suspended = e.suspended) :
    (run s ops).1.conf = Spec.conf s.hasTop e s.conf ops ∧ (run s ops).1.down = (env s.hasTop e ops).down ∧
      (run s ops).1.suspended = (env s.hasTop e ops).suspended := by
  induction ops generalizing s e with
  | nil => exact ⟨rfl, hd, hs⟩
  | cons op ops ih =>
    rw [run_cons]
    have h1 := step_conf s e op hd hs
    have h2 := step_down s e op hd hs
    have h3 := step_susp s op e hs
    have := ih h2 h3
    rw [step_hasTop, h1] at this
    exact this

theorem init_conf (g : Geo) (hasTop : Bool) (m : Method) (n : Nat) : (init g hasTop m n).conf = { method := m } := by
  unfold init
  rw [initTop_conf, switchMethod_conf]
  rfl

/-- **C31.** The settings in force at every moment are the specified ones: those asked for last, except while the
physical button is down. -/
theorem settings_in_force (g : Geo) (hasTop : Bool) (m : Method) (n : Nat) (ops : List Op) :
    (run (init g hasTop m n) ops).1.conf = conf hasTop {} { method := m } ops := by
  have := (run_conf ops (s := init g hasTop m n) (e := {}) (init_click g hasTop m n).down
    (init_click g hasTop m n).susp).1
  rw [init_hasTop, init_conf] at this
  exact this

example : conf false {} { method := .areas }
    [.button true, .frame 1 [], .setMiddle true, .setLeft true, .frame 2 [], .button false] =
      ⟨.areas, false, true, false, true⟩ ∧
    conf false {} { method := .areas }
    [.button true, .frame 1 [], .setMiddle true, .setLeft true, .frame 2 [], .button false, .frame 3 [], .applyLeft] =
      ⟨.areas, true, true, true, true⟩ := by decide

theorem step_geo (s : Pad) (op : Op) : (step s op).1.geo = s.geo := by
  have hpb : ∀ s t vs, (postButtons s t vs).1.geo = s.geo := by
    intro s t vs
    unfold postButtons notify
    dsimp only
    repeat' split
    all_goals rfl
  have hf : ∀ s t vs, (handleFrame s t vs).1.geo = s.geo := by
    intro s t vs
    rw [handleFrame_eq]
    simp only
    rw [(applyMiddle_fields _).2.2.2.2.2.2.2.2.2.2]
    exact hpb _ t vs
  have hr : ∀ s, (releaseAll s).geo = s.geo := by intro s; unfold releaseAll; split <;> rfl
  have hc : ∀ s t vs, (clearState s t vs).1.geo = s.geo := fun s t vs => (hf _ t vs).trans (hr s)
  have hi : ∀ s b, (initTop s b).geo = s.geo := by intro s b; unfold initTop; split <;> rfl
  have hss : ∀ s, (initSoftbuttons s).geo = s.geo := by intro s; unfold initSoftbuttons; split <;> rfl
  cases op with
  | button v =>
    simp only [step]
    split
    · rfl
    · unfold processButton; split <;> rfl
  | frame t vs =>
    simp only [step]
    split
    · rfl
    · exact hf s t vs
  | timeout now i =>
    simp only [step]
    repeat' split
    all_goals rfl
  | setMethod m =>
    simp only [step, setMethod, switchMethod]
    cases m
    · exact hss _
    all_goals rfl
  | setMiddle b => exact (applyMiddle_fields { s with emulWant := b }).2.2.2.2.2.2.2.2.2.2
  | setLeft b => simp only [step, applyLeft]; repeat' split
                 all_goals rfl
  | applyLeft => simp only [step, applyLeft]; repeat' split
                 all_goals rfl
  | suspend t vs =>
    simp only [step]
    split
    · rfl
    · split
      · rw [hi]; exact hc s t vs
      · exact (hc _ t _).trans (hc s t vs)
  | resume t vs =>
    simp only [step]
    split
    · rfl
    · split
      · exact (hi _ _).trans (hc s t vs)
      · rfl
  | addTrackpoint => simp only [step]; split <;> rfl
  | removeTrackpoint =>
    simp only [step]
    repeat' split
    all_goals rfl

theorem run_geo (s : Pad) (ops : List Op) : (run s ops).1.geo = s.geo := by
  induction ops generalizing s with
  | nil => rfl
  | cons op ops ih => rw [run_cons]; exact (ih _).trans (step_geo s op)

theorem init_geo (g : Geo) (hasTop : Bool) (m : Method) (n : Nat) : (init g hasTop m n).geo = g := by
  unfold init switchMethod initTop initSoftbuttons
  cases m <;> cases hasTop <;> rfl

theorem frame_clicked (s : Pad) (t : Nat) (vs : List View) : (handleFrame s t vs).1.qPress = false := by
  rw [handleFrame_eq]
  simp only
  rw [(applyMiddle_fields _).2.2.2.2.2.2.2.2.1]
  rfl

theorem run_clicked (ops : List Op) {s : Pad} {e : Env} (hs : s.suspended = e.suspended) :
    (run s ops).1.qPress = clicked s.hasTop e s.qPress ops := by
  induction ops generalizing s e with
  | nil => rfl
  | cons op ops ih =>
    rw [run_cons]
    have h3 := step_susp s op e hs
    have hcl : s.closed = !(e.read s.hasTop) := by
      unfold Pad.closed Env.read
      rw [hs]
      cases e.suspended <;> cases s.hasTop <;> rfl
    have := ih (s := (step s op).1) h3
    rw [step_hasTop] at this
    show (run (step s op).1 ops).1.qPress = _
    rw [this]
    show clicked s.hasTop _ _ ops = clicked s.hasTop _ _ ops
    congr 1
    cases op with
    | button v =>
      simp only [step, hcl]
      cases e.read s.hasTop
      · simp
      · unfold processButton; cases v <;> simp
    | frame t vs =>
      simp only [step, hcl]
      cases e.read s.hasTop
      · simp
      · simp [frame_clicked]
    | timeout now i =>
      simp only [step]
      repeat' split
      all_goals rfl
    | setMethod m => exact (setMethod_fields s m).2.2.2.2.2.2.2.2.1
    | setMiddle b => exact (applyMiddle_fields { s with emulWant := b }).2.2.2.2.2.2.2.2.1
    | setLeft b => exact (applyLeft_fields { s with leftWant := b }).2.2.2.2.2.2.2.2.1
    | applyLeft => exact (applyLeft_fields s).2.2.2.2.2.2.2.2.1
    | suspend t vs =>
      simp only [step, hs]
      cases e.suspended
      · simp only [Bool.and_false, Bool.false_eq_true, if_false]
        split
        · rw [(initTop_fields _ _).2.2.2.2.2.2.2.2.1]; exact frame_clicked ..
        · exact frame_clicked ..
      · simp
    | resume t vs =>
      simp only [step, hs]
      cases e.suspended
      · simp
      · cases hT : s.hasTop
        · simp
        · simp only [Bool.not_true, Bool.and_self, Bool.and_false, Bool.false_eq_true, if_false, if_true]
          show (initTop _ false).qPress = _
          rw [(initTop_fields _ _).2.2.2.2.2.2.2.2.1]; exact frame_clicked ..
    | addTrackpoint => simp only [step]; split <;> rfl
    | removeTrackpoint =>
      simp only [step]
      repeat' split
      all_goals rfl

/-- **C31.** The fingers learn of every press of the physical button in the frame after it, and in no other. -/
theorem press_seen_once (g : Geo) (hasTop : Bool) (m : Method) (n : Nat) (ops : List Op) :
    (run (init g hasTop m n) ops).1.qPress = clicked hasTop {} false ops := by
  have := run_clicked ops (s := init g hasTop m n) (e := {}) (init_suspended ..)
  rw [init_hasTop] at this
  rw [this]
  congr 1
  unfold init switchMethod initTop initSoftbuttons
  cases m <;> cases hasTop <;> rfl

example : clicked false {} false [.button true, .button false] = true ∧
    clicked false {} false [.button true, .frame 1 []] = false := by decide

/-- The edges in the model belong to the settings. -/
def EdgesOk (s : Pad) : Prop := EdgesFor s.geo s.hasTop s.suspended s.conf s.edges

theorem EdgesOk.congr {s s' : Pad} (h : EdgesOk s) (h1 : s'.geo = s.geo) (h2 : s'.hasTop = s.hasTop)
    (h3 : s'.suspended = s.suspended) (h4 : s'.conf.method = s.conf.method) (h5 : s'.conf.emul = s.conf.emul)
    (h6 : s'.edges = s.edges) : EdgesOk s' := by
  unfold EdgesOk at *
  rw [h1, h2, h3, h6]
  obtain ⟨a, b, c, d, e, f⟩ := h
  exact ⟨by rw [h4]; exact a, by rw [h4, h5]; exact b, by rw [h4, h5]; exact c, by rw [h4]; exact d, e, f⟩

theorem initSoftbuttons_edges {s : Pad} (hm : s.method = .areas) (he : s.emul = s.emulWant)
    (hu : s.hasTop = true → s.edges.upper = (if s.suspended then s.geo.upperBig else s.geo.upper) ∧
      s.edges.upL = s.geo.upL ∧ s.edges.upR = s.geo.upR) (hn : s.hasTop = false → s.edges.upper = -2147483648) :
    EdgesOk (initSoftbuttons s) := by
  unfold initSoftbuttons
  cases hw : s.emulWant
  · simp only [Bool.false_eq_true, if_false]
    refine ⟨fun _ => rfl, ?_, fun _ _ => ⟨rfl, rfl⟩, fun h => absurd hm h, hu, hn⟩
    intro _ h
    rw [show s.emul = true from h, hw] at he
    cases he
  · simp only [if_true]
    refine ⟨fun _ => rfl, fun _ _ => ⟨rfl, rfl⟩, ?_, fun h => absurd hm h, hu, hn⟩
    intro _ h
    rw [show s.emul = false from h, hw] at he
    cases he

theorem applyMiddle_edges {s : Pad} (h : EdgesOk s) : EdgesOk (applyMiddle s) := by
  unfold applyMiddle
  split
  · exact h
  · split
    · exact h
    · show EdgesOk (if s.method = .areas then initSoftbuttons { s with emul := s.emulWant } else { s with emul := s.emulWant })
      split
      · next hm => exact initSoftbuttons_edges hm rfl h.upper h.noUpper
      · next hm =>
        exact ⟨fun k => absurd k hm, fun k => absurd k hm, fun k => absurd k hm, h.noStrip, h.upper, h.noUpper⟩

theorem handleFrame_edges {s : Pad} (h : EdgesOk s) (t : Nat) (vs : List View) : EdgesOk (handleFrame s t vs).1 := by
  rw [handleFrame_eq]
  apply applyMiddle_edges
  obtain ⟨h1, h2, -, -, -, -, -⟩ := postButtons_conf (handleState s t vs) t vs
  obtain ⟨k1, -, k2, k3⟩ := postButtons_hasTop (handleState s t vs) t vs
  have hg : (postButtons (handleState s t vs) t vs).1.geo = s.geo := by
    unfold postButtons notify
    dsimp only
    repeat' split
    all_goals rfl
  exact EdgesOk.congr h hg k1 k3 h1 h2 k2

theorem releaseAll_edges {s : Pad} (h : EdgesOk s) : EdgesOk (releaseAll s) := by
  unfold releaseAll; split <;> exact h

theorem initTop_edges {s : Pad} (h : EdgesOk s) (b : Bool) : EdgesOk { initTop s b with suspended := b } := by
  unfold initTop
  split
  · next hT => exact ⟨h.strip, h.split, h.middle, h.noStrip, fun _ => ⟨rfl, rfl, rfl⟩, fun k => by rw [show s.hasTop = false from k] at hT; cases hT⟩
  · next hT => exact ⟨h.strip, h.split, h.middle, h.noStrip, fun k => absurd k hT, fun _ => rfl⟩

theorem susp_edges {s : Pad} (h : EdgesOk s) (hT : s.hasTop = false) (b : Bool) : EdgesOk { s with suspended := b } :=
  ⟨h.strip, h.split, h.middle, h.noStrip, fun k => (by rw [show s.hasTop = true from k] at hT; cases hT), h.noUpper⟩

theorem step_edges {s : Pad} (h : EdgesOk s) (op : Op)
    (hc : match op with | .setMethod _ => s.conf.emul = s.conf.emulWant | _ => True) : EdgesOk (step s op).1 := by
  cases op with
  | button v =>
    simp only [step]
    split
    · exact h
    · unfold processButton; split <;> exact h
  | frame t vs =>
    simp only [step]
    split
    · exact h
    · exact handleFrame_edges h t vs
  | timeout now i =>
    simp only [step]
    repeat' split
    all_goals exact h
  | setMethod m =>
    simp only [step, setMethod, switchMethod]
    cases m
    · exact initSoftbuttons_edges rfl hc h.upper h.noUpper
    · exact ⟨fun k => (nomatch k), fun k => (nomatch k), fun k => (nomatch k), fun _ => rfl, h.upper, h.noUpper⟩
    · exact ⟨fun k => (nomatch k), fun k => (nomatch k), fun k => (nomatch k), fun _ => rfl, h.upper, h.noUpper⟩
  | setMiddle b => exact applyMiddle_edges (s := { s with emulWant := b }) (h.congr rfl rfl rfl rfl rfl rfl)
  | setLeft b =>
    simp only [step, applyLeft]
    repeat' split
    all_goals exact h.congr rfl rfl rfl rfl rfl rfl
  | applyLeft =>
    simp only [step, applyLeft]
    repeat' split
    all_goals exact h.congr rfl rfl rfl rfl rfl rfl
  | suspend t vs =>
    simp only [step]
    split
    · exact h
    · have h1 : EdgesOk (clearState s t vs).1 := handleFrame_edges (releaseAll_edges h) t vs
      split
      · next hT => 
        have := initTop_edges h1 true
        have he : initTop { (clearState s t vs).1 with suspended := true } true =
            { initTop (clearState s t vs).1 true with suspended := true } := by
          unfold initTop; split <;> rfl
        show EdgesOk (initTop { (clearState s t vs).1 with suspended := true } true)
        rw [he]; exact this
      · next hT =>
        refine susp_edges (s := (clearState (clearState s t vs).1 t _).1) (handleFrame_edges (releaseAll_edges h1) t _) ?_ true
        rw [clearState_hasTop]; simpa using hT
  | resume t vs =>
    simp only [step]
    split
    · exact h
    · split
      · exact initTop_edges (handleFrame_edges (releaseAll_edges h) t vs) false
      · next hT => exact susp_edges h (by simpa using hT) false
  | addTrackpoint => simp only [step]; split <;> exact h
  | removeTrackpoint =>
    simp only [step]
    repeat' split
    all_goals exact h

theorem run_edges (ops : List Op) {s : Pad} {e : Env} (h : EdgesOk s) (hd : s.down = e.down)
    (hs : s.suspended = e.suspended) (hc : Calm s.hasTop e s.conf ops) : EdgesOk (run s ops).1 := by
  induction ops generalizing s e with
  | nil => exact h
  | cons op ops ih =>
    rw [run_cons]
    have h1 := step_conf s e op hd hs
    have h2 := step_down s e op hd hs
    have h3 := step_susp s op e hs
    refine ih (step_edges h op ?_) h2 h3 (by rw [step_hasTop, h1]; exact hc.2)
    have := hc.1
    cases op <;> first | trivial | exact this

/-- **C31.** The areas of the software buttons are those of the settings in force. -/
theorem areas_in_force (g : Geo) (hasTop : Bool) (m : Method) (n : Nat) (ops : List Op)
    (hc : Calm hasTop {} { method := m } ops) :
    EdgesFor g hasTop (env hasTop {} ops).suspended (conf hasTop {} { method := m } ops)
      (run (init g hasTop m n) ops).1.edges := by
  have h0 : EdgesOk (init g hasTop m n) := by
    unfold init switchMethod initTop initSoftbuttons
    cases m <;> cases hasTop <;>
      exact ⟨by simp [Pad.conf], by simp [Pad.conf], by simp [Pad.conf], by simp [Pad.conf, INT_MAX], by simp, by simp [INT_MIN]⟩
  have hi := init_click g hasTop m n
  have h := run_edges ops (s := init g hasTop m n) (e := {}) h0 hi.down hi.susp
    (by rw [init_hasTop, init_conf]; exact hc)
  have hs := (run_conf ops (s := init g hasTop m n) (e := {}) hi.down hi.susp).2.2
  have hto : (run (init g hasTop m n) ops).1.hasTop = hasTop := by
    have : ∀ s, (run s ops).1.hasTop = s.hasTop := by
      intro s
      clear hc h hs
      induction ops generalizing s with
      | nil => rfl
      | cons op ops ih => rw [run_cons]; exact (ih _).trans (step_hasTop s op)
    exact (this _).trans (init_hasTop ..)
  have hg : (run (init g hasTop m n) ops).1.geo = g := (run_geo _ ops).trans (init_geo ..)
  unfold EdgesOk at h
  rw [hto, hs, hg, settings_in_force, init_hasTop] at h
  exact h

/-- Non-vacuity: emulation and method are changed, with the physical button up and down. -/
example : Calm true {} { method := .areas } [.setMiddle true, .button true, .setMiddle false, .frame 1 [], .button false,
      .frame 2 [], .setMethod .clickfinger, .suspend 3 [], .setMethod .areas] ∧
    (run (init demoGeo true .areas 0) [.setMiddle true, .button true, .setMiddle false, .frame 1 [], .button false,
      .frame 2 [], .setMethod .clickfinger, .suspend 3 [], .setMethod .areas]).1.edges =
      ⟨510, 625, 375, 300, 400, 600⟩ := by
  constructor
  · simp [Calm, Conf.follow, Env.follow, Env.read]
  · decide +kernel

/-! ### The button -/

theorem any_isT (zs : List (Option Zone)) : zs.any isT = onTop zs := by
  unfold onTop
  rw [Bool.eq_iff_iff]
  simp only [List.any_eq_true, decide_eq_true_eq]
  constructor
  · rintro ⟨z, hz, h⟩
    unfold isT at h
    simp only [Bool.or_eq_true, beq_iff_eq] at h
    rcases h with (rfl | rfl) | rfl
    · exact Or.inl hz
    · exact Or.inr (Or.inl hz)
    · exact Or.inr (Or.inr hz)
  · rintro (h | h | h) <;> exact ⟨_, h, rfl⟩

theorem any_two (zs : List (Option Zone)) (f : Option Zone → Bool) (a b : Zone)
    (hf : ∀ z, f z = (z == some a || z == some b)) : zs.any f = on zs b a := by
  unfold on
  rw [Bool.eq_iff_iff]
  simp only [List.any_eq_true, decide_eq_true_eq, hf, Bool.or_eq_true, beq_iff_eq]
  constructor
  · rintro ⟨z, hz, rfl | rfl⟩
    · exact Or.inr hz
    · exact Or.inl hz
  · rintro (h | h)
    · exact ⟨_, h, Or.inr rfl⟩
    · exact ⟨_, h, Or.inl rfl⟩

theorem choose_eq (s : Pad) : choose s = button (s.touches.map Touch.cur) s.emul s.left := by
  unfold choose button
  dsimp only
  generalize s.touches.map Touch.cur = zs
  rw [any_two zs isL .topL .bottomL (fun _ => rfl), any_two zs isM .topM .bottomM (fun _ => rfl),
    any_two zs isR .topR .bottomR (fun _ => rfl), any_isT]
  unfold toLeft
  generalize on zs .bottomL .topL = l
  generalize on zs .bottomM .topM = m
  generalize on zs .bottomR .topR = r
  generalize onTop zs = top
  generalize s.left = sl
  generalize s.emul = se
  cases sl <;> cases se <;> cases l <;> cases m <;> cases r <;> cases top <;> rfl

theorem together_iff (g : Geo) (a b : Pt) : together g a b = true ↔ Together g a b := by
  unfold together Together
  dsimp only
  split
  · next h => simp only [Bool.false_eq_true, false_iff]; rintro ⟨h1, h2, -⟩; omega
  · next h =>
    split
    · next h1 => simp only [true_iff]; exact ⟨by omega, by omega, Or.inl h1⟩
    · next h1 =>
      split
      · next h2 => simp only [true_iff]; exact ⟨by omega, by omega, Or.inr (Or.inl h2)⟩
      · next h2 =>
        rw [beq_iff_eq, decide_eq_decide]
        constructor
        · intro h3; exact ⟨by omega, by omega, Or.inr (Or.inr h3)⟩
        · rintro ⟨-, -, h3 | h3 | h3⟩
          · exact absurd h3 h1
          · exact absurd h3 h2
          · exact h3

theorem clickfinger_spec (g : Geo) (vs : List View) :
    Fingers g (clicking vs) (if clickfinger g vs = 0 then none else some (clickfinger g vs)) := by
  unfold clickfinger
  dsimp only [BTN_LEFT, BTN_RIGHT, BTN_MIDDLE]
  show Fingers g (clicking vs) (if (match (match clicking vs with
    | [a, b] => if together g a.pt b.pt then 2 else 1
    | fs => fs.length) with
    | 0 | 1 => 0x110 | 2 => 0x111 | 3 => 0x112 | _ => 0) = 0 then none else some (match (match clicking vs with
    | [a, b] => if together g a.pt b.pt then 2 else 1
    | fs => fs.length) with
    | 0 | 1 => 0x110 | 2 => 0x111 | 3 => 0x112 | _ => 0))
  generalize clicking vs = fs
  match fs with
  | [] => exact .zero
  | [a] => exact .one a
  | [a, b] =>
    by_cases h : together g a.pt b.pt = true
    · simp only [h, if_true]; exact .two a b ((together_iff ..).mp h)
    · simp only [h, if_false]; exact .apart a b (fun hk => h ((together_iff ..).mpr hk))
  | [a, b, c] => exact .three a b c
  | a :: b :: c :: d :: l => exact .more _ (by simp)

/-- What a press event of a frame looks like. -/
theorem postButtons_press (s : Pad) (t : Nat) (vs : List View) (x : Note) (hx : x ∈ (postButtons s t vs).2)
    (hp : x.pressed = true) :
    x.time = t ∧ s.down = true ∧ (x.dest = .trackpoint ↔ s.trackpoint = true ∧ onTop (s.touches.map Touch.cur) = true) ∧
    (x.dest = .touchpad → s.trackpoint = true → s.suspended = false) ∧
    (x.dest = .trackpoint ∨ s.method ≠ .clickfinger →
      x.code = button (s.touches.map Touch.cur) s.emul s.left ∧
        (s.method ≠ .clickfinger → ∃ z, some z ∈ s.touches.map Touch.cur)) ∧
    (x.dest = .touchpad → s.method = .clickfinger → Fingers s.geo (clicking vs) (some x.code)) := by
  have hcf := clickfinger_spec s.geo vs
  revert hx
  unfold postButtons
  split
  · intro hx; simp at hx
  · split
    · next hd =>
      dsimp only
      split
      · intro hx; simp at hx
      · next hw =>
        rw [if_pos (choose_ne s), any_isT, ← choose_eq s]
        have hex : s.method ≠ .clickfinger → ∃ z, some z ∈ s.touches.map Touch.cur := by
          intro hm
          simp only [Bool.and_eq_true, Bool.not_eq_true', bne_iff_ne, ne_eq, not_and, Decidable.not_not] at hw
          have : (s.touches.map Touch.cur).any Option.isSome = true := by
            cases hk : (s.touches.map Touch.cur).any Option.isSome with
            | true => rfl
            | false => exact absurd (hw hk) hm
          obtain ⟨z, h1, h2⟩ := List.any_eq_true.mp this
          obtain ⟨w, rfl⟩ := Option.isSome_iff_exists.mp h2
          exact ⟨w, h1⟩
        generalize choose s = b
        unfold notify
        dsimp only
        split
        · next h => intro hx; simp at hx; subst hx; exact ⟨rfl, hd, by simpa using h, by simp, fun _ => ⟨rfl, hex⟩, by simp⟩
        · next h =>
          split
          · intro hx; simp at hx
          · next h2 =>
            split
            · next h3 =>
              split
              · intro hx; simp at hx
              · next h4 =>
                intro hx; simp at hx; subst hx
                rw [if_neg h4] at hcf
                exact ⟨rfl, hd, by simpa using h, by simpa using h2, by simpa using fun h => absurd h3.1 h, fun _ _ => hcf⟩
            · next h3 =>
              intro hx; simp at hx; subst hx
              exact ⟨rfl, hd, by simpa using h, by simpa using h2, fun _ => ⟨rfl, hex⟩, fun _ h => absurd h (by simpa using h3)⟩
    · dsimp only
      split
      · unfold notify
        dsimp only
        repeat' split
        all_goals (intro hx; simp at hx; try (subst hx; simp at hp))
      · intro hx; simp at hx

theorem handleFrame_cur (s : Pad) (t : Nat) (vs : List View) :
    (handleFrame s t vs).1.touches = (handleState s t vs).touches := by
  rw [handleFrame_touches]; rfl

/-- The events of the frame with the touches `vs` at time `t` after the history `ops`. -/
abbrev reported (g : Geo) (hasTop : Bool) (m : Method) (n : Nat) (ops : List Op) (t : Nat) (vs : List View) : List Note :=
  (step (run (init g hasTop m n) ops).1 (.frame t vs)).2

/-- What the fingers count as, one after the other, after a history. -/
theorem counted (g : Geo) (hasTop : Bool) (m : Method) (n : Nat) (ops : List Op) :
    (run (init g hasTop m n) ops).1.touches.map Touch.cur =
      (List.range n).map fun i => countsAs g hasTop m n i ops := by
  apply List.ext_getElem
  · rw [List.length_map, run_length, init_touches]; simp
  · intro i h1 h2
    simp only [List.length_map] at h1
    simp [countsAs, List.getElem?_eq_getElem h1]

/-- Is a trackpoint paired at the end of a history? -/
abbrev paired (g : Geo) (hasTop : Bool) (m : Method) (n : Nat) (ops : List Op) : Bool :=
  (run (init g hasTop m n) ops).1.trackpoint

/-- **C31.** The button of a press, for every history and every frame.  A press goes to the trackpoint exactly if one
is paired and a finger counts as being on a top button.  Such a press, and every press with the software buttons, has
the button chosen from what all the fingers count as in that frame and from the settings in force.  With the
clickfinger method the button depends on the number of fingers. -/
theorem press_button (g : Geo) (hasTop : Bool) (m : Method) (n : Nat) (ops : List Op) (t : Nat) (vs : List View) (x : Note)
    (hx : x ∈ reported g hasTop m n ops t vs) (hp : x.pressed = true) :
    let c := conf hasTop {} { method := m } ops
    let zs := (List.range n).map fun i => countsAs g hasTop m n i (ops ++ [.frame t vs])
    x.time = t ∧
    (x.dest = .trackpoint ↔ paired g hasTop m n ops = true ∧ onTop zs = true) ∧
    (x.dest = .trackpoint ∨ c.method ≠ .clickfinger → x.code = button zs c.emul c.left) ∧
    (c.method ≠ .clickfinger → ∃ z, some z ∈ zs) ∧
    (x.dest = .touchpad → c.method = .clickfinger → Fingers g (clicking vs) (some x.code)) := by
  intro c zs
  have hc : (run (init g hasTop m n) ops).1.conf = c := settings_in_force g hasTop m n ops
  have hg : (run (init g hasTop m n) ops).1.geo = g := (run_geo _ ops).trans (init_geo ..)
  have hz : (step (run (init g hasTop m n) ops).1 (.frame t vs)).1.touches.map Touch.cur = zs := by
    rw [← run_append]; exact counted ..
  unfold reported at hx
  unfold paired
  generalize (run (init g hasTop m n) ops).1 = s at hx hc hz hg ⊢
  simp only [step] at hx hz
  by_cases hcl : s.closed = true
  · simp [hcl] at hx
  · rw [if_neg hcl] at hx hz
    rw [handleFrame_cur] at hz
    rw [handleFrame_eq] at hx
    have h := postButtons_press (handleState s t vs) t vs x hx hp
    rw [hz] at h
    have hcm : s.method = c.method := congrArg Conf.method hc
    have hce : s.emul = c.emul := congrArg Conf.emul hc
    have hcl' : s.left = c.left := congrArg Conf.left hc
    obtain ⟨h1, -, h3, -, h5, h6⟩ := h
    simp only [handleState, hcm, hce, hcl', hg] at h3 h5 h6
    exact ⟨h1, h3, fun h => (h5 h).1, fun h => (h5 (Or.inr h)).2 h, h6⟩

/-- **C31.** The same from positions only, for fingers that never touched a top button: the bottom button each finger
is on, if it never left the bottom buttons since it landed, decides. -/
theorem press_button_by_position (g : Geo) (hasTop : Bool) (m : Method) (n : Nat) (ops : List Op) (t : Nat)
    (vs : List View) (x : Note) (hx : x ∈ reported g hasTop m n ops t vs) (hp : x.pressed = true)
    (hpos : Possible hasTop {} (List.replicate n false) (ops ++ [.frame t vs]))
    (hno : ∀ i < n, ∀ z ∈ zones (seen g hasTop m n i (ops ++ [.frame t vs])), isTop z = false)
    (hm : (conf hasTop {} { method := m } ops).method ≠ .clickfinger) :
    x.dest = .touchpad ∧
    x.code = button ((List.range n).map fun i => counts (zones (seen g hasTop m n i (ops ++ [.frame t vs]))))
      (conf hasTop {} { method := m } ops).emul (conf hasTop {} { method := m } ops).left := by
  obtain ⟨-, h2, h3, -, -⟩ := press_button g hasTop m n ops t vs x hx hp
  have hz : ((List.range n).map fun i => countsAs g hasTop m n i (ops ++ [.frame t vs])) =
      (List.range n).map fun i => counts (zones (seen g hasTop m n i (ops ++ [.frame t vs]))) := by
    apply List.map_congr_left
    intro i hi
    have hi := List.mem_range.mp hi
    apply finger_counts g hasTop m n _ hpos i hi
    intro z h
    exact hno i hi z (List.mem_of_mem_head? h)
  rw [hz] at h2 h3
  have hnt : onTop ((List.range n).map fun i => counts (zones (seen g hasTop m n i (ops ++ [.frame t vs])))) = false := by
    unfold onTop
    rw [decide_eq_false_iff_not]
    have key : ∀ w, isTop w = true → ¬ some w ∈ ((List.range n).map fun i => counts (zones (seen g hasTop m n i (ops ++ [.frame t vs])))) := by
      intro w hw hmem
      obtain ⟨i, hi, h⟩ := List.mem_map.mp hmem
      have hi := List.mem_range.mp hi
      have hno := hno i hi
      generalize zones (seen g hasTop m n i (ops ++ [.frame t vs])) = l at h hno
      cases l with
      | nil => simp [counts] at h
      | cons z zs =>
        simp only [counts] at h
        split at h
        · have hl := List.getLast_mem (l := z :: zs) (by simp)
          rw [Option.some.inj h] at hl
          exact absurd (hno w hl) (by simp [hw])
        · rw [← Option.some.inj h] at hw
          simp [isTop] at hw
    rintro (h | h | h)
    · exact key _ rfl h
    · exact key _ rfl h
    · exact key _ rfl h
  refine ⟨?_, h3 (Or.inr hm)⟩
  cases hd : x.dest with
  | touchpad => rfl
  | trackpoint => rw [hnt] at h2; simpa using h2.mp hd

/-- Non-vacuity: a right-handed right click with one finger on the right button, and with the emulation a middle click
with fingers left and right; left-handed the right button gives a left click. -/
example :
    reported demoGeo false .areas 2 [.frame 1 [lands 900 550, away'], .button true] 2 [rests 900 550, away'] =
      [⟨2, .touchpad, 0x111, true⟩] ∧
    reported demoGeo false .areas 2 [.setMiddle true, .frame 1 [lands 900 550, lands 100 550], .button true] 2
      [rests 900 550, rests 100 550] = [⟨2, .touchpad, 0x112, true⟩] ∧
    reported demoGeo false .areas 2 [.setLeft true, .frame 1 [lands 900 550, away'], .button true] 2
      [rests 900 550, away'] = [⟨2, .touchpad, 0x110, true⟩] ∧
    reported demoGeo true .areas 2 [.setLeft true, .addTrackpoint, .frame 1 [lands 900 50, away'], .button true] 2
      [rests 900 50, away'] = [⟨2, .trackpoint, 0x111, true⟩] ∧
    reported demoGeo false .clickfinger 2 [.frame 1 [lands 300 300, lands 400 300], .button true] 2
      [rests 300 300, rests 400 300] = [⟨2, .touchpad, 0x111, true⟩] := by decide +kernel

/-! ### A click without a finger -/

theorem run_inv (ops : List Op) {s : Pad} {e : Env} {c : Click} (h : ClickInv s e c) (hc : Careful s.hasTop e ops) :
    ∃ c', ClickInv (run s ops).1 (env s.hasTop e ops) c' := by
  induction ops generalizing s e c with
  | nil => exact ⟨c, h⟩
  | cons op ops ih =>
    obtain ⟨c', -, h2⟩ := step_click h op hc.1
    have := ih h2 (by rw [step_hasTop]; exact hc.2)
    rw [step_hasTop] at this
    exact this

/-- The physical button is down and the press was not reported yet. -/
structure Waits (s : Pad) : Prop where
  down : s.down = true
  new : s.pending = true ∨ s.old = false
  none : s.active = 0
  opened : s.closed = false

theorem wait_frame {s : Pad} (h : Waits s) (hm : s.method ≠ .clickfinger) (t : Nat) (vs : List View)
    (hn : ∀ z, ¬ some z ∈ (step s (.frame t vs)).1.touches.map Touch.cur) :
    (step s (.frame t vs)).2 = [] ∧ Waits (step s (.frame t vs)).1 ∧ (step s (.frame t vs)).1.method = s.method := by
  obtain ⟨h1, h2, h3, h4⟩ := h
  simp only [step, h4, Bool.false_eq_true, if_false] at hn ⊢
  rw [handleFrame_cur] at hn
  have hmm := congrArg Conf.method (handleFrame_conf s t vs)
  have hsu := handleFrame_susp s t vs
  have hto := handleFrame_hasTop s t vs
  have hcl : (handleFrame s t vs).1.closed = false := by unfold Pad.closed at h4 ⊢; rw [hsu, hto]; exact h4
  have hme : (handleFrame s t vs).1.method = s.method := by
    have : (if s.down then s.conf else { s.conf with emul := s.emulWant } : Conf).method = s.method := by
      split <;> rfl
    exact hmm.trans this
  have hp : postButtons (handleState s t vs) t vs = ({ handleState s t vs with pending := true }, []) := by
    unfold postButtons
    have hc1 : ¬ ((!(handleState s t vs).pending && (handleState s t vs).down == (handleState s t vs).old) = true) := by
      show ¬ ((!s.pending && s.down == s.old) = true)
      rw [h1]
      rcases h2 with h | h <;> simp [h]
    rw [if_neg hc1, if_pos (show (handleState s t vs).down = true from h1)]
    have : ((handleState s t vs).touches.map Touch.cur).any Option.isSome = false := by
      rw [List.any_eq_false]
      intro z hz
      cases z with
      | none => simp
      | some z => exact absurd hz (hn z)
    have hc2 : (!((handleState s t vs).touches.map Touch.cur).any Option.isSome &&
        (handleState s t vs).method != .clickfinger) = true := by
      rw [this]
      show (!false && s.method != .clickfinger) = true
      simpa using hm
    dsimp only
    rw [if_pos hc2]
  refine ⟨?_, ⟨?_, ?_, ?_, hcl⟩, hme⟩
  · rw [handleFrame_eq, hp]
  · rw [handleFrame_down]; exact h1
  · left
    rw [handleFrame_eq, hp]
    simp only
    rw [(applyMiddle_fields _).2.2.2.1]
    rfl
  · rw [handleFrame_eq, hp]
    simp only
    rw [(applyMiddle_fields _).2.2.2.2.1]
    exact h3

theorem report_frame {s : Pad} (h : Waits s) (hm : s.method ≠ .clickfinger) (t : Nat) (vs : List View) (z : Zone)
    (hz : some z ∈ (step s (.frame t vs)).1.touches.map Touch.cur)
    (hr : s.trackpoint = true → s.suspended = true →
      onTop ((step s (.frame t vs)).1.touches.map Touch.cur) = true) :
    ∃ d b, (step s (.frame t vs)).2 = [⟨t, d, b, true⟩] := by
  obtain ⟨h1, h2, h3, h4⟩ := h
  simp only [step, h4, Bool.false_eq_true, if_false] at hz hr ⊢
  rw [handleFrame_cur] at hz hr
  rw [handleFrame_eq]
  show ∃ d b, (postButtons (handleState s t vs) t vs).2 = _
  have e1 : (handleState s t vs).trackpoint = s.trackpoint := rfl
  have e2 : (handleState s t vs).suspended = s.suspended := rfl
  have e3 : (handleState s t vs).method = s.method := rfl
  have e4 : (handleState s t vs).down = s.down := rfl
  have e5 : (handleState s t vs).pending = s.pending := rfl
  have e6 : (handleState s t vs).old = s.old := rfl
  rw [← e1, ← e2] at hr
  rw [← e3] at hm
  rw [← e4] at h1
  rw [← e5, ← e6] at h2
  generalize handleState s t vs = s1 at *
  unfold postButtons
  rw [if_neg (by rw [h1]; rcases h2 with h | h <;> simp [h]), if_pos h1]
  dsimp only
  have : (s1.touches.map Touch.cur).any Option.isSome = true := List.any_eq_true.mpr ⟨_, hz, rfl⟩
  rw [this, if_neg (by simp), if_pos (choose_ne s1), any_isT]
  unfold notify
  dsimp only
  split
  · exact ⟨_, _, rfl⟩
  · next hk =>
    split
    · next hk2 => exact absurd ⟨hk2.1, hr hk2.1 hk2.2⟩ hk
    · rw [if_neg (fun hk => hm hk.1)]
      exact ⟨_, _, rfl⟩

theorem drop_frame {s : Pad} (h : Waits s) (t : Nat) (vs : List View) :
    (step (step s (.button false)).1 (.frame t vs)).2 = [] := by
  obtain ⟨h1, h2, h3, h4⟩ := h
  have e : (step s (.button false)).1 = { s with down := false, qRelease := true } := by
    simp [step, h4, processButton]
  rw [e]
  have h4' : ({ s with down := false, qRelease := true } : Pad).closed = false := h4
  simp only [step, h4', Bool.false_eq_true, if_false]
  rw [handleFrame_eq]
  show (postButtons _ t vs).2 = []
  unfold postButtons
  split
  · rfl
  · rw [if_neg (by simp [handleState])]
    dsimp only
    rw [if_neg (by simp [handleState, h3])]

/-- Frames as operations. -/
def frames (fs : List (Nat × List View)) : List Op := fs.map fun f => .frame f.1 f.2

theorem wait_frames (fs : List (Nat × List View)) {s : Pad} (h : Waits s) (hm : s.method ≠ .clickfinger)
    (hn : ∀ k, 0 < k → k ≤ fs.length → ∀ z, ¬ some z ∈ (run s (frames (fs.take k))).1.touches.map Touch.cur) :
    (∀ ns ∈ (run s (frames fs)).2, ns = []) ∧ Waits (run s (frames fs)).1 ∧
      (run s (frames fs)).1.method = s.method := by
  induction fs generalizing s with
  | nil => exact ⟨by simp [frames, run], h, rfl⟩
  | cons f fs ih =>
    obtain ⟨k1, k2, k3⟩ := wait_frame h hm f.1 f.2 (hn 1 (by omega) (by simp))
    obtain ⟨i1, i2, i3⟩ := ih k2 (by rw [k3]; exact hm) (by
      intro k h1 h2
      exact hn (k + 1) (by omega) (by simpa using h2))
    show (∀ ns ∈ (run s (.frame f.1 f.2 :: frames fs)).2, ns = []) ∧ _
    rw [run_cons]
    refine ⟨?_, i2, i3.trans k3⟩
    intro ns hns
    rcases List.mem_cons.mp hns with rfl | hns
    · exact k1
    · exact i1 ns hns

theorem run_append' (s : Pad) (a b : List Op) : (run s (a ++ b)).1 = (run (run s a).1 b).1 := by
  induction a generalizing s with
  | nil => rfl
  | cons o a ih => rw [List.cons_append, run_cons, run_cons]; exact ih _

theorem mem_counted {g : Geo} {hasTop : Bool} {m : Method} {n : Nat} {ops : List Op} {z : Zone} :
    some z ∈ (run (init g hasTop m n) ops).1.touches.map Touch.cur ↔
      ∃ i < n, countsAs g hasTop m n i ops = some z := by
  rw [counted, List.mem_map]
  constructor
  · rintro ⟨i, hi, h⟩; exact ⟨i, List.mem_range.mp hi, h⟩
  · rintro ⟨i, hi, h⟩; exact ⟨i, List.mem_range.mpr hi, h⟩

/-- **C31.** A click with no finger that counts is held back.  Whatever happened before, let the physical button be
pressed when it was up and let any number of frames follow in which no finger counts for anything.  Nothing is
reported for them.  If then a frame comes in which a finger counts, the press is reported in that frame.  (Not while
the touchpad is suspended and a trackpoint is paired: then only fingers on top buttons click.)  If the button is
released before, nothing is reported. -/
theorem click_waits (g : Geo) (hasTop : Bool) (m : Method) (n : Nat) (ops : List Op) (hc : Careful hasTop {} ops)
    (hread : (env hasTop {} ops).read hasTop = true) (hold : (env hasTop {} ops).old = false)
    (hm : (conf hasTop {} { method := m } ops).method ≠ .clickfinger) (fs : List (Nat × List View))
    (hn : ∀ k, 0 < k → k ≤ fs.length → ∀ i < n,
      countsAs g hasTop m n i (ops ++ .button true :: frames (fs.take k)) = none) (t : Nat) (vs : List View) :
    let before := ops ++ .button true :: frames fs
    (∀ ns ∈ (run (run (init g hasTop m n) ops).1 (.button true :: frames fs)).2, ns = []) ∧
    (∀ i < n, ∀ z, countsAs g hasTop m n i (before ++ [.frame t vs]) = some z →
      (paired g hasTop m n before = true → (env hasTop {} ops).suspended = true →
        ∃ j < n, ∃ w, isTop w = true ∧ countsAs g hasTop m n j (before ++ [.frame t vs]) = some w) →
      ∃ d b, reported g hasTop m n before t vs = [⟨t, d, b, true⟩]) ∧
    reported g hasTop m n (before ++ [.button false]) t vs = [] := by
  intro before
  obtain ⟨c, hci⟩ := run_inv ops (init_click g hasTop m n) (by rw [init_hasTop]; exact hc)
  rw [init_hasTop] at hci
  have hto : (run (init g hasTop m n) ops).1.hasTop = hasTop := by
    have : ∀ s, (run s ops).1.hasTop = s.hasTop := by
      intro s
      clear hn hread hold hm hc hci before
      induction ops generalizing s with
      | nil => rfl
      | cons op ops ih => rw [run_cons]; exact (ih _).trans (step_hasTop s op)
    exact (this _).trans (init_hasTop ..)
  have hopen : (run (init g hasTop m n) ops).1.closed = false := by
    unfold Pad.closed
    rw [hto, hci.susp]
    unfold Env.read at hread
    revert hread
    cases (env hasTop {} ops).suspended <;> cases hasTop <;> simp
  have hold' := hci.old.trans hold
  have hact : (run (init g hasTop m n) ops).1.active = 0 := by
    have := hci.stage
    cases c with
    | up => exact this.2.2
    | waiting => simp [Stage, hold'] at this
    | held d b => simp [Stage, hold'] at this
    | over => simp [Stage, hold'] at this
  have hmeth : (run (init g hasTop m n) ops).1.method ≠ .clickfinger := by
    have := congrArg Conf.method (settings_in_force g hasTop m n ops)
    rw [show (run (init g hasTop m n) ops).1.method = _ from this]
    exact hm
  obtain ⟨s0, es0⟩ : ∃ x, x = (step (run (init g hasTop m n) ops).1 (.button true)).1 := ⟨_, rfl⟩
  have es0' : s0 = { (run (init g hasTop m n) ops).1 with down := true, qPress := true } := by
    rw [es0]; simp [step, hopen, processButton]
  have hw0 : Waits s0 := by
    rw [es0']; exact ⟨rfl, Or.inr hold', hact, hopen⟩
  have hm0 : s0.method ≠ .clickfinger := by rw [es0']; exact hmeth
  have hrun : ∀ l, (run s0 l).1 = (run (init g hasTop m n) (ops ++ .button true :: l)).1 := by
    intro l
    rw [run_append', run_cons, es0]
  have hnone : ∀ k, 0 < k → k ≤ fs.length → ∀ z, ¬ some z ∈ (run s0 (frames (fs.take k))).1.touches.map Touch.cur := by
    intro k h1 h2 z hz
    rw [hrun, mem_counted] at hz
    obtain ⟨i, hi, h⟩ := hz
    rw [hn k h1 h2 i hi] at h
    cases h
  obtain ⟨w1, w2, w3⟩ := wait_frames fs hw0 hm0 hnone
  have hb : (run s0 (frames fs)).1 = (run (init g hasTop m n) before).1 := hrun _
  rw [hb] at w2 w3
  refine ⟨?_, ?_, ?_⟩
  · intro ns hns
    rw [run_cons] at hns
    rcases List.mem_cons.mp hns with rfl | hns
    · simp [step, hopen]
    · rw [← es0] at hns; exact w1 ns hns
  · intro i hi z hz hr
    refine report_frame w2 (by rw [w3]; exact hm0) t vs z ?_ ?_
    · rw [← run_append, mem_counted]; exact ⟨i, hi, hz⟩
    · intro h1 h2
      have hsus : (env hasTop {} ops).suspended = true := by
        rw [← hci.susp]
        have : ∀ (l : List (Nat × List View)) (s : Pad), (run s (frames l)).1.suspended = s.suspended := by
          intro l
          induction l with
          | nil => intro s; rfl
          | cons f l ih =>
            intro s
            show (run (step s (.frame f.1 f.2)).1 (frames l)).1.suspended = _
            rw [ih]
            simp only [step]
            split
            · rfl
            · exact handleFrame_susp ..
        have h3 := this fs s0
        rw [hb] at h3
        rw [h3, es0'] at h2
        exact h2
      obtain ⟨j, hj, w, hw, hcw⟩ := hr h1 hsus
      have hmem := (mem_counted (g := g) (hasTop := hasTop) (m := m)).mpr ⟨j, hj, hcw⟩
      rw [run_append] at hmem
      unfold onTop
      rw [decide_eq_true_eq]
      cases w <;> first | exact Or.inl hmem | exact Or.inr (Or.inl hmem) | exact Or.inr (Or.inr hmem) | simp [isTop] at hw
  · show (step (run (init g hasTop m n) (before ++ [.button false])).1 (.frame t vs)).2 = []
    rw [run_append]
    exact drop_frame w2 t vs

/-- Non-vacuity: a click with no finger, three frames later a finger. -/
example : (run (init demoGeo false .areas 1)
      [.button true, .frame 1 [away'], .frame 2 [away'], .frame 3 [lands 900 550], .button false,
       .frame 4 [lifts 900 550], .button true, .frame 5 [away'], .button false, .frame 6 [away']]).2 =
    [[], [], [], [⟨3, .touchpad, 0x111, true⟩], [], [⟨4, .touchpad, 0x111, false⟩], [], [], [], []] := by decide +kernel

/-! ### Where the code falls short -/

/-- **C31 does not hold without `Careful`.**  The trackpoint is removed while the touchpad is suspended and clicked: the
press was not reported, the release is. -/
theorem release_without_press :
    own (run (init demoGeo true .areas 1)
      [.addTrackpoint, .suspend 1 [away'], .frame 2 [lands 500 500], .button true, .frame 3 [rests 500 500],
       .removeTrackpoint, .button false, .frame 4 [rests 500 500]]).2 =
      [⟨4, .touchpad, 0x110, false⟩] := by decide +kernel

/-- The button counter of C03 does not survive that. -/
theorem release_without_press_aborts :
    (Buttons.run Buttons.init [call ⟨4, .touchpad, 0x110, false⟩]).2 ≠ none := by decide +kernel

/-- **C31 does not hold without `Careful`.**  A trackpoint is added while the touchpad is suspended and clicked: the
press was reported, the release is not. -/
theorem press_without_release :
    own (run (init demoGeo true .areas 1)
      [.suspend 1 [away'], .frame 2 [lands 500 500], .button true, .frame 3 [rests 500 500],
       .addTrackpoint, .button false, .frame 4 [rests 500 500]]).2 =
      [⟨3, .touchpad, 0x110, true⟩] := by decide +kernel

/-- A suspended touchpad with top buttons still clicks, anywhere, as long as no trackpoint is paired. -/
theorem suspended_touchpad_clicks :
    reported demoGeo true .areas 1 [.suspend 1 [away'], .frame 2 [lands 500 500], .button true] 3 [rests 500 500] =
      [⟨3, .touchpad, 0x110, true⟩] := by decide +kernel

/-- Middle button emulation asked for and given up again during a click, with the software buttons chosen in between:
the emulation is off, but the middle software button stays gone: the middle of the strip is a left or right button. -/
theorem middle_button_lost :
    let ops : List Op := [.button true, .frame 1 [away'], .setMiddle true, .setMethod .areas, .setMiddle false,
      .button false, .frame 2 [away']]
    conf false {} { method := .areas } ops = { method := .areas } ∧
    countsAs demoGeo false .areas 1 0 (ops ++ [.frame 3 [lands 450 550]]) = some .bottomL ∧
    countsAs demoGeo false .areas 1 0 [.frame 3 [lands 450 550]] = some .bottomM := by
  decide +kernel

end Libinput.SoftButtons
