import Verif.Tablet.Frame
/-
The invariant between two operations, and that every operation of a polite history continues a sensible stream.
-/
namespace Libinput.Tablet

/-- A tool was in proximity when the tablet was plugged in, and no frame has come since. -/
structure Fresh (s : Pen) : Prop where
  hung : s.hung = false
  range : s.st.outOfRange = false
  leaving : s.st.leaving = false
  pens : ∀ k, s.t.kind = some k → k.isCursor = false
  tip : s.st.inContact = false
  entering : s.st.entering = true
  prox : s.st.outOfProx = false
  tool : ∃ k, s.t.kind = some k ∧ s.t.prev = k.bit ∧ s.t.now = k.bit
  none : ∀ c, s.prevButtons c = false

structure Inv (s : Pen) (v : Option View) : Prop where
  main : Settled s v ∨ (v = none ∧ Fresh s)
  known : ∀ w, v = some w → s.prevButtons = s.buttons
  far : v = none → (∀ c, s.buttons c = false) ∧ s.st.enterContact = false ∧ s.st.leaveContact = false ∧
    ((∀ c, s.prevButtons c = false) ∨ (s.st.outOfProx = true ∧ s.t.prev ≠ 0))

/-- Only these parts of the state matter. -/
theorem Inv.congr {s s' : Pen} {v : Option View} (h : Inv s v) (h1 : s'.hung = s.hung) (h2 : s'.st = s.st) (h3 : s'.buttons = s.buttons)
    (h4 : s'.prevButtons = s.prevButtons) (h5 : s'.t = s.t) : Inv s' v := by
  obtain ⟨st, vv, b, pb, t, hh, q, a, o, hu⟩ := s
  obtain ⟨st', vv', b', pb', t', hh', q', a', o', hu'⟩ := s'
  dsimp only at h1 h2 h3 h4 h5
  subst h1 h2 h3 h4 h5
  refine ⟨?_, h.known, h.far⟩
  rcases h.main with S | ⟨e, F⟩
  · exact .inl ⟨S.hung, S.range, S.leaving, S.pens, S.small, by have := S.tied; cases v <;> exact this⟩
  · exact .inr ⟨e, F.hung, F.range, F.leaving, F.pens, F.tip, F.entering, F.prox, F.tool, F.none⟩

/-! ### What the events tell agrees with the view -/

def tipOf : Option View → Bool
  | some w => w.tip
  | none => false

theorem next_tells (v0 v1 : Option View) (e : Ev) : next v0 e = some v1 →
    (match e with | .prox isIn _ => isIn | _ => v0.isSome) = v1.isSome ∧
    (match e with | .tip down _ => down | _ => tipOf v0) = tipOf v1 := by
  intro hn
  cases v0 with
  | none =>
    cases e with
    | prox b d =>
      cases b
      · simp [next] at hn
      · simp only [next] at hn; split at hn
        · cases hn; exact ⟨rfl, rfl⟩
        · cases hn
    | _ => simp [next] at hn
  | some w =>
    cases e with
    | prox b d =>
      simp only [next] at hn; split at hn
      · rename_i h; cases hn; exact ⟨h.1, h.2.2.2.1⟩
      · cases hn
    | tip b d =>
      simp only [next] at hn; split at hn
      · cases hn; exact ⟨rfl, rfl⟩
      · cases hn
    | axis d =>
      simp only [next] at hn; split at hn
      · cases hn; exact ⟨rfl, rfl⟩
      · cases hn
    | button c p d =>
      simp only [next] at hn
      split at hn
      · split at hn
        · split at hn
          · cases hn
          · cases hn; exact ⟨rfl, rfl⟩
        · split at hn
          · cases hn; exact ⟨rfl, rfl⟩
          · cases hn
      · cases hn

theorem follow_tells (es : List Ev) : ∀ v0 v, follow v0 es = some v →
    es.foldl (fun b e => match e with | .prox isIn _ => isIn | _ => b) v0.isSome = v.isSome ∧
    es.foldl (fun b e => match e with | .tip down _ => down | _ => b) (tipOf v0) = tipOf v := by
  induction es with
  | nil => intro v0 v h; simp only [follow, Option.some.injEq] at h; subst h; exact ⟨rfl, rfl⟩
  | cons e es ih =>
    intro v0 v h
    simp only [follow] at h
    cases hn : next v0 e with
    | none => rw [hn] at h; cases h
    | some v1 =>
      rw [hn] at h
      have := ih v1 v h
      simp only [List.foldl_cons]
      rw [(next_tells v0 v1 e hn).1, (next_tells v0 v1 e hn).2]
      exact this

theorem near_view {es : List Ev} {v : Option View} (h : follow none es = some v) : near es = v.isSome ∧ tipDown es = tipOf v :=
  follow_tells es none v h

/-! ### A frame -/

theorem which_congr {s s' : ToolSt} (h1 : s'.tools = s.tools) (h2 : s'.serial = s.serial) (k : Kind) : s'.which k = s.which k := by
  unfold ToolSt.which ToolSt.has; rw [h1, h2]

theorem turned_of (s s' : Pen) (k : Kind) (hk : k.isCursor = false) (hn : s.t.now = k.bit)
    (h : s'.t.now = s.t.now ∨ (s'.st.toolUpdated = true ∧ ∃ (k' : Kind) (b : Bool), k'.isCursor = false ∧
      s'.t.now = if b then s.t.now ||| k'.bit else s.t.now &&& (255 ^^^ k'.bit))) : Turned s' k := by
  rcases h with h | ⟨h1, k', b, h2, h3⟩
  · exact .inl (h.trans hn)
  · rw [hn] at h3
    rcases bit_toggle k k' hk h2 b with h | h | ⟨h, h'⟩
    · exact .inl (h3.trans h)
    · exact .inr ⟨h1, .inl (h3.trans h)⟩
    · exact .inr ⟨h1, .inr ⟨k', h2, h', h3.trans h⟩⟩

theorem penBits_toggle (n : Nat) (k : Kind) (b : Bool) (hn : penBits n) (hk : k.isCursor = false) :
    penBits (if b then n ||| k.bit else n &&& (255 ^^^ k.bit)) := by
  cases b
  · exact bit_clear k hn
  · exact bit_or k hk hn

theorem Inv.hung {s : Pen} {v : Option View} (I : Inv s v) : s.hung = false := by
  rcases I.main with S | ⟨_, F⟩
  · exact S.hung
  · exact F.hung

theorem Inv.tip {s : Pen} {v : Option View} (I : Inv s v) : s.st.inContact = tipOf v := by
  rcases I.main with S | ⟨rfl, F⟩
  · cases v with
    | none => exact S.tied.1
    | some w => exact S.tied.2.2.2.2.2.1.symm
  · exact F.tip

theorem Inv.flags {s : Pen} {v : Option View} (I : Inv s v) : s.st.enterContact = false ∧ s.st.leaveContact = false := by
  cases v with
  | none => have := I.far rfl; exact ⟨this.2.1, this.2.2.1⟩
  | some w =>
    rcases I.main with S | ⟨h, _⟩
    · exact S.tied.2.2.2.2.2.2.2.2
    · cases h

theorem frame_pre (cfg : Cfg) (s : Pen) (v : Option View) (I : Inv s v) (es es' : List Ev) (evs : List KEv)
    (he : follow none es = some v) (hc : ∀ e ∈ evs, isCursorKey e = false) (O : Orderly cfg s.t.serial s.st.entering es es' evs) :
    Pre cfg (evs.foldl (kev cfg) s) v ∧
      (v = none → near es' = false → (∀ c, (evs.foldl (kev cfg) s).buttons c = false) ∧
        (evs.foldl (kev cfg) s).st.enterContact = false ∧ (evs.foldl (kev cfg) s).st.leaveContact = false) := by
  obtain ⟨hnear, htip⟩ := near_view he
  have SM := fold_same cfg evs s
  have BT := fold_btn cfg evs s
  have NP := fun h => fold_noPress cfg evs h s
  have TL := fold_tool cfg evs O.oneTool hc s
  have NT := fun h => (fold_noTool cfg evs h s).1
  have SE := fold_serial cfg evs s
  have TC := fold_touch cfg evs s
  generalize evs.foldl (kev cfg) s = s' at SM BT NP TL NT SE TC ⊢
  have hfl := I.flags
  have hentr : s'.st.enterContact = true → cfg.has .pressure = false ∧ ∃ e ∈ evs, isTouchKey 1 e = true := by
    intro h; rcases TC.1 h with h | h
    · rw [hfl.1] at h; cases h
    · exact h
  have hleav : s'.st.leaveContact = true → cfg.has .pressure = false ∧ ∃ e ∈ evs, isTouchKey 0 e = true := by
    intro h; rcases TC.2 h with h | h
    · rw [hfl.2] at h; cases h
    · exact h
  have hsm : ∀ c, s.buttons c = true ∨ s.prevButtons c = true → c < 768 := by
    rcases I.main with S | ⟨rfl, F⟩
    · exact S.small
    · intro c h
      rw [(I.far rfl).1 c, F.none c] at h
      simp at h
  have TL' : s'.t.now = s.t.now ∨ (s'.st.toolUpdated = true ∧ ∃ (k' : Kind) (b : Bool), k'.isCursor = false ∧
      s'.t.now = if b then s.t.now ||| k'.bit else s.t.now &&& (255 ^^^ k'.bit)) := by
    rcases TL with h | ⟨h1, _, h3⟩
    · exact .inl h
    · exact .inr ⟨h1, h3⟩
  have hmoved : (∀ c, s.prevButtons c = s.buttons c) → Moved s' := by
    intro h c
    rw [SM.prevButtons, h c]
    exact BT.each c
  refine ⟨⟨?_, ?_, ?_, ?_, ?_, ?_, ?_, ?_⟩, ?_⟩
  · rw [SM.hung]; exact I.hung
  · rw [SM.range]
    rcases I.main with S | ⟨_, F⟩
    · exact S.range
    · exact F.range
  · intro k h
    rw [SM.kind] at h
    rcases I.main with S | ⟨_, F⟩
    · exact S.pens k h
    · exact F.pens k h
  · intro c h
    rcases h with h | h
    · rcases BT.small c h with h | h
      · exact hsm c (.inl h)
      · exact h
    · rw [SM.prevButtons] at h; exact hsm c (.inr h)
  · intro h
    obtain ⟨hp, e, hev, ht⟩ := hentr h
    refine ⟨?_, ?_⟩
    · rw [SM.tip, I.tip, ← htip]; exact (O.touchDown hp e hev ht).2.1
    · cases hl : s'.st.leaveContact
      · rfl
      · exact (touch_once evs (O.touchOnce hp) ⟨e, hev, ht⟩ (hleav hl).2).elim
  · intro h
    obtain ⟨hp, e, hev, ht⟩ := hleav h
    rw [SM.tip, I.tip, ← htip]; exact O.touchUp hp e hev ht
  · intro hp
    constructor
    · cases h : s'.st.enterContact
      · rfl
      · have := (hentr h).1; rw [hp] at this; cases this
    · cases h : s'.st.leaveContact
      · rfl
      · have := (hleav h).1; rw [hp] at this; cases this
  · rcases I.main with S | ⟨rfl, F⟩
    · cases v with
      | some w =>
        left
        have T := S.tied
        have hk := S.pens _ T.2.2.1
        have hnr : near es = true := hnear
        refine ⟨w.tool.kind, SM.kind.trans T.2.2.1, SM.prox.trans T.2.1, SM.prev.trans T.2.2.2.1,
          turned_of s s' _ hk T.2.2.2.2.1 TL', ?_, ?_, ?_, ?_, ?_, ?_⟩
        · intro h; rw [SM.leaving, S.leaving] at h; cases h
        · cases h : s'.st.enterContact
          · exact .inr rfl
          · obtain ⟨hp, e, hev, ht⟩ := hentr h
            exact .inl ((NT ((O.touchDown hp e hev ht).2.2 (.inl hnr))).trans T.2.2.2.2.1)
        · intro h; rw [SM.leaving, S.leaving] at h; cases h
        · exact hmoved (fun c => by rw [I.known w rfl])
        · intro w' hw'
          cases hw'
          refine ⟨SM.entering.trans T.1, T.2.2.2.2.2.1.trans SM.tip.symm, ?_, ?_⟩
          · intro c; rw [SM.prevButtons, I.known w rfl]; exact T.2.2.2.2.2.2.1 c
          · rw [which_congr SM.tools (SE (O.sameSerial hnr))]; exact T.2.2.2.2.2.2.2.1
        · intro h; cases h
      | none =>
        right
        have T := S.tied
        refine ⟨rfl, SM.prox.trans T.2.1, SM.entering.trans T.2.2.1, SM.leaving.trans S.leaving, SM.tip.trans T.1, ?_⟩
        have FR := I.far rfl
        rcases T.2.2.2 with ⟨hp, hn⟩ | ⟨u, hk, hp, hn⟩
        · left
          have pb : ∀ c, s.prevButtons c = false := by
            rcases FR.2.2.2 with h | h
            · exact h
            · exact absurd hp h.2
          refine ⟨SM.prev.trans hp, ?_, ?_, hmoved (fun c => by rw [pb c, FR.1 c])⟩
          · rcases TL' with h | ⟨_, k', b, h1, h2⟩
            · rw [h]; exact hn
            · rw [h2]; exact penBits_toggle _ k' b hn h1
          · intro c; rw [SM.prevButtons]; exact pb c
        · right
          exact ⟨u, SM.kind.trans hk, SM.prev.trans hp, turned_of s s' u (S.pens u hk) hn TL'⟩
    · left
      obtain ⟨k, hk, hp, hn⟩ := F.tool
      have FR := I.far rfl
      refine ⟨k, SM.kind.trans hk, SM.prox.trans F.prox, SM.prev.trans hp, turned_of s s' k (F.pens k hk) hn TL', ?_, ?_, ?_, ?_, ?_, ?_⟩
      · intro h; rw [SM.leaving, F.leaving] at h; cases h
      · cases h : s'.st.enterContact
        · exact .inr rfl
        · obtain ⟨hp, e, hev, ht⟩ := hentr h
          exact .inl ((NT ((O.touchDown hp e hev ht).2.2 (.inr F.entering))).trans hn)
      · intro h; rw [SM.leaving, F.leaving] at h; cases h
      · exact hmoved (fun c => by rw [F.none c, FR.1 c])
      · intro w h; cases h
      · intro _
        exact ⟨SM.entering.trans F.entering, SM.tip.trans F.tip, fun c => by rw [SM.prevButtons]; exact F.none c⟩
  · rintro rfl hn
    refine ⟨fun c => ?_, ?_, ?_⟩
    · cases h : s'.buttons c
      · rfl
      · have := NP (O.press hn) c h
        rw [(I.far rfl).1 c] at this; cases this
    · cases h : s'.st.enterContact
      · rfl
      · obtain ⟨hp, e, hev, ht⟩ := hentr h
        have := (O.touchDown hp e hev ht).1
        rw [hn] at this; cases this
    · cases h : s'.st.leaveContact
      · rfl
      · obtain ⟨hp, e, hev, ht⟩ := hleav h
        have := O.touchUp hp e hev ht
        rw [htip] at this; cases this

theorem toggle_state (s : Pen) : (∃ a, s.toggle.1 = { s with arb := a }) ∧ events s.toggle.2 = [] := by
  unfold Pen.toggle Pen.setArb
  repeat' split
  all_goals exact ⟨⟨_, rfl⟩, rfl⟩

theorem reset_state (s : Pen) : ∃ b, s.reset =
    { s with prevButtons := s.buttons, st := { s.st with toolUpdated := false, buttonsDown := b } } :=
  ⟨codes.any s.buttons, rfl⟩

theorem syn_ok (cfg : Cfg) (s : Pen) (j : Bool) (now : Nat) (v : Option View) (P : Pre cfg s v)
    (quiet : v = none → events (s.syn cfg j now).2 = [] → (∀ c, s.buttons c = false) ∧ s.st.enterContact = false ∧ s.st.leaveContact = false) :
    ∃ v', follow v (events (s.syn cfg j now).2) = some v' ∧ Inv (s.syn cfg j now).1 v' := by
  unfold Pen.syn at *
  obtain ⟨v', f, S, u, g, _, _⟩ := flush_ok cfg j now 2 s v P
  dsimp only at quiet ⊢
  generalize Pen.flush cfg j now 4 s = r at *
  obtain ⟨r1, r2⟩ := r
  dsimp only at *
  obtain ⟨⟨a, ea⟩, ev⟩ := toggle_state r1
  rw [events_append, ev, List.append_nil] at quiet ⊢
  refine ⟨v', f, ?_⟩
  rw [ea]
  obtain ⟨bd, er⟩ := reset_state { r1 with arb := a }
  rw [er]
  refine ⟨.inl ⟨S.hung, S.range, S.leaving, S.pens, ?_, ?_⟩, fun w _ => rfl, ?_⟩
  · intro c h; exact S.small c (.inl (by simpa using h))
  · have := S.tied; cases v' <;> exact this
  · rintro rfl
    have : (∀ c, r1.buttons c = false) ∧ r1.st.enterContact = false ∧ r1.st.leaveContact = false := by
      rcases g rfl with ⟨g1, g2, g3, g4, g5⟩ | g
      · rw [g3, g4, g5]; exact quiet g1 g2
      · exact g
    exact ⟨this.1, this.2.1, this.2.2, .inl this.1⟩

theorem events_ok (cfg : Cfg) (s : Pen) (v : Option View) (I : Inv s v) (es : List Ev) (evs : List KEv) (j : Bool) (now : Nat)
    (he : follow none es = some v) (hc : ∀ e ∈ evs, isCursorKey e = false)
    (O : Orderly cfg s.t.serial s.st.entering es (es ++ events ((evs.foldl (kev cfg) s).syn cfg j now).2) evs) :
    ∃ v', follow v (events ((evs.foldl (kev cfg) s).syn cfg j now).2) = some v' ∧
      Inv ((evs.foldl (kev cfg) s).syn cfg j now).1 v' := by
  obtain ⟨P, h⟩ := frame_pre cfg s v I es _ evs he hc O
  refine syn_ok cfg _ j now v P (fun hv hq => h hv ?_)
  rw [hq, List.append_nil, (near_view he).1, hv]; rfl

/-! ### The other operations -/

theorem setTimer_state (s : Pen) (t : Nat) : ∃ q, s.setTimer t = { s with q := q } := by
  unfold Pen.setTimer; split <;> exact ⟨_, rfl⟩

theorem setArb_state (s : Pen) (a : Arb) : (∃ b, (s.setArb a).1 = { s with arb := b }) ∧ events (s.setArb a).2 = [] := by
  unfold Pen.setArb; split <;> exact ⟨⟨_, rfl⟩, rfl⟩

theorem changeRotation_state (s : Pen) (b : Bool) : (∃ h, (s.changeRotation b).1 = { s with h := h }) ∧ events (s.changeRotation b).2 = [] := by
  unfold Pen.changeRotation
  dsimp only
  obtain ⟨h, e⟩ := applyRotation_state { s with h.wantRotate := s.h.left || s.h.touchLeft }
  refine ⟨⟨h, e⟩, ?_⟩
  split <;> rfl

theorem timeout_ok (cfg : Cfg) (s : Pen) (now : Nat) (v : Option View) (I : Inv s v) (es : List Ev)
    (he : follow none es = some v) :
    ∃ v', follow v (events (s.timeout cfg now).2) = some v' ∧ Inv (s.timeout cfg now).1 v' := by
  unfold Pen.timeout
  dsimp only
  split
  · obtain ⟨q, e⟩ := setTimer_state { s with q.timer := none } now
    rw [e]
    exact ⟨v, rfl, I.congr rfl rfl rfl rfl rfl⟩
  · split
    · obtain ⟨q, e⟩ := setTimer_state { s with q.timer := none } s.q.lastTime
      rw [e]
      exact ⟨v, rfl, I.congr rfl rfl rfl rfl rfl⟩
    · have I' : Inv { s with q.timer := none } v := I.congr rfl rfl rfl rfl rfl
      have := events_ok cfg { s with q.timer := none } v I' es [.key 320 0] true now he (by simp [isCursorKey])
        ⟨by simp [isToolKey], by simp [isPress], by simp, by simp [isTouchKey], by simp [isTouchKey], by simp [isTouchKey]⟩
      simp only [List.foldl_cons, List.foldl_nil, kev] at this
      generalize Pen.syn cfg (keyEvent cfg { s with q.timer := none } 320 0) true now = r at this ⊢
      obtain ⟨v', f, J⟩ := this
      exact ⟨v', f, J.congr rfl rfl rfl rfl rfl⟩

theorem suspend_ok (cfg : Cfg) (s : Pen) (now : Nat) (v : Option View) (I : Inv s v) :
    ∃ v', follow v (events (s.suspend cfg now).2) = some v' ∧ Inv (s.suspend cfg now).1 v' := by
  unfold Pen.suspend
  obtain ⟨⟨b, eb⟩, ev⟩ := setArb_state s .notActive
  dsimp only
  rw [eb]
  dsimp only
  by_cases ho' : s.st.outOfProx = true
  · rw [if_pos ho']
    exact ⟨v, by rw [ev]; rfl, I.congr rfl rfl rfl rfl rfl⟩
  · rw [if_neg ho']
    have ho : s.st.outOfProx = false := by simpa using ho'
    clear ho'
    obtain ⟨e1, e2⟩ := I.flags
    have hL : ∃ k, Live { s with arb := b, st.leaving := true } k v := by
      rcases I.main with S | ⟨rfl, F⟩
      · cases v with
        | none => have := S.tied.2.1; rw [ho] at this; cases this
        | some w =>
          have T := S.tied
          refine ⟨w.tool.kind, T.2.2.1, ho, T.2.2.2.1, .inl T.2.2.2.2.1, fun _ => T.2.2.2.2.1, .inl T.2.2.2.2.1, fun _ => e1,
            fun c => .inl (by rw [I.known w rfl]), ?_, fun h => by cases h⟩
          intro w' hw'
          cases hw'
          exact ⟨T.1, T.2.2.2.2.2.1, fun c => by rw [I.known w rfl]; exact T.2.2.2.2.2.2.1 c, T.2.2.2.2.2.2.2.1⟩
      · obtain ⟨k, hk, hp, hn⟩ := F.tool
        exact ⟨k, hk, ho, hp, .inl hn, fun _ => hn, .inl hn, fun _ => e1,
          fun c => .inl (by rw [F.none c]; exact (I.far rfl).1 c), (fun w h => by cases h),
          fun _ => ⟨F.entering, F.tip, F.none⟩⟩
    have hP : Pre cfg { s with arb := b, st.leaving := true } v := by
      refine ⟨I.hung, ?_, ?_, ?_, ?_, ?_, fun _ => ⟨e1, e2⟩, .inl hL⟩
      · rcases I.main with S | ⟨_, F⟩
        · exact S.range
        · exact F.range
      · rcases I.main with S | ⟨_, F⟩
        · exact S.pens
        · exact F.pens
      · rcases I.main with S | ⟨rfl, F⟩
        · exact S.small
        · intro c h
          rw [show ({ s with arb := b, st.leaving := true } : Pen).buttons c = false from (I.far rfl).1 c,
            show ({ s with arb := b, st.leaving := true } : Pen).prevButtons c = false from F.none c] at h
          simp at h
      · intro h; rw [show ({ s with arb := b, st.leaving := true } : Pen).st.enterContact = false from e1] at h; cases h
      · intro h; rw [show ({ s with arb := b, st.leaving := true } : Pen).st.leaveContact = false from e2] at h; cases h
    obtain ⟨v', f, S, u, g, gl, _⟩ := flush_ok cfg false now 2 _ v hP
    obtain ⟨rfl, gp⟩ := gl rfl
    refine ⟨none, ?_, ?_⟩
    · rw [events_append, ev, List.nil_append]; exact f
    · have J : Inv (Pen.flush cfg false now 4 { s with arb := b, st.leaving := true }).1 none := by
        refine ⟨.inl S, (fun w h => by cases h), fun _ => ?_⟩
        have hf : (∀ c, (Pen.flush cfg false now 4 { s with arb := b, st.leaving := true }).1.buttons c = false) ∧
            (Pen.flush cfg false now 4 { s with arb := b, st.leaving := true }).1.st.enterContact = false ∧
            (Pen.flush cfg false now 4 { s with arb := b, st.leaving := true }).1.st.leaveContact = false := by
          rcases g rfl with ⟨g1, g2, g3, g4, g5⟩ | g
          · rw [g3, g4, g5]; exact ⟨(I.far g1).1, e1, e2⟩
          · exact g
        refine ⟨hf.1, hf.2.1, hf.2.2, .inr ⟨S.tied.2.1, ?_⟩⟩
        rw [gp]
        obtain ⟨k, L⟩ := hL
        rw [L.prev]; exact bit_ne k
      exact J.congr rfl rfl rfl rfl rfl

theorem step_ok (cfg : Cfg) (s : Pen) (op : Op) (v : Option View) (I : Inv s v) (es : List Ev) (he : follow none es = some v)
    (hp : match op with
     | .frame evs _ => (∀ e ∈ evs, isCursorKey e = false) ∧ Orderly cfg s.t.serial s.st.entering es (es ++ events (step cfg s op).2) evs
     | .foreign t => near es = true → t.serial ≠ s.t.serial
     | _ => True) :
    ∃ v', follow v (events (step cfg s op).2) = some v' ∧ Inv (step cfg s op).1 v' := by
  unfold step at hp ⊢
  rw [if_neg (by simp [I.hung])] at hp ⊢
  cases op with
  | frame evs now =>
    dsimp only at hp ⊢
    cases ho : s.opened with
    | false => exact ⟨v, rfl, I⟩
    | true =>
      rw [ho] at hp
      exact events_ok cfg s v I es evs false now he hp.1 hp.2
  | timeout now =>
    dsimp only
    split
    · split
      · exact timeout_ok cfg s now v I es he
      · exact ⟨v, rfl, I⟩
    · exact ⟨v, rfl, I⟩
  | suspend now =>
    dsimp only
    split
    · exact suspend_ok cfg s now v I
    · exact ⟨v, rfl, I⟩
  | resume raw =>
    dsimp only
    split
    · exact ⟨v, rfl, I⟩
    · exact ⟨v, rfl, I.congr rfl rfl rfl rfl rfl⟩
  | setLeft b =>
    dsimp only
    obtain ⟨h, e⟩ := changeLeft_state { s with h.wantLeft := b }
    rw [e, changeLeft_events]
    exact ⟨v, rfl, I.congr rfl rfl rfl rfl rfl⟩
  | touchLeft b =>
    dsimp only
    split
    · obtain ⟨⟨h, e⟩, e'⟩ := changeRotation_state { s with h.touchLeft := b } false
      rw [e, e']
      exact ⟨v, rfl, I.congr rfl rfl rfl rfl rfl⟩
    · exact ⟨v, rfl, I⟩
  | touchAdded tp left =>
    dsimp only
    split
    · split
      · obtain ⟨⟨h, e⟩, e'⟩ := changeRotation_state { s with h.touch := true, h.rotTouch := true, h.touchLeft := true } true
        rw [e, e']
        exact ⟨v, rfl, I.congr rfl rfl rfl rfl rfl⟩
      · exact ⟨v, rfl, I.congr rfl rfl rfl rfl rfl⟩
    · exact ⟨v, rfl, I.congr rfl rfl rfl rfl rfl⟩
  | touchRemoved =>
    dsimp only
    split
    · obtain ⟨⟨h, e⟩, e'⟩ := changeRotation_state { s with h.touch := false, h.rotTouch := false, h.touchLeft := false } true
      rw [e, e']
      exact ⟨v, rfl, I.congr rfl rfl rfl rfl rfl⟩
    · exact ⟨v, rfl, I.congr rfl rfl rfl rfl rfl⟩
  | foreign t =>
    dsimp only at hp ⊢
    have key : ∀ l, (near es = true → ∀ k, { s.t with tools := l }.which k = s.t.which k) →
        Inv { s with t := { s.t with tools := l } } v := by
      intro l hl
      refine ⟨?_, I.known, I.far⟩
      rcases I.main with S | ⟨e, F⟩
      · refine .inl ⟨S.hung, S.range, S.leaving, S.pens, S.small, ?_⟩
        have T := S.tied
        cases v with
        | none => exact T
        | some w =>
          have hn : near es = true := (near_view he).1
          exact ⟨T.1, T.2.1, T.2.2.1, T.2.2.2.1, T.2.2.2.2.1, T.2.2.2.2.2.1, T.2.2.2.2.2.2.1,
            T.2.2.2.2.2.2.2.1.trans (hl hn _).symm, T.2.2.2.2.2.2.2.2⟩
      · exact .inr ⟨e, F.hung, F.range, F.leaving, F.pens, F.tip, F.entering, F.prox, F.tool, F.none⟩
    split
    · exact ⟨v, rfl, I⟩
    · rename_i h0
      split
      · exact ⟨v, rfl, key _ (fun _ k => putTool_which s.t t k)⟩
      · exact ⟨v, rfl, key _ (fun hn k => cons_which s.t t k h0 (hp hn))⟩

theorem run_ok (cfg : Cfg) (ops : List Op) : ∀ s v es, Inv s v → follow none es = some v → Polite cfg s es ops →
    ∃ v', follow v (events (run cfg s ops).2) = some v' ∧ Inv (run cfg s ops).1 v' := by
  induction ops with
  | nil => intro s v es I _ _; exact ⟨v, rfl, I⟩
  | cons op ops ih =>
    intro s v es I he hp
    obtain ⟨v1, f, J⟩ := step_ok cfg s op v I es he hp.1
    have he1 : follow none (es ++ events (step cfg s op).2) = some v1 := by rw [follow_append, he, Option.bind_some, f]
    obtain ⟨v2, f2, K⟩ := ih _ v1 _ J he1 hp.2
    refine ⟨v2, ?_, K⟩
    simp only [run]
    rw [events_append, follow_append, f, Option.bind_some, f2]

theorem start_inv (cfg : Cfg) (raw : Axis → Int) (tool : Option Kind) (id now : Nat)
    (h : ∀ k, tool = some k → k.isCursor = false) : Inv (start cfg raw tool id now) none := by
  unfold start
  cases tool with
  | none =>
    exact ⟨.inl ⟨rfl, rfl, rfl, (fun k h => by cases h), (fun c h => by simp at h), rfl, rfl, rfl, .inl ⟨rfl, show penBits 0 from rfl⟩⟩,
      fun w h => (by cases h), fun _ => ⟨fun _ => rfl, rfl, rfl, .inl fun _ => rfl⟩⟩
  | some k =>
    dsimp only
    generalize hx : Pen.updateTool _ _ _ = x
    obtain ⟨q, e⟩ := setTimer_state x now
    rw [e, ← hx]
    exact ⟨.inr ⟨rfl, rfl, rfl, rfl, (fun k' h' => by cases h'; exact h k rfl), rfl, rfl, rfl, ⟨k, rfl, rfl, rfl⟩, fun _ => rfl⟩,
      fun w h => (by cases h), fun _ => ⟨fun _ => rfl, rfl, rfl, .inl fun _ => rfl⟩⟩

end Libinput.Tablet
