import Verif.Tablet.Clean
/-
Tools that come and go are reported.
-/
namespace Libinput.Tablet

/-! ### The tablet stays open -/

theorem pass_opened (cfg : Cfg) (s : Pen) (j : Bool) (now : Nat) : (s.pass cfg j now).1.opened = s.opened := by
  rcases pass_cases cfg s j now with ⟨_, v, b, pb, t, q, st, e⟩ | ⟨s₁, t, _, _, e, v, b, pb, tt, q, st, e'⟩
  · rw [e]
  · rw [e]
    dsimp only
    obtain ⟨v', h', es⟩ := send_state cfg (s₁.prepare cfg t).1 (s₁.prepare cfg t).2
    rw [es]
    dsimp only
    obtain ⟨_, v2, l, bb, e2, lv, r, ep⟩ := prepare_any cfg s₁ t
    rw [ep, e']

theorem flush_opened (cfg : Cfg) (j : Bool) (now : Nat) : ∀ n s, (Pen.flush cfg j now n s).1.opened = s.opened := by
  intro n
  induction n with
  | zero => intro s; rfl
  | succ n ih =>
    intro s
    simp only [Pen.flush]
    split
    · exact (ih _).trans (pass_opened cfg s j now)
    · exact pass_opened cfg s j now

theorem syn_opened (cfg : Cfg) (s : Pen) (j : Bool) (now : Nat) : (s.syn cfg j now).1.opened = s.opened := by
  unfold Pen.syn
  dsimp only
  obtain ⟨⟨a, ea⟩, ev⟩ := toggle_state (Pen.flush cfg j now 4 s).1
  rw [ea]
  obtain ⟨bd, er⟩ := reset_state { (Pen.flush cfg j now 4 s).1 with arb := a }
  rw [er]
  exact flush_opened cfg j now 4 s

theorem kev_opened (cfg : Cfg) (s : Pen) (e : KEv) : (kev cfg s e).opened = s.opened := by
  cases e with
  | abs a x => obtain ⟨v, b, h⟩ := absEvent_shape cfg s a x; rw [kev, h]
  | wheel x => rfl
  | id x => rfl
  | serial x => simp only [kev]; split <;> rfl
  | key c x =>
    simp only [kev, keyEvent]
    split
    · rfl
    · split
      · rfl
      · repeat' split
        all_goals rfl

theorem fold_opened (cfg : Cfg) (evs : List KEv) : ∀ s, (evs.foldl (kev cfg) s).opened = s.opened := by
  induction evs with
  | nil => intro s; rfl
  | cons e evs ih => intro s; exact (ih _).trans (kev_opened cfg s e)

/-! ### The keys of the tools -/

theorem toolKey_code (k : Kind) : toolOfCode (toolKey k) = some k := by cases k <;> rfl

theorem fold_exact (cfg : Cfg) (evs : List KEv) (h : (evs.filter isToolKey).length ≤ 1) (k : Kind) (x : Nat) (hx : x ≠ 2) :
    ∀ s, .key (toolKey k) x ∈ evs →
      (evs.foldl (kev cfg) s).t.now = if x ≠ 0 then s.t.now ||| k.bit else s.t.now &&& (255 ^^^ k.bit) := by
  induction evs with
  | nil => intro s hm; cases hm
  | cons e evs ih =>
    intro s hm
    have hkey : isToolKey (.key (toolKey k) x) = true := (toolOfCode_key _ k (toolKey_code k) x).1
    simp only [List.foldl_cons]
    cases ht : isToolKey e with
    | false =>
      rw [List.filter_cons_of_neg (by simp [ht])] at h
      have hm' : KEv.key (toolKey k) x ∈ evs := by
        rcases List.mem_cons.1 hm with h | h
        · rw [← h, hkey] at ht; cases ht
        · exact h
      rw [ih h _ hm', (kev_noTool cfg s e ht).1]
    | true =>
      rw [List.filter_cons_of_pos ht] at h
      have hn : ∀ x ∈ evs, isToolKey x = false := by
        have : evs.filter isToolKey = [] := List.length_eq_zero_iff.1 (by simpa using h)
        intro x hx
        cases hxt : isToolKey x
        · rfl
        · have := List.mem_filter.2 ⟨hx, hxt⟩
          simp_all
      rw [(fold_noTool cfg evs hn _).1]
      rcases List.mem_cons.1 hm with h | h
      · subst h
        simp only [kev, keyEvent, if_neg hx, toolKey_code]
      · rw [hn _ h] at hkey; cases hkey

theorem bit_off (k : Kind) : k.bit &&& (255 ^^^ k.bit) = 0 := by cases k <;> rfl

/-! ### A frame -/

/-- A tool the client does not know about is not there, or about to be announced. -/
def Tidy (s : Pen) (v : Option View) : Prop :=
  s.opened = true ∧ (v = none → s.st.outOfProx = false ∨ (s.t.now = 0 ∧ s.t.prev = 0))

theorem events_told (cfg : Cfg) (s : Pen) (v : Option View) (I : Inv s v) (T : Tidy s v) (es : List Ev) (evs : List KEv) (j : Bool)
    (now : Nat) (he : follow none es = some v) (hc : ∀ e ∈ evs, isCursorKey e = false)
    (O : Orderly cfg s.t.serial s.st.entering es (es ++ events ((evs.foldl (kev cfg) s).syn cfg j now).2) evs) :
    ∃ v', follow v (events ((evs.foldl (kev cfg) s).syn cfg j now).2) = some v' ∧
      Tidy ((evs.foldl (kev cfg) s).syn cfg j now).1 v' ∧
      (∀ k, .key (toolKey k) 1 ∈ evs → ∃ w, v' = some w ∧ w.tool.kind = k) ∧
      (∀ w, v = some w → .key (toolKey w.tool.kind) 0 ∈ evs → v' = none) := by
  obtain ⟨P, _⟩ := frame_pre cfg s v I es _ evs he hc O
  have SM := fold_same cfg evs s
  have FT := fold_tool cfg evs O.oneTool hc s
  have FX := fold_exact cfg evs O.oneTool
  obtain ⟨v', f, _, _, _, _, K⟩ := flush_ok cfg j now 2 _ v P
  have op : ((evs.foldl (kev cfg) s).syn cfg j now).1.opened = true := by
    rw [syn_opened, fold_opened]; exact T.1
  have lv : s.st.leaving = false := by
    rcases I.main with S | ⟨_, F⟩
    · exact S.leaving
    · exact F.leaving
  refine ⟨v', ?_, ⟨op, ?_⟩, ?_⟩
  · unfold Pen.syn
    dsimp only
    obtain ⟨_, ev⟩ := toggle_state (Pen.flush cfg j now 4 (evs.foldl (kev cfg) s)).1
    rw [events_append, ev, List.append_nil]
    exact f
  · intro hv'
    have ht : ((evs.foldl (kev cfg) s).syn cfg j now).1.t = (Pen.flush cfg j now 4 (evs.foldl (kev cfg) s)).1.t := by
      unfold Pen.syn
      dsimp only
      obtain ⟨⟨a, ea⟩, ev⟩ := toggle_state (Pen.flush cfg j now 4 (evs.foldl (kev cfg) s)).1
      rw [ea]
      obtain ⟨bd, er⟩ := reset_state { (Pen.flush cfg j now 4 (evs.foldl (kev cfg) s)).1 with arb := a }
      rw [er]
    rw [ht]
    right
    generalize evs.foldl (kev cfg) s = s1 at *
    have live : ∀ k : Kind, k.isCursor = false → s.t.now = k.bit → s.t.prev = k.bit → s.st.outOfProx = false → s1.t.now = 0 := by
      intro k hk hn hp ho
      rcases turned_of s s1 k hk hn (by
        rcases FT with h | ⟨h1, _, h2⟩
        · exact .inl h
        · exact .inr ⟨h1, h2⟩) with h | ⟨_, h | ⟨k', _, hne, h⟩⟩
      · obtain ⟨w, hw, _⟩ := K.single k h (.inr (SM.prox.trans ho)) (SM.leaving.trans lv)
        rw [hv'] at hw; cases hw
      · exact h
      · obtain ⟨w, hw, _⟩ := K.swap k k' hne (SM.prev.trans hp) h (SM.prox.trans ho)
        rw [hv'] at hw; cases hw
    rcases I.main with S | ⟨e, F⟩
    · have TD := S.tied
      cases v with
      | some w => exact K.rest hv' (live w.tool.kind (S.pens _ TD.2.2.1) TD.2.2.2.2.1 TD.2.2.2.1 TD.2.1) (.inr (SM.prox.trans TD.2.1))
      | none =>
        rcases T.2 rfl with h | ⟨h0, h1⟩
        · rw [TD.2.1] at h; cases h
        · refine K.rest hv' ?_ (.inl (SM.prev.trans h1))
          rcases FT with h | ⟨_, _, k, b, hk, h⟩
          · rw [h]; exact h0
          · rw [h0] at h
            cases b
            · simpa using h
            · simp only [if_true, Nat.zero_or] at h
              obtain ⟨w, hw, _⟩ := K.single k h (.inl (SM.prev.trans h1)) (SM.leaving.trans lv)
              rw [hv'] at hw; cases hw
    · obtain ⟨k, hk, hn, hp⟩ := F.tool
      exact K.rest hv' (live k (F.pens k hk) (by assumption) (by assumption) F.prox) (.inr (SM.prox.trans F.prox))
  · constructor
    · intro k hm
      have hx := FX k 1 (by decide) s hm
      simp only [ne_eq, Nat.one_ne_zero, not_false_eq_true, if_true] at hx
      generalize evs.foldl (kev cfg) s = s1 at *
      have live : ∀ k0 : Kind, s.t.now = k0.bit → s.t.prev = k0.bit → s.st.outOfProx = false → ∃ w, v' = some w ∧ w.tool.kind = k := by
        intro k0 hn hp ho
        rw [hn] at hx
        by_cases e : k = k0
        · subst e
          exact K.single k (by rw [hx, Nat.or_self]) (.inr (SM.prox.trans ho)) (SM.leaving.trans lv)
        · exact K.swap k0 k e (SM.prev.trans hp) hx (SM.prox.trans ho)
      rcases I.main with S | ⟨e, F⟩
      · have TD := S.tied
        cases v with
        | some w => exact live w.tool.kind TD.2.2.2.2.1 TD.2.2.2.1 TD.2.1
        | none =>
          rcases T.2 rfl with h | ⟨h0, h1⟩
          · rw [TD.2.1] at h; cases h
          · rw [h0, Nat.zero_or] at hx
            exact K.single k hx (.inl (SM.prev.trans h1)) (SM.leaving.trans lv)
      · obtain ⟨k0, hk, hn, hp⟩ := F.tool
        exact live k0 (by assumption) (by assumption) F.prox
    · rintro w rfl hm
      have hx := FX w.tool.kind 0 (by decide) s hm
      simp only [ne_eq, not_true_eq_false, if_false] at hx
      rcases I.main with S | ⟨e, _⟩
      · have TD := S.tied
        rw [TD.2.2.2.2.1, bit_off] at hx
        exact K.out hx (SM.prox.trans TD.2.1)
      · cases e

theorem timeout_told (cfg : Cfg) (s : Pen) (now : Nat) (v : Option View) (I : Inv s v) (T : Tidy s v) (es : List Ev)
    (he : follow none es = some v) :
    ∃ v', follow v (events (s.timeout cfg now).2) = some v' ∧ Tidy (s.timeout cfg now).1 v' := by
  unfold Pen.timeout
  dsimp only
  split
  · obtain ⟨q, e⟩ := setTimer_state { s with q.timer := none } now
    rw [e]
    exact ⟨v, rfl, T⟩
  · split
    · obtain ⟨q, e⟩ := setTimer_state { s with q.timer := none } s.q.lastTime
      rw [e]
      exact ⟨v, rfl, T⟩
    · have I' : Inv { s with q.timer := none } v := I.congr rfl rfl rfl rfl rfl
      have := events_told cfg { s with q.timer := none } v I' T es [.key 320 0] true now he (by simp [isCursorKey])
        ⟨by simp [isToolKey], by simp [isPress], by simp, by simp [isTouchKey], by simp [isTouchKey], by simp [isTouchKey]⟩
      simp only [List.foldl_cons, List.foldl_nil, kev] at this
      generalize Pen.syn cfg (keyEvent cfg { s with q.timer := none } 320 0) true now = r at this ⊢
      obtain ⟨v', f, J, _⟩ := this
      exact ⟨v', f, J⟩

theorem step_tidy (cfg : Cfg) (s : Pen) (op : Op) (v : Option View) (I : Inv s v) (T : Tidy s v) (es : List Ev) (he : follow none es = some v)
    (hp : match op with
     | .frame evs _ => (∀ e ∈ evs, isCursorKey e = false) ∧ Orderly cfg s.t.serial s.st.entering es (es ++ events (step cfg s op).2) evs
     | .foreign t => near es = true → t.serial ≠ s.t.serial
     | _ => True) (hs : ∀ t, op ≠ .suspend t) :
    ∃ v', follow v (events (step cfg s op).2) = some v' ∧ Tidy (step cfg s op).1 v' := by
  by_cases h1 : ∀ e n, op ≠ .frame e n
  · by_cases h2 : ∀ n, op ≠ .timeout n
    · obtain ⟨e, v', l, hh, o, es, ho⟩ := step_quiet cfg s op h1 h2 hs
      rw [e, es]
      exact ⟨v, rfl, ho T.1, T.2⟩
    · simp only [ne_eq, Classical.not_forall, Classical.not_not] at h2
      obtain ⟨n, rfl⟩ := h2
      unfold step
      rw [if_neg (by simp [I.hung])]
      dsimp only
      split
      · split
        · exact timeout_told cfg s n v I T es he
        · exact ⟨v, rfl, T⟩
      · exact ⟨v, rfl, T⟩
  · simp only [ne_eq, Classical.not_forall, Classical.not_not] at h1
    obtain ⟨evs, n, rfl⟩ := h1
    unfold step at hp ⊢
    rw [if_neg (by simp [I.hung])] at hp ⊢
    dsimp only at hp ⊢
    rw [if_pos T.1] at hp ⊢
    obtain ⟨v', f, J, _⟩ := events_told cfg s v I T es evs false n he hp.1 hp.2
    exact ⟨v', f, J⟩

theorem run_tidy (cfg : Cfg) (ops : List Op) : ∀ s v es, Inv s v → Tidy s v → follow none es = some v → Polite cfg s es ops → Awake ops →
    ∃ v', follow v (events (run cfg s ops).2) = some v' ∧ Inv (run cfg s ops).1 v' ∧ Tidy (run cfg s ops).1 v' := by
  induction ops with
  | nil => intro s v es I T _ _ _; exact ⟨v, rfl, I, T⟩
  | cons op ops ih =>
    intro s v es I T he hp ha
    obtain ⟨v1, f, J⟩ := step_ok cfg s op v I es he hp.1
    obtain ⟨v1', f', T1⟩ := step_tidy cfg s op v I T es he hp.1 (ha op (by simp))
    rw [f] at f'; cases f'
    have he1 : follow none (es ++ events (step cfg s op).2) = some v1 := by rw [follow_append, he, Option.bind_some, f]
    obtain ⟨v2, f2, K⟩ := ih _ v1 _ J T1 he1 hp.2 (fun x hx => ha x (by simp [hx]))
    refine ⟨v2, ?_, K⟩
    simp only [run]
    rw [events_append, follow_append, f, Option.bind_some, f2]

theorem start_tidy (cfg : Cfg) (raw : Axis → Int) (tool : Option Kind) (id now : Nat) : Tidy (start cfg raw tool id now) none := by
  unfold start
  cases tool with
  | none => exact ⟨rfl, fun _ => .inr ⟨rfl, rfl⟩⟩
  | some k =>
    dsimp only
    generalize hx : Pen.updateTool _ _ _ = x
    obtain ⟨q, e⟩ := setTimer_state x now
    rw [e, ← hx]
    exact ⟨rfl, fun _ => .inl rfl⟩

theorem run_snoc (cfg : Cfg) (op : Op) (ops : List Op) : ∀ s,
    run cfg s (ops ++ [op]) = ((step cfg (run cfg s ops).1 op).1, (run cfg s ops).2 ++ (step cfg (run cfg s ops).1 op).2) := by
  induction ops with
  | nil => intro s; simp [run]
  | cons o ops ih => intro s; simp only [List.cons_append, run, ih, List.append_assoc]

theorem polite_append (cfg : Cfg) (a b : List Op) : ∀ s es, Polite cfg s es (a ++ b) ↔
    Polite cfg s es a ∧ Polite cfg (run cfg s a).1 (es ++ events (run cfg s a).2) b := by
  induction a with
  | nil => intro s es; simp [Polite, run, events]
  | cons o a ih =>
    intro s es
    simp only [List.cons_append, Polite, run, ih, events_append, List.append_assoc]
    exact and_assoc.symm

/-- The frame after a polite history. -/
theorem frame_told (cfg : Cfg) (s : Pen) (ops : List Op) (evs : List KEv) (t : Nat) (I : Inv s none) (T : Tidy s none)
    (hp : Polite cfg s [] (ops ++ [.frame evs t])) (ha : Awake ops) :
    ∃ v v', follow none (events (run cfg s ops).2) = some v ∧ follow none (events (run cfg s (ops ++ [.frame evs t])).2) = some v' ∧
      (∀ k, .key (toolKey k) 1 ∈ evs → ∃ w, v' = some w ∧ w.tool.kind = k) ∧
      (∀ w, v = some w → .key (toolKey w.tool.kind) 0 ∈ evs → v' = none) := by
  rw [polite_append] at hp
  obtain ⟨hp1, hp2, _⟩ := hp
  obtain ⟨v, f, J, TJ⟩ := run_tidy cfg ops s none [] I T rfl hp1 ha
  simp only [List.nil_append] at hp2
  unfold step at hp2
  rw [if_neg (by simp [J.hung])] at hp2
  dsimp only at hp2
  rw [if_pos TJ.1] at hp2
  obtain ⟨v', f', _, h1, h2⟩ := events_told cfg _ v J TJ _ evs false t f hp2.1 hp2.2
  refine ⟨v, v', f, ?_, h1, h2⟩
  rw [run_snoc]
  dsimp only
  rw [events_append, follow_append, f, Option.bind_some]
  unfold step
  rw [if_neg (by simp [J.hung])]
  dsimp only
  rw [if_pos TJ.1]
  exact f'

end Libinput.Tablet
