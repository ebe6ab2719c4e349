import Verif.Pad.Spec
/-
The buttons of tablet pads: what a client is told agrees with the kernel.
-/
namespace Libinput.Pad

/-! ### The map -/

structure Good (m : BMap) (n : Nat) : Prop where
  lt : ∀ c k, m c = .button k → k < n
  inj : ∀ c c' k, m c = .button k → m c' = .button k → c = c'
  key : ∀ c k, m c = .key k → k = c

theorem Good.set {m : BMap} {n : Nat} (h : Good m n) (c : Nat) : Good (m.set c (.button n)) (n + 1) := by
  refine ⟨?_, ?_, ?_⟩
  · intro c' k hk
    unfold BMap.set at hk
    split at hk
    · cases hk; omega
    · have := h.lt c' k hk; omega
  · intro c1 c2 k h1 h2
    unfold BMap.set at h1 h2
    split at h1 <;> split at h2
    · omega
    · cases h1; have := h.lt _ _ h2; omega
    · cases h2; have := h.lt _ _ h1; omega
    · exact h.inj _ _ _ h1 h2
  · intro c' k hk
    unfold BMap.set at hk
    split at hk
    · cases hk
    · exact h.key _ _ hk

theorem fromWacom_good (bs : List WButton) : ∀ n m, Good m n → Good (fromWacom bs n m).1 (fromWacom bs n m).2 := by
  induction bs with
  | nil => intro n m h; exact h
  | cons b bs ih =>
    intro n m h
    unfold fromWacom
    split
    · exact ih _ _ h
    · exact ih _ _ (h.set _)

theorem fromKernel_good (keys : Nat → Bool) (cs : List Nat) : ∀ n m, Good m n → Good (fromKernel keys cs n m).1 (fromKernel keys cs n m).2 := by
  induction cs with
  | nil => intro n m h; exact h
  | cons b bs ih =>
    intro n m h
    unfold fromKernel
    split
    · exact ih _ _ (h.set _)
    · exact ih _ _ h

theorem Good.setKey {m : BMap} {n : Nat} (h : Good m n) (c : Nat) : Good (m.set c (.key c)) n := by
  refine ⟨?_, ?_, ?_⟩
  · intro c' k hk
    unfold BMap.set at hk
    split at hk
    · cases hk
    · exact h.lt c' k hk
  · intro c1 c2 k h1 h2
    unfold BMap.set at h1 h2
    split at h1 <;> split at h2
    · omega
    · cases h1
    · cases h2
    · exact h.inj _ _ _ h1 h2
  · intro c' k hk
    unfold BMap.set at hk
    split at hk
    · cases hk; omega
    · exact h.key _ _ hk

theorem addKeys_good (cfg : Cfg) {n : Nat} : ∀ m : BMap, Good m n → Good (addKeys cfg m) n := by
  intro m h
  unfold addKeys
  split
  · simp only [List.foldl_cons, List.foldl_nil]
    have key : ∀ (m : BMap) c, Good m n → Good (if cfg.keys c then m.set c (.key c) else m) n := by
      intro m c h
      split
      · exact h.setKey c
      · exact h
    exact key _ _ (key _ _ (key _ _ h))
  · exact h

theorem map_good (cfg : Cfg) : Good cfg.map cfg.numButtons := by
  have h0 : Good (fun _ => Map.unmapped) 0 :=
    ⟨fun c k h => (by cases h), fun _ _ _ h => (by cases h), fun _ _ h => (by cases h)⟩
  unfold Cfg.map Cfg.numButtons Cfg.buttons
  dsimp only
  split
  · exact addKeys_good cfg _ (fromWacom_good _ _ _ h0)
  · exact addKeys_good cfg _ (fromKernel_good _ _ _ _ h0)

theorem map_inj (cfg : Cfg) (c c' : Nat) (h : cfg.map c = cfg.map c') (hu : cfg.map c ≠ .unmapped) : c = c' := by
  have G := map_good cfg
  cases hc : cfg.map c with
  | unmapped => exact absurd hc hu
  | button k => exact G.inj c c' k hc (h ▸ hc)
  | key k => have := G.key c k hc; have := G.key c' k (h ▸ hc); omega

/-! ### Streams of events -/

def Clean (h : Map → Bool) : List Ev → Prop
  | [] => True
  | e :: es => (match e with
      | .button n p _ _ => h (.button n) = !p
      | .key k p => h (.key k) = !p
      | _ => True) ∧ Clean (tell h e) es

theorem clean_append (a b : List Ev) : ∀ h, Clean h (a ++ b) ↔ Clean h a ∧ Clean (a.foldl tell h) b := by
  induction a with
  | nil => intro h; simp [Clean]
  | cons e a ih => intro h; simp only [List.cons_append, Clean, List.foldl_cons, ih, and_assoc]

theorem clean_alternating (es : List Ev) (h : Clean (fun _ => false) es) : Alternating es := by
  intro pre e post he
  rw [he, clean_append] at h
  have := h.2.1
  cases e <;> exact this

/-- Events that say nothing about buttons. -/
def Mute (es : List Ev) : Prop := ∀ e ∈ es, ∀ h, tell h e = h

theorem mute_fold {es : List Ev} (m : Mute es) : ∀ h, es.foldl tell h = h ∧ Clean h es := by
  induction es with
  | nil => intro h; exact ⟨rfl, trivial⟩
  | cons e es ih =>
    intro h
    have he := m e (by simp)
    obtain ⟨i1, i2⟩ := ih (fun x hx => m x (by simp [hx])) h
    rw [List.foldl_cons, he]
    refine ⟨i1, ?_, ?_⟩
    · cases e with
      | button n p g md =>
        exfalso
        have a := congrFun (he (fun _ => !p)) (.button n)
        simp [tell] at a
      | key k p =>
        exfalso
        have a := congrFun (he (fun _ => !p)) (.key k)
        simp [tell] at a
      | _ => trivial
    · rw [he]; exact i2

theorem Mute.append {a b : List Ev} (x : Mute a) (y : Mute b) : Mute (a ++ b) := by
  intro e he
  rcases List.mem_append.1 he with h | h
  · exact x e h
  · exact y e h

theorem ring_mute (cfg : Cfg) (up : Bool) (a : Abs) (n : Nat) (s : Pad) :
    Mute (s.ring cfg up a n).2 ∧ ∃ b, (s.ring cfg up a n).1 = { s with aborted := b } ∧ (s.aborted = true → b = true) := by
  unfold Pad.ring
  split
  · exact ⟨fun e h => (by cases h), s.aborted, rfl, id⟩
  · split
    · exact ⟨fun e h => (by cases h), true, rfl, fun _ => rfl⟩
    · refine ⟨fun e h => ?_, s.aborted, rfl, id⟩
      simp only [List.mem_singleton] at h
      subst h; intro _; rfl

theorem strip_mute (cfg : Cfg) (up : Bool) (a : Abs) (n : Nat) (s : Pad) :
    Mute (s.strip cfg up a n).2 ∧ ∃ b, (s.strip cfg up a n).1 = { s with aborted := b } ∧ (s.aborted = true → b = true) := by
  unfold Pad.strip
  split
  · exact ⟨fun e h => (by cases h), s.aborted, rfl, id⟩
  · split
    · exact ⟨fun e h => (by cases h), true, rfl, fun _ => rfl⟩
    · refine ⟨fun e h => ?_, s.aborted, rfl, id⟩
      simp only [List.mem_singleton] at h
      subst h; intro _; rfl

theorem notifyAxes_mute (cfg : Cfg) (s : Pad) :
    Mute (s.notifyAxes cfg).2 ∧ ∃ b, (s.notifyAxes cfg).1 = { s with aborted := b, changed := fun _ => false, misc := false } ∧
      (s.aborted = true → b = true) := by
  unfold Pad.notifyAxes
  dsimp only
  generalize (s.misc && s.raw .misc == 0) = up
  obtain ⟨m1, b1, e1, t1⟩ := ring_mute cfg up .ring1 0 s
  rw [e1]
  obtain ⟨m2, b2, e2, t2⟩ := ring_mute cfg up .ring2 1 { s with aborted := b1 }
  rw [e2]
  obtain ⟨m3, b3, e3, t3⟩ := strip_mute cfg up .strip1 0 { s with aborted := b2 }
  rw [e3]
  obtain ⟨m4, b4, e4, t4⟩ := strip_mute cfg up .strip2 1 { s with aborted := b3 }
  rw [e4]
  exact ⟨((m1.append m2).append m3).append m4, b4, rfl, fun h => t4 (t3 (t2 (t1 h)))⟩

/-! ### Masks -/

theorem notifyButton_shape (cfg : Cfg) (p : Bool) (s : Pad) (c : Nat) :
    (∃ gs b, (s.notifyButton cfg p c).1 = { s with groups := gs, aborted := b } ∧ (s.aborted = true → b = true)) ∧
    ((s.notifyButton cfg p c).1.aborted = true ∧ (s.notifyButton cfg p c).2 = [] ∨
     cfg.map c = .unmapped ∧ (s.notifyButton cfg p c).2 = [] ∨
     cfg.map c ≠ .unmapped ∧ ∃ e, (s.notifyButton cfg p c).2 = [e] ∧
      (∀ h, tell h e = fun t => if t = cfg.map c then p else h t) ∧ ∀ h, h (cfg.map c) = !p → Clean h [e]) := by
  unfold Pad.notifyButton
  split
  · rename_i h; exact ⟨⟨s.groups, s.aborted, rfl, id⟩, .inl ⟨h, rfl⟩⟩
  · rename_i h
    split
    · exact ⟨⟨s.groups, s.aborted, rfl, id⟩, .inr (.inl ⟨‹_›, rfl⟩)⟩
    · rename_i k hk
      refine ⟨⟨s.groups, s.aborted, rfl, id⟩, .inr (.inr ⟨by rw [hk]; simp, _, rfl, fun h => ?_, fun h hh => ?_⟩)⟩
      · rw [hk]; rfl
      · rw [hk] at hh; exact ⟨hh, trivial⟩
    · rename_i n hn
      split
      · exact ⟨⟨s.groups, true, rfl, fun _ => rfl⟩, .inl ⟨rfl, rfl⟩⟩
      · refine ⟨⟨_, s.aborted, rfl, id⟩, .inr (.inr ⟨by rw [hn]; simp, _, rfl, fun h => ?_, fun h hh => ?_⟩)⟩
        · rw [hn]; rfl
        · rw [hn] at hh; exact ⟨hh, trivial⟩

theorem aborted_stays (cfg : Cfg) (p : Bool) (mask : Nat → Bool) (l : List Nat) : ∀ s : Pad, s.aborted = true →
    notifyMask cfg p mask l s = (s, []) := by
  induction l with
  | nil => intro s _; rfl
  | cons c l ih =>
    intro s h
    have : s.notifyButton cfg p c = (s, []) := by unfold Pad.notifyButton; rw [if_pos h]
    unfold notifyMask
    dsimp only
    rw [this]
    split <;> rw [ih s h] <;> rfl

theorem notifyMask_tells (cfg : Cfg) (p : Bool) (mask : Nat → Bool) (l : List Nat) (nd : l.Nodup) : ∀ (s : Pad) (h : Map → Bool),
    (∀ c ∈ l, mask c = true → cfg.map c ≠ .unmapped → h (cfg.map c) = !p) →
    (∃ gs b, (notifyMask cfg p mask l s).1 = { s with groups := gs, aborted := b } ∧ (s.aborted = true → b = true)) ∧
    Clean h (notifyMask cfg p mask l s).2 ∧
    ((notifyMask cfg p mask l s).1.aborted = false → ∀ c, cfg.map c ≠ .unmapped →
      (notifyMask cfg p mask l s).2.foldl tell h (cfg.map c) = if c ∈ l ∧ mask c = true then p else h (cfg.map c)) ∧
    (∀ t, (∀ c ∈ l, cfg.map c ≠ t) → (notifyMask cfg p mask l s).2.foldl tell h t = h t) := by
  induction l with
  | nil => intro s h _; exact ⟨⟨s.groups, s.aborted, rfl, id⟩, trivial, fun _ c _ => by simp [notifyMask], fun t _ => rfl⟩
  | cons c l ih =>
    intro s h hm
    have nd' := (List.nodup_cons.1 nd).2
    have nc := (List.nodup_cons.1 nd).1
    unfold notifyMask
    dsimp only
    by_cases hc : mask c = true
    · rw [if_pos hc]
      obtain ⟨⟨gs, b, e1, b1⟩, sh⟩ := notifyButton_shape cfg p s c
      rcases sh with ⟨ab, ne⟩ | ⟨um, ne⟩ | ⟨mp, e, ne, et, ec⟩
      · rw [aborted_stays cfg p mask l _ ab, ne]
        refine ⟨⟨gs, b, e1, b1⟩, trivial, fun hx => ?_, fun t _ => rfl⟩
        dsimp only at hx
        rw [ab] at hx; cases hx
      · rw [ne]
        obtain ⟨⟨gs2, b2, i0, ib⟩, i1, i2, i3⟩ := ih nd' (s.notifyButton cfg p c).1 h (fun x hx => hm x (by simp [hx]))
        refine ⟨⟨gs2, b2, by rw [i0, e1], fun hx => ib (by rw [e1]; exact b1 hx)⟩, i1, fun ha x hx => ?_, fun t ht => ?_⟩
        · have := i2 ha x hx
          simp only [List.nil_append]
          rw [this]
          have hne : x ≠ c := fun hh => hx (hh ▸ um)
          simp [hne]
        · exact i3 t (fun x hx => ht x (by simp [hx]))
      · rw [ne]
        have h0 := hm c (by simp) hc mp
        obtain ⟨⟨gs2, b2, i0, ib⟩, i1, i2, i3⟩ := ih nd' (s.notifyButton cfg p c).1 (tell h e) (fun x hx hmx hux => by
          rw [et]
          dsimp only
          have : cfg.map x ≠ cfg.map c := fun hh => nc (map_inj cfg x c hh hux ▸ hx)
          rw [if_neg this]
          exact hm x (by simp [hx]) hmx hux)
        refine ⟨⟨gs2, b2, by rw [i0, e1], fun hx => ib (by rw [e1]; exact b1 hx)⟩, ?_, fun ha x hx => ?_, fun t ht => ?_⟩
        · rw [clean_append]; exact ⟨ec h h0, i1⟩
        · rw [List.foldl_append, List.foldl_cons, List.foldl_nil, i2 ha x hx, et]
          by_cases hxc : x = c
          · subst hxc; simp [nc, hc]
          · have : cfg.map x ≠ cfg.map c := fun hh => hxc (map_inj cfg x c hh hx)
            simp [this, hxc]
        · rw [List.foldl_append, List.foldl_cons, List.foldl_nil, i3 t (fun x hx => ht x (by simp [hx])), et]
          dsimp only
          rw [if_neg (fun hh => ht c (by simp) hh.symm)]
    · rw [if_neg hc]
      obtain ⟨i0, i1, i2, i3⟩ := ih nd' s h (fun x hx => hm x (by simp [hx]))
      refine ⟨i0, i1, fun ha x hx => ?_, fun t ht => ?_⟩
      · simp only [List.nil_append]
        rw [i2 ha x hx]
        by_cases hxc : x = c
        · subst hxc; simp [nc, hc]
        · simp [hxc]
      · exact i3 t (fun x hx => ht x (by simp [hx]))

/-! ### Frames -/

theorem codes_nodup : codes.Nodup := List.nodup_range

theorem mem_codes (c : Nat) : c ∈ codes ↔ c < 768 := List.mem_range

attribute [local irreducible] codes

/-- Before `pad_flush`: the buttons that differ from those the client knows are marked. -/
structure Marked (cfg : Cfg) (s : Pad) (h : Map → Bool) : Prop where
  told : ∀ c ∈ codes, cfg.map c ≠ .unmapped → h (cfg.map c) = s.prev c
  rel : ∀ c, s.prev c = true → s.buttons c = false → s.released = true
  pre : ∀ c, s.prev c = false → s.buttons c = true → s.pressed = true
  none : ∀ t, (∀ c ∈ codes, cfg.map c ≠ t) → h t = false

theorem changeLeft_state (s : Pad) : ∃ l, s.changeLeft = { s with left := l } := by
  unfold Pad.changeLeft; split <;> exact ⟨_, rfl⟩

theorem flush_tells (cfg : Cfg) (s : Pad) (h : Map → Bool) (M : Marked cfg s h) :
    Clean h (s.flush cfg).2 ∧
    ((s.flush cfg).1.aborted = false → ∀ c ∈ codes, cfg.map c ≠ .unmapped → (s.flush cfg).2.foldl tell h (cfg.map c) = s.buttons c) ∧
    (∀ t, (∀ c ∈ codes, cfg.map c ≠ t) → (s.flush cfg).2.foldl tell h t = false) ∧
    (s.flush cfg).1.prev = s.buttons ∧ (s.flush cfg).1.buttons = s.buttons ∧
    (s.flush cfg).1.released = false ∧ (s.flush cfg).1.pressed = false ∧ (s.flush cfg).1.opened = s.opened ∧ (s.flush cfg).1.disabled = s.disabled := by
  obtain ⟨told, rel, pre, none⟩ := M
  unfold Pad.flush
  have nd := codes_nodup
  generalize codes = l at told none nd ⊢
  have A : ∃ s1 e1, (if s.axesUpdated then
      let r := s.notifyAxes cfg
      ({ r.1 with axesUpdated := false }, r.2)
    else (s, [])) = (s1, e1) ∧ Mute e1 ∧ s1.prev = s.prev ∧ s1.buttons = s.buttons ∧ s1.released = s.released ∧ s1.pressed = s.pressed ∧
      s1.opened = s.opened ∧ s1.disabled = s.disabled := by
    split
    · obtain ⟨m, b, e, _⟩ := notifyAxes_mute cfg s
      exact ⟨_, _, rfl, m, by rw [e], by rw [e], by rw [e], by rw [e], by rw [e], by rw [e]⟩
    · exact ⟨_, _, rfl, fun e h => (by cases h), rfl, rfl, rfl, rfl, rfl, rfl⟩
  obtain ⟨s1, e1, eA, mu, p1, b1, r1, q1, o1, d1⟩ := A
  rw [eA]
  dsimp only
  have B : ∃ s2 e2, (if s1.released then
      let r := notifyMask cfg false (fun c => s1.prev c && !s1.buttons c) l s1
      ({ r.1 with released := false }.changeLeft, r.2)
    else (s1, [])) = (s2, e2) ∧ Clean h e2 ∧ (s2.aborted = false → ∀ c ∈ l, cfg.map c ≠ .unmapped → e2.foldl tell h (cfg.map c) = (s.prev c && s.buttons c)) ∧
      (∀ t, (∀ c ∈ l, cfg.map c ≠ t) → e2.foldl tell h t = h t) ∧
      s2.prev = s.prev ∧ s2.buttons = s.buttons ∧ s2.released = false ∧ s2.pressed = s.pressed ∧ s2.opened = s.opened ∧ s2.disabled = s.disabled := by
    split
    · obtain ⟨⟨gs, b, es, _⟩, c1, c2, c3⟩ := notifyMask_tells cfg false (fun c => s1.prev c && !s1.buttons c) l nd s1 h (fun c hc hm hu => by
        rw [told c hc hu]
        simp only [p1, Bool.and_eq_true] at hm
        exact hm.1)
      obtain ⟨lf, el⟩ := changeLeft_state { (notifyMask cfg false (fun c => s1.prev c && !s1.buttons c) l s1).1 with released := false }
      refine ⟨_, _, rfl, c1, ?_, c3, ?_, ?_, ?_, ?_, ?_, ?_⟩
      · intro ha c hc hu
        rw [el] at ha
        have := c2 ha c hu
        rw [this, told c hc hu]
        simp only [hc, true_and, p1, b1]
        cases s.prev c <;> cases s.buttons c <;> rfl
      all_goals dsimp only; rw [el, es]
      · exact p1
      · exact b1
      · exact q1
      · exact o1
      · exact d1
    · rename_i hr
      refine ⟨_, _, rfl, trivial, ?_, fun t _ => rfl, p1, b1, by simpa using hr, q1, o1, d1⟩
      intro _ c hc hu
      show h _ = _
      rw [told c hc hu]
      have hr' : s.released = false := by rw [← r1]; simpa using hr
      have := rel c
      rw [hr'] at this
      cases hp : s.prev c <;> cases hb : s.buttons c
      · rfl
      · rfl
      · exact absurd (this hp hb) (by simp)
      · rfl
  obtain ⟨s2, e2, eB, c1, c2, c3, p2, b2, r2, q2, o2, d2⟩ := B
  rw [eB]
  dsimp only
  have C : ∃ s3 e3, (if s2.pressed then
      let r := notifyMask cfg true (fun c => s2.buttons c && !s2.prev c) l s2
      ({ r.1 with pressed := false }, r.2)
    else (s2, [])) = (s3, e3) ∧ Clean (e2.foldl tell h) e3 ∧
      (s3.aborted = false → ∀ c ∈ l, cfg.map c ≠ .unmapped → e3.foldl tell (e2.foldl tell h) (cfg.map c) = s.buttons c) ∧
      (∀ t, (∀ c ∈ l, cfg.map c ≠ t) → e3.foldl tell (e2.foldl tell h) t = false) ∧
      s3.buttons = s.buttons ∧ s3.released = false ∧ s3.pressed = false ∧ s3.opened = s.opened ∧ s3.disabled = s.disabled := by
    by_cases hab : s2.aborted = true
    · split
      · have : notifyMask cfg true (fun c => s2.buttons c && !s2.prev c) l s2 = (s2, []) := aborted_stays _ _ _ _ _ hab
        rw [this]
        refine ⟨_, _, rfl, trivial, fun ha => ?_, fun t ht => ?_, b2, r2, rfl, o2, d2⟩
        · dsimp only at ha; rw [hab] at ha; cases ha
        · show e2.foldl tell h t = false
          rw [c3 t ht, none t ht]
      · rename_i hp
        refine ⟨_, _, rfl, trivial, fun ha => ?_, fun t ht => ?_, b2, r2, by simpa using hp, o2, d2⟩
        · rw [hab] at ha; cases ha
        · show e2.foldl tell h t = false
          rw [c3 t ht, none t ht]
    · have hab' : s2.aborted = false := by simpa using hab
      split
      · obtain ⟨⟨gs, b, es, _⟩, d1', d2', d3'⟩ := notifyMask_tells cfg true (fun c => s2.buttons c && !s2.prev c) l nd s2 (e2.foldl tell h) (fun c hc hm hu => by
          rw [c2 hab' c hc hu]
          simp only [p2, b2, Bool.and_eq_true, Bool.not_eq_true'] at hm
          rw [hm.2]; rfl)
        refine ⟨_, _, rfl, d1', ?_, ?_, ?_, ?_, ?_, ?_, ?_⟩
        · intro ha c hc hu
          have := d2' ha c hu
          rw [this, c2 hab' c hc hu]
          simp only [hc, true_and, p2, b2]
          cases s.prev c <;> cases s.buttons c <;> rfl
        · intro t ht
          rw [d3' t ht, c3 t ht, none t ht]
        all_goals first | rfl | (dsimp only; rw [es])
        · exact b2
        · exact r2
        · exact o2
        · exact d2
      · rename_i hp
        refine ⟨_, _, rfl, trivial, ?_, ?_, b2, r2, by simpa using hp, o2, d2⟩
        · intro _ c hc hu
          show e2.foldl tell h _ = _
          rw [c2 hab' c hc hu]
          have hp' : s.pressed = false := by rw [← q2]; simpa using hp
          have := pre c
          rw [hp'] at this
          cases hp : s.prev c <;> cases hb : s.buttons c
          · rfl
          · exact absurd (this hp hb) (by simp)
          · rfl
          · rfl
        · intro t ht
          show e2.foldl tell h t = false
          rw [c3 t ht, none t ht]
  obtain ⟨s3, e3, eC, f1, f2, f3, b3, r3, q3, o3, d3⟩ := C
  rw [eC]
  dsimp only
  obtain ⟨m1, m2⟩ := mute_fold mu h
  refine ⟨?_, ?_, ?_, b3, b3, r3, q3, o3, d3⟩
  · rw [clean_append, clean_append, List.foldl_append, m1]
    exact ⟨⟨m2, c1⟩, f1⟩
  · intro ha c hc hu
    rw [List.foldl_append, List.foldl_append, m1]
    exact f2 ha c hc hu
  · intro t ht
    rw [List.foldl_append, List.foldl_append, m1]
    exact f3 t ht

/-! ### Histories -/

/-- Between two operations. -/
structure Rest (cfg : Cfg) (s : Pad) (h : Map → Bool) (k : Keys) : Prop where
  told : ∀ c ∈ codes, cfg.map c ≠ .unmapped → h (cfg.map c) = s.buttons c
  prev : s.prev = s.buttons
  rel : s.released = false
  pre : s.pressed = false
  none : ∀ t, (∀ c ∈ codes, cfg.map c ≠ t) → h t = false
  down : ∀ c, 1 ≤ c → c < 768 → s.buttons c = k.down c
  opened : s.opened = k.opened
  disabled : s.disabled = k.disabled

theorem kev_marked (cfg : Cfg) (s : Pad) (h : Map → Bool) (e : KEv) (M : Marked cfg s h) : Marked cfg (kev s e) h := by
  cases e with
  | abs a v => unfold kev; dsimp only; split <;> exact ⟨M.told, M.rel, M.pre, M.none⟩
  | key c v =>
    unfold kev Pad.setDown
    dsimp only
    split
    · exact M
    · split
      · rename_i hv
        refine ⟨M.told, fun c' h1 h2 => ?_, fun _ _ _ => rfl, M.none⟩
        dsimp only at h2
        split at h2
        · rw [hv] at h2; cases h2
        · exact M.rel c' h1 h2
      · rename_i hv
        refine ⟨M.told, fun _ _ _ => rfl, fun c' h1 h2 => ?_, M.none⟩
        dsimp only at h2
        split at h2
        · exact absurd h2 hv
        · exact M.pre c' h1 h2

theorem fold_marked (cfg : Cfg) (evs : List KEv) (h : Map → Bool) : ∀ s, Marked cfg s h → Marked cfg (evs.foldl kev s) h := by
  induction evs with
  | nil => intro s M; exact M
  | cons e evs ih => intro s M; exact ih _ (kev_marked cfg s h e M)

theorem kev_down (s : Pad) (e : KEv) (d : Nat → Bool) (hd : ∀ c, 1 ≤ c → c < 768 → s.buttons c = d c) :
    (∀ c, 1 ≤ c → c < 768 → (kev s e).buttons c = hearsKey d e c) ∧ (kev s e).opened = s.opened ∧ (kev s e).disabled = s.disabled := by
  cases e with
  | abs a v => unfold kev; dsimp only; split <;> exact ⟨hd, rfl, rfl⟩
  | key c v =>
    simp only [kev, hearsKey]
    split
    · exact ⟨hd, rfl, rfl⟩
    · unfold Pad.setDown
      dsimp only
      split
      all_goals
        refine ⟨fun c' h1 h2 => ?_, rfl, rfl⟩
        dsimp only
        split
        · rfl
        · exact hd c' h1 h2

theorem fold_down (evs : List KEv) : ∀ (s : Pad) (d : Nat → Bool), (∀ c, 1 ≤ c → c < 768 → s.buttons c = d c) →
    (∀ c, 1 ≤ c → c < 768 → (evs.foldl kev s).buttons c = evs.foldl hearsKey d c) ∧ (evs.foldl kev s).opened = s.opened ∧
      (evs.foldl kev s).disabled = s.disabled := by
  induction evs with
  | nil => intro s d h; exact ⟨h, rfl, rfl⟩
  | cons e evs ih =>
    intro s d h
    obtain ⟨h1, h2, h3⟩ := kev_down s e d h
    obtain ⟨i1, i2, i3⟩ := ih _ _ h1
    exact ⟨i1, i2.trans h2, i3.trans h3⟩

theorem Rest.marked {cfg : Cfg} {s : Pad} {h : Map → Bool} {k : Keys} (R : Rest cfg s h k) : Marked cfg s h :=
  ⟨fun c hc hu => (by rw [R.prev]; exact R.told c hc hu), fun c h1 h2 => (by rw [R.prev, h2] at h1; cases h1),
   fun c h1 h2 => (by rw [R.prev, h2] at h1; cases h1), R.none⟩

/-- What `pad_suspend` does to the buttons. -/
theorem lift_marked (cfg : Cfg) (h : Map → Bool) (l : List Nat) : ∀ s : Pad, Marked cfg s h →
    Marked cfg (l.foldl (fun t c => if t.buttons c then t.setDown c false else t) s) h ∧
    (∀ c, (l.foldl (fun t c => if t.buttons c then t.setDown c false else t) s).buttons c = if c ∈ l then false else s.buttons c) ∧
    (l.foldl (fun t c => if t.buttons c then t.setDown c false else t) s).opened = s.opened ∧
    (l.foldl (fun t c => if t.buttons c then t.setDown c false else t) s).disabled = s.disabled := by
  induction l with
  | nil => intro s M; exact ⟨M, fun c => by simp, rfl, rfl⟩
  | cons c l ih =>
    intro s M
    have key : Marked cfg (if s.buttons c then s.setDown c false else s) h ∧
        (∀ x, (if s.buttons c then s.setDown c false else s).buttons x = if x = c then false else s.buttons x) ∧
        (if s.buttons c then s.setDown c false else s).opened = s.opened ∧ (if s.buttons c then s.setDown c false else s).disabled = s.disabled := by
      split
      · have := kev_marked cfg s h (.key c 0) M
        have e : kev s (.key c 0) = s.setDown c false := by simp [kev]
        rw [e] at this
        exact ⟨this, fun x => rfl, rfl, rfl⟩
      · rename_i hc
        refine ⟨M, fun x => ?_, rfl, rfl⟩
        split
        · rename_i hx; rw [hx]; simpa using hc
        · rfl
    obtain ⟨k1, k2, k3, k4⟩ := key
    obtain ⟨i1, i2, i3, i4⟩ := ih _ k1
    simp only [List.foldl_cons]
    refine ⟨i1, fun x => ?_, i3.trans k3, i4.trans k4⟩
    rw [i2, k2]
    simp only [List.mem_cons]
    by_cases h1 : x = c <;> by_cases h2 : x ∈ l <;> simp [h1, h2]

theorem suspend_tells (cfg : Cfg) (s : Pad) (h : Map → Bool) (k : Keys) (R : Rest cfg s h k) :
    Clean h (s.suspend cfg).2 ∧ ((s.suspend cfg).1.aborted = false →
      Rest cfg (s.suspend cfg).1 ((s.suspend cfg).2.foldl tell h) { k with down := fun _ => false }) := by
  unfold Pad.suspend
  obtain ⟨L, lb, lo, ld⟩ := lift_marked cfg h (codes.filter (fun c => decide (1 ≤ c))) s R.marked
  generalize List.foldl (fun (t : Pad) c => if t.buttons c then t.setDown c false else t) s (codes.filter (fun c => decide (1 ≤ c))) = s' at L lb lo ld
  obtain ⟨f1, f2, f3, f4, f5, f6, f7, f8, f9⟩ := flush_tells cfg s' h L
  refine ⟨f1, fun ha => ⟨?_, by rw [f4, f5], f6, f7, f3, ?_, ?_, ?_⟩⟩
  · intro c hc hu
    rw [f2 ha c hc hu, f5]
  · intro c h1 h2
    rw [f5, lb]
    simp [mem_codes, h1, h2]
  · rw [f8, lo]; exact R.opened
  · rw [f9, ld]; exact R.disabled

theorem step_tells (cfg : Cfg) (s : Pad) (op : Op) (h : Map → Bool) (k : Keys) (R : Rest cfg s h k) :
    Clean h (step cfg s op).2 ∧ ((step cfg s op).1.aborted = false → Rest cfg (step cfg s op).1 ((step cfg s op).2.foldl tell h) (k.step op)) := by
  unfold step
  split
  · rename_i ha
    exact ⟨trivial, fun h => by dsimp only at h; rw [ha] at h; cases h⟩
  · cases op with
    | frame evs =>
      dsimp only [Keys.step]
      rw [← R.opened]
      split
      · have M := fold_marked cfg evs h s R.marked
        obtain ⟨d1, d2, d3⟩ := fold_down evs s k.down R.down
        obtain ⟨f1, f2, f3, f4, f5, f6, f7, f8, f9⟩ := flush_tells cfg _ h M
        refine ⟨f1, fun ha => ⟨?_, by rw [f4, f5], f6, f7, f3, ?_, ?_, ?_⟩⟩
        · intro c hc hu; rw [f2 ha c hc hu, f5]
        · intro c h1 h2; rw [f5]; exact d1 c h1 h2
        · rw [f8, d2]
        · rw [f9, d3]; exact R.disabled
      · exact ⟨trivial, fun _ => R⟩
    | suspend =>
      dsimp only [Keys.step]
      rw [← R.opened]
      split
      · obtain ⟨c, r⟩ := suspend_tells cfg s h k R
        refine ⟨c, fun ha => ?_⟩
        have r := r ha
        exact ⟨r.told, r.prev, r.rel, r.pre, r.none, r.down, rfl, r.disabled⟩
      · exact ⟨trivial, fun _ => R⟩
    | resume raw =>
      dsimp only [Keys.step]
      split
      · rename_i ho
        exact ⟨trivial, fun _ => ⟨R.told, R.prev, R.rel, R.pre, R.none, R.down, ho, R.disabled⟩⟩
      · exact ⟨trivial, fun _ => ⟨R.told, R.prev, R.rel, R.pre, R.none, R.down, rfl, R.disabled⟩⟩
    | setLeft b =>
      dsimp only [Keys.step]
      obtain ⟨l, e⟩ := changeLeft_state { s with wantLeft := b }
      rw [e]
      exact ⟨trivial, fun _ => ⟨R.told, R.prev, R.rel, R.pre, R.none, R.down, R.opened, R.disabled⟩⟩
    | setDisabled b =>
      dsimp only
      have hd := R.disabled
      split
      · rename_i hb
        refine ⟨trivial, fun _ => ?_⟩
        have : k.step (.setDisabled b) = k := by
          rw [hb, hd]
          cases hk : k.disabled
          · simp only [Keys.step]; rw [← hk]
          · simp only [Keys.step, hk, if_true]
        rw [this]; exact R
      · rename_i hb
        cases b with
        | true =>
          have hk : k.disabled = false := by
            cases hx : k.disabled
            · rfl
            · exact absurd (by rw [hd, hx]) hb
          simp only [if_true, Keys.step, hk, Bool.false_eq_true, if_false]
          obtain ⟨c, r⟩ := suspend_tells cfg s h k R
          refine ⟨c, fun ha => ?_⟩
          have r := r ha
          exact ⟨r.told, r.prev, r.rel, r.pre, r.none, r.down, r.opened, rfl⟩
        | false =>
          simp only [Bool.false_eq_true, if_false, Keys.step]
          exact ⟨trivial, fun _ => ⟨R.told, R.prev, R.rel, R.pre, R.none, R.down, R.opened, rfl⟩⟩
    | leds l => exact ⟨trivial, fun _ => ⟨R.told, R.prev, R.rel, R.pre, R.none, R.down, R.opened, R.disabled⟩⟩

theorem step_aborted (cfg : Cfg) (s : Pad) (op : Op) (h : s.aborted = true) : step cfg s op = (s, []) := by
  unfold step; rw [if_pos h]

theorem run_aborted (cfg : Cfg) (ops : List Op) : ∀ s : Pad, s.aborted = true → run cfg s ops = (s, []) := by
  induction ops with
  | nil => intro s _; rfl
  | cons op ops ih => intro s h; simp only [run, step_aborted cfg s op h, ih s h]; rfl

theorem run_tells (cfg : Cfg) (ops : List Op) : ∀ s h k, Rest cfg s h k →
    Clean h (run cfg s ops).2 ∧ ((run cfg s ops).1.aborted = false → Rest cfg (run cfg s ops).1 ((run cfg s ops).2.foldl tell h) (ops.foldl Keys.step k)) := by
  induction ops with
  | nil => intro s h k R; exact ⟨trivial, fun _ => R⟩
  | cons op ops ih =>
    intro s h k R
    obtain ⟨c, r⟩ := step_tells cfg s op h k R
    simp only [run]
    by_cases ha : (step cfg s op).1.aborted = true
    · rw [run_aborted cfg ops _ ha, List.append_nil]
      refine ⟨c, fun hx => ?_⟩
      dsimp only at hx; rw [ha] at hx; cases hx
    · have ha' : (step cfg s op).1.aborted = false := by simpa using ha
      obtain ⟨i1, i2⟩ := ih _ _ _ (r ha')
      rw [clean_append, List.foldl_append]
      exact ⟨⟨c, i1⟩, i2⟩

theorem create_rest (cfg : Cfg) (lit : Lit) (raw : Abs → Int) (s : Pad) (h : create cfg lit raw = some s) :
    Rest cfg s (fun _ => false) {} := by
  unfold create at h
  split at h
  · cases h
  · injection h with h
    subst h
    exact ⟨fun _ _ _ => rfl, rfl, rfl, rfl, fun _ _ => rfl, fun _ _ _ => rfl, rfl, rfl⟩

end Libinput.Pad
