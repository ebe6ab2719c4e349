import Verif.Pad.Modes
/-
Rings, strips and left-handed pads.
-/
namespace Libinput.Pad

attribute [local irreducible] codes List.range

/-! ### What each part leaves alone -/

theorem notifyMask_state (cfg : Cfg) (p : Bool) (mask : Nat → Bool) (l : List Nat) : ∀ s : Pad,
    (∃ gs b, (notifyMask cfg p mask l s).1 = { s with groups := gs, aborted := b } ∧ (s.aborted = true → b = true)) ∧
    (notifyMask cfg p mask l s).2.filterMap axisOf = [] := by
  induction l with
  | nil => intro s; exact ⟨⟨s.groups, s.aborted, rfl, id⟩, rfl⟩
  | cons c l ih =>
    intro s
    unfold notifyMask
    dsimp only
    have A : ∃ r, (if mask c then s.notifyButton cfg p c else (s, [])) = r ∧ (∃ gs b, r.1 = { s with groups := gs, aborted := b } ∧ (s.aborted = true → b = true)) ∧
        r.2.filterMap axisOf = [] := by
      split
      · refine ⟨_, rfl, (notifyButton_shape cfg p s c).1, ?_⟩
        unfold Pad.notifyButton
        split
        · rfl
        · split
          · rfl
          · rfl
          · split <;> rfl
      · exact ⟨_, rfl, ⟨s.groups, s.aborted, rfl, id⟩, rfl⟩
    obtain ⟨r, er, ⟨gs, b, e1, t1⟩, f1⟩ := A
    rw [er]
    obtain ⟨⟨gs2, b2, e2, t2⟩, f2⟩ := ih r.1
    refine ⟨⟨gs2, b2, by rw [e2, e1], fun h => t2 (by rw [e1]; exact t1 h)⟩, ?_⟩
    rw [List.filterMap_append, f1, f2]; rfl

/-- The position that is reported for an axis. -/
def place (cfg : Cfg) (left : Bool) (a : Abs) (v : Int) : Pos :=
  match a with
  | .ring1 | .ring2 => .angle (ringAngle cfg left a v)
  | _ => stripPos cfg left a v

def shown (cfg : Cfg) (s : Pad) (a : Abs) : Option (Abs × Pos) :=
  if s.changed a then some (a, if s.misc && s.raw .misc == 0 then .up else place cfg s.left a (s.raw a)) else none

theorem ring_shown (cfg : Cfg) (up : Bool) (a : Abs) (n : Nat) (s : Pad)
    (han : a = .ring1 ∧ n = 0 ∨ a = .ring2 ∧ n = 1) (h : (s.ring cfg up a n).1.aborted = false) :
    (s.ring cfg up a n).2.filterMap axisOf = [a].filterMap (fun a => if s.changed a then some (a, if up then Pos.up else place cfg s.left a (s.raw a)) else none) := by
  unfold Pad.ring at h ⊢
  split at h
  · rename_i hc
    rw [if_pos hc]
    dsimp only at h
    rw [h] at hc
    simp only [Bool.false_or, Bool.not_eq_true'] at hc
    simp [hc]
  · rename_i hc
    rw [if_neg hc]
    have hch : s.changed a = true := by
      simp only [Bool.or_eq_true, Bool.not_eq_true', not_or, Bool.not_eq_false] at hc
      exact hc.2
    split at h
    · cases h
    · rename_i g hg
      simp only [hg]
      rcases han with ⟨rfl, rfl⟩ | ⟨rfl, rfl⟩ <;> simp [axisOf, hch, place]

theorem strip_shown (cfg : Cfg) (up : Bool) (a : Abs) (n : Nat) (s : Pad)
    (han : a = .strip1 ∧ n = 0 ∨ a = .strip2 ∧ n = 1) (h : (s.strip cfg up a n).1.aborted = false) :
    (s.strip cfg up a n).2.filterMap axisOf = [a].filterMap (fun a => if s.changed a then some (a, if up then Pos.up else place cfg s.left a (s.raw a)) else none) := by
  unfold Pad.strip at h ⊢
  split at h
  · rename_i hc
    rw [if_pos hc]
    dsimp only at h
    rw [h] at hc
    simp only [Bool.false_or, Bool.not_eq_true'] at hc
    simp [hc]
  · rename_i hc
    rw [if_neg hc]
    have hch : s.changed a = true := by
      simp only [Bool.or_eq_true, Bool.not_eq_true', not_or, Bool.not_eq_false] at hc
      exact hc.2
    split at h
    · cases h
    · rename_i g hg
      simp only [hg]
      rcases han with ⟨rfl, rfl⟩ | ⟨rfl, rfl⟩ <;> simp [axisOf, hch, place]

theorem notifyAxes_shown (cfg : Cfg) (s : Pad) (h : (s.notifyAxes cfg).1.aborted = false) :
    (s.notifyAxes cfg).2.filterMap axisOf = axes.filterMap (shown cfg s) := by
  have e0 : axes.filterMap (shown cfg s) = [Abs.ring1].filterMap (shown cfg s) ++ [Abs.ring2].filterMap (shown cfg s) ++
      [Abs.strip1].filterMap (shown cfg s) ++ [Abs.strip2].filterMap (shown cfg s) := by
    rw [← List.filterMap_append, ← List.filterMap_append, ← List.filterMap_append]; rfl
  rw [e0]
  unfold Pad.notifyAxes at h ⊢
  dsimp only at h ⊢
  unfold shown
  generalize (s.misc && s.raw .misc == 0) = up at h ⊢
  have kr : ∀ (a : Abs) n (t : Pad), (t.ring cfg up a n).1.changed = t.changed ∧ (t.ring cfg up a n).1.left = t.left ∧ (t.ring cfg up a n).1.raw = t.raw ∧
      ((t.ring cfg up a n).1.aborted = false → t.aborted = false) := by
    intro a n t
    obtain ⟨_, b, e, k⟩ := ring_mute cfg up a n t
    rw [e]
    refine ⟨rfl, rfl, rfl, fun h => ?_⟩
    cases ht : t.aborted with
    | false => rfl
    | true => dsimp only at h; rw [k ht] at h; cases h
  have ks : ∀ (a : Abs) n (t : Pad), (t.strip cfg up a n).1.changed = t.changed ∧ (t.strip cfg up a n).1.left = t.left ∧ (t.strip cfg up a n).1.raw = t.raw ∧
      ((t.strip cfg up a n).1.aborted = false → t.aborted = false) := by
    intro a n t
    obtain ⟨_, b, e, k⟩ := strip_mute cfg up a n t
    rw [e]
    refine ⟨rfl, rfl, rfl, fun h => ?_⟩
    cases ht : t.aborted with
    | false => rfl
    | true => dsimp only at h; rw [k ht] at h; cases h
  have k1 := ring_shown cfg up .ring1 0 s (.inl ⟨rfl, rfl⟩)
  obtain ⟨x1, y1, z1, _⟩ := kr .ring1 0 s
  generalize s.ring cfg up .ring1 0 = A at h k1 x1 y1 z1 ⊢
  have k2 := ring_shown cfg up .ring2 1 A.1 (.inr ⟨rfl, rfl⟩)
  obtain ⟨x2, y2, z2, w2⟩ := kr .ring2 1 A.1
  generalize A.1.ring cfg up .ring2 1 = B at h k2 x2 y2 z2 w2 ⊢
  have k3 := strip_shown cfg up .strip1 0 B.1 (.inl ⟨rfl, rfl⟩)
  obtain ⟨x3, y3, z3, w3⟩ := ks .strip1 0 B.1
  generalize B.1.strip cfg up .strip1 0 = C at h k3 x3 y3 z3 w3 ⊢
  have k4 := strip_shown cfg up .strip2 1 C.1 (.inr ⟨rfl, rfl⟩) h
  have h3 := (ks .strip2 1 C.1).2.2.2 h
  rw [x3, y3, z3, x2, y2, z2, x1, y1, z1] at k4
  have k3 := k3 h3
  rw [x2, y2, z2, x1, y1, z1] at k3
  have k2 := k2 (w3 h3)
  rw [x1, y1, z1] at k2
  simp only [List.filterMap_append]
  rw [k1 (w2 (w3 h3)), k2, k3, k4]

/-! ### Flushing -/

theorem flush_state (cfg : Cfg) (s : Pad) :
    (s.flush cfg).1.raw = s.raw ∧ (s.flush cfg).1.wantLeft = s.wantLeft ∧
    (s.flush cfg).1.left = (if s.released then (if codes.any s.buttons then s.left else s.wantLeft) else s.left) ∧
    (s.flush cfg).1.misc = (if s.axesUpdated then false else s.misc) ∧
    (s.flush cfg).1.changed = (if s.axesUpdated then (fun _ => false) else s.changed) ∧
    (s.flush cfg).1.axesUpdated = false ∧
    (s.aborted = true → (s.flush cfg).1.aborted = true) ∧
    ((s.flush cfg).1.aborted = false →
      (s.flush cfg).2.filterMap axisOf = if s.axesUpdated then axes.filterMap (shown cfg s) else []) := by
  unfold Pad.flush
  generalize hl : codes = l
  have A : ∃ a, (if s.axesUpdated then
      let r := s.notifyAxes cfg
      ({ r.1 with axesUpdated := false }, r.2)
    else (s, [])) = a ∧ a.1.raw = s.raw ∧ a.1.wantLeft = s.wantLeft ∧ a.1.left = s.left ∧ a.1.released = s.released ∧ a.1.buttons = s.buttons ∧
      a.1.misc = (if s.axesUpdated then false else s.misc) ∧ a.1.changed = (if s.axesUpdated then (fun _ => false) else s.changed) ∧
      a.1.axesUpdated = false ∧ (s.aborted = true → a.1.aborted = true) ∧
      (a.1.aborted = false → a.2.filterMap axisOf = if s.axesUpdated then axes.filterMap (shown cfg s) else []) := by
    split
    · obtain ⟨m, b, e, t⟩ := notifyAxes_mute cfg s
      have k := notifyAxes_shown cfg s
      refine ⟨_, rfl, ?_, ?_, ?_, ?_, ?_, ?_, ?_, rfl, ?_, fun h => k h⟩
      all_goals dsimp only; rw [e]
      exact t
    · rename_i h
      exact ⟨_, rfl, rfl, rfl, rfl, rfl, rfl, rfl, rfl, by simpa using h, id, fun _ => rfl⟩
  obtain ⟨a, ea, a1, a2, a3, a4, a5, a6, a7, a8, a9, a10⟩ := A
  rw [ea]
  dsimp only
  have B : ∃ b, (if a.1.released then
      let r := notifyMask cfg false (fun c => a.1.prev c && !a.1.buttons c) l a.1
      ({ r.1 with released := false }.changeLeft, r.2)
    else (a.1, [])) = b ∧ b.1.raw = s.raw ∧ b.1.wantLeft = s.wantLeft ∧
      b.1.left = (if s.released then (if l.any s.buttons then s.left else s.wantLeft) else s.left) ∧
      b.1.misc = (if s.axesUpdated then false else s.misc) ∧ b.1.changed = (if s.axesUpdated then (fun _ => false) else s.changed) ∧
      b.1.axesUpdated = false ∧ (a.1.aborted = true → b.1.aborted = true) ∧ b.2.filterMap axisOf = [] := by
    rw [a4]
    split
    · obtain ⟨⟨gs, bb, e, t⟩, f⟩ := notifyMask_state cfg false (fun c => a.1.prev c && !a.1.buttons c) l a.1
      refine ⟨_, rfl, ?_⟩
      dsimp only
      rw [e]
      unfold Pad.changeLeft
      rw [hl]
      dsimp only
      have h5 : l.any a.1.buttons = l.any s.buttons := by rw [a5]
      rw [h5]
      split <;> exact ⟨a1, a2, by first | exact a3 | exact a2, a6, a7, a8, t, f⟩
    · exact ⟨_, rfl, a1, a2, a3, a6, a7, a8, id, rfl⟩
  obtain ⟨b, eb, b1, b2, b3, b4, b5, b6, b7, b8⟩ := B
  rw [eb]
  have C : ∃ c, (if b.1.pressed then
      let r := notifyMask cfg true (fun c => b.1.buttons c && !b.1.prev c) l b.1
      ({ r.1 with pressed := false }, r.2)
    else (b.1, [])) = c ∧ c.1.raw = b.1.raw ∧ c.1.wantLeft = b.1.wantLeft ∧ c.1.left = b.1.left ∧
      c.1.misc = b.1.misc ∧ c.1.changed = b.1.changed ∧ c.1.axesUpdated = b.1.axesUpdated ∧ (b.1.aborted = true → c.1.aborted = true) ∧ c.2.filterMap axisOf = [] := by
    split
    · obtain ⟨⟨gs, bb, e, t⟩, f⟩ := notifyMask_state cfg true (fun c => b.1.buttons c && !b.1.prev c) l b.1
      refine ⟨_, rfl, ?_⟩
      dsimp only
      rw [e]
      exact ⟨rfl, rfl, rfl, rfl, rfl, rfl, t, f⟩
    · exact ⟨_, rfl, rfl, rfl, rfl, rfl, rfl, rfl, id, rfl⟩
  obtain ⟨c, ec, c1, c2, c3, c4, c5, c6, c7, c8⟩ := C
  rw [ec]
  refine ⟨c1.trans b1, c2.trans b2, c3.trans b3, c4.trans b4, c5.trans b5, c6.trans b6, fun h => c7 (b7 (a9 h)), fun h => ?_⟩
  rw [List.filterMap_append, List.filterMap_append, b8, c8, List.append_nil, List.append_nil]
  apply a10
  cases hb : a.1.aborted with
  | false => rfl
  | true => rw [c7 (b7 hb)] at h; cases h

/-! ### Frames -/

theorem fold_abs (evs : List KEv) : ∀ s : Pad,
    (evs.foldl kev s).raw = evs.foldl hearsAbs s.raw ∧ (evs.foldl kev s).misc = (s.misc || moved evs .misc) ∧
    (∀ a, a ≠ .misc → (evs.foldl kev s).changed a = (s.changed a || moved evs a)) ∧ (evs.foldl kev s).changed .misc = s.changed .misc ∧
    (evs.foldl kev s).axesUpdated = (s.axesUpdated || axes.any (moved evs)) ∧
    (evs.foldl kev s).left = s.left ∧ (evs.foldl kev s).wantLeft = s.wantLeft ∧ (evs.foldl kev s).aborted = s.aborted ∧
    (evs.foldl kev s).prev = s.prev := by
  induction evs with
  | nil => intro s; simp [moved, axes]
  | cons e evs ih =>
    intro s
    obtain ⟨i1, i2, i3, i3', i4, i5, i6, i7, i8⟩ := ih (kev s e)
    simp only [List.foldl_cons]
    rw [i1, i2, i3', i4, i5, i6, i7, i8]
    cases e with
    | abs a v =>
      by_cases ha : a = .misc
      · subst ha
        have ek : kev s (.abs .misc v) = { s with raw := (fun b => if b = .misc then v else s.raw b), misc := true } := by simp [kev]
        rw [ek] at i3 ⊢
        refine ⟨rfl, ?_, fun a ha => ?_, rfl, ?_, rfl, rfl, rfl, rfl⟩
        · simp [moved]
        · rw [i3 a ha]
          have : moved (KEv.abs .misc v :: evs) a = moved evs a := by
            have hm : (Abs.misc == a) = false := by simpa using fun h => ha h.symm
            simp [moved, hm]
          rw [this]
        · have : ∀ a, a ∈ axes → moved (KEv.abs .misc v :: evs) a = moved evs a := by
            intro a ha
            have hm : (Abs.misc == a) = false := by
              simp only [axes, List.mem_cons, List.not_mem_nil, or_false] at ha
              rcases ha with rfl | rfl | rfl | rfl <;> rfl
            simp [moved, hm]
          simp only [axes, List.any_cons, List.any_nil] at this ⊢
          rw [this .ring1 (by simp), this .ring2 (by simp), this .strip1 (by simp), this .strip2 (by simp)]
      · have ek : kev s (.abs a v) = { s with raw := fun b => if b = a then v else s.raw b, changed := fun b => if b = a then true else s.changed b, axesUpdated := true } := by simp [kev, ha]
        rw [ek] at i3 ⊢
        refine ⟨rfl, ?_, fun b hb => ?_, ?_, ?_, rfl, rfl, rfl, rfl⟩
        · have : moved (KEv.abs a v :: evs) .misc = moved evs .misc := by
            have hm : (a == Abs.misc) = false := by simpa using ha
            simp [moved, hm]
          rw [this]
        · rw [i3 b hb]
          by_cases hba : b = a
          · subst hba; simp [moved]
          · have hm : (a == b) = false := by simpa using fun h => hba h.symm
            simp [moved, hm, hba]
        · dsimp only; rw [if_neg (fun h => ha h.symm)]
        · cases a with
          | misc => exact absurd rfl ha
          | _ => simp [axes, moved]
    | key c v =>
      have hk : ∀ a, moved (KEv.key c v :: evs) a = moved evs a := fun a => by simp [moved]
      have hks : axes.any (moved (KEv.key c v :: evs)) = axes.any (moved evs) := by simp only [axes, List.any_cons, List.any_nil, hk]
      rw [hks, hk]
      have : ∃ b p r, kev s (.key c v) = { s with buttons := b, pressed := p, released := r } := by
        unfold kev Pad.setDown
        dsimp only
        split
        · exact ⟨_, _, _, rfl⟩
        · split <;> exact ⟨_, _, _, rfl⟩
      obtain ⟨b, p, r, e⟩ := this
      refine ⟨by rw [e]; rfl, by rw [e], fun a ha => by rw [i3 a ha, e, hk], by rw [e], by rw [e], by rw [e], by rw [e], by rw [e], by rw [e]⟩

theorem lift_state (l : List Nat) : ∀ s : Pad, ∃ b p r,
    l.foldl (fun (t : Pad) c => if t.buttons c then t.setDown c false else t) s = { s with buttons := b, pressed := p, released := r } := by
  induction l with
  | nil => intro s; exact ⟨_, _, _, rfl⟩
  | cons c l ih =>
    intro s
    simp only [List.foldl_cons]
    obtain ⟨b, p, r, e⟩ := ih (if s.buttons c then s.setDown c false else s)
    rw [e]
    have : ∃ b p r, (if s.buttons c then s.setDown c false else s) = { s with buttons := b, pressed := p, released := r } := by
      split <;> exact ⟨_, _, _, rfl⟩
    obtain ⟨b', p', r', e'⟩ := this
    rw [e']
    exact ⟨_, _, _, rfl⟩

theorem filterMap_if {α β : Type} (l : List α) (f : α → Option β) (p : α → Bool) (g : α → β) (h : ∀ a ∈ l, f a = if p a then some (g a) else none) :
    l.filterMap f = (l.filter p).map g := by
  induction l with
  | nil => rfl
  | cons a l ih =>
    have ha := h a (by simp)
    have il := ih (fun x hx => h x (by simp [hx]))
    cases hp : p a
    · rw [hp] at ha
      rw [List.filterMap_cons_none (by simpa using ha), List.filter_cons_of_neg (by simp [hp]), il]
    · rw [hp] at ha
      rw [List.filterMap_cons_some (by simpa using ha), List.filter_cons_of_pos hp, List.map_cons, il]

/-- Between two operations. -/
structure VRel (cfg : Cfg) (s : Pad) (v : Seen) (h : Map → Bool) : Prop where
  rest : Rest cfg s h v.keys
  raw : s.raw = v.val
  misc : s.misc = v.misc
  left : s.left = v.left
  want : s.wantLeft = v.want
  changed : s.changed = fun _ => false
  axes : s.axesUpdated = false
  zero : s.buttons 0 = false ∧ v.keys.down 0 = false
  hand : codes.any s.buttons = false → s.left = s.wantLeft

theorem VRel.any {cfg : Cfg} {s : Pad} {v : Seen} {h : Map → Bool} (V : VRel cfg s v h) : codes.any s.buttons = (List.range 768).any v.keys.down := by
  have : ∀ c ∈ codes, s.buttons c = v.keys.down c := by
    intro c hc
    by_cases h0 : c = 0
    · subst h0; rw [V.zero.1, V.zero.2]
    · exact V.rest.down c (by omega) ((mem_codes c).1 hc)
  have e : List.range 768 = codes := by unfold codes; rfl
  rw [e]
  rw [Bool.eq_iff_iff]
  simp only [List.any_eq_true]
  constructor
  · rintro ⟨c, h1, h2⟩; exact ⟨c, h1, by rw [← this c h1]; exact h2⟩
  · rintro ⟨c, h1, h2⟩; exact ⟨c, h1, by rw [this c h1]; exact h2⟩

theorem any_agree {f g : Nat → Bool} (h : ∀ c < 768, f c = g c) : codes.any f = (List.range 768).any g := by
  have e : List.range 768 = codes := by unfold codes; rfl
  rw [e, Bool.eq_iff_iff]
  simp only [List.any_eq_true]
  constructor
  · rintro ⟨c, h1, h2⟩; exact ⟨c, h1, by rw [← h c ((mem_codes c).1 h1)]; exact h2⟩
  · rintro ⟨c, h1, h2⟩; exact ⟨c, h1, by rw [h c ((mem_codes c).1 h1)]; exact h2⟩

theorem fold_zero (cfg : Cfg) (evs : List KEv) (hp : Possible cfg (.frame evs)) : ∀ (s : Pad) (d : Nat → Bool), s.buttons 0 = false → d 0 = false →
    (evs.foldl kev s).buttons 0 = false ∧ evs.foldl hearsKey d 0 = false := by
  induction evs with
  | nil => intro s d h1 h2; exact ⟨h1, h2⟩
  | cons e evs ih =>
    intro s d h1 h2
    have hp' : Possible cfg (.frame evs) := fun x hx => hp x (by simp [hx])
    have he := hp e (by simp)
    apply ih hp'
    · cases e with
      | abs a v => unfold kev; dsimp only; split <;> exact h1
      | key c v =>
        have hc : ¬ (0 = c) := by have := he.1; omega
        unfold kev Pad.setDown
        dsimp only
        split
        · exact h1
        · split <;> (dsimp only; rw [if_neg hc]; exact h1)
    · cases e with
      | abs a v => exact h2
      | key c v =>
        have hc : ¬ (0 = c) := by have := he.1; omega
        simp only [hearsKey]
        split
        · exact h2
        · dsimp only; rw [if_neg hc]; exact h2

/-- The pad before `pad_flush`, with nothing known about axes that may have moved. -/
theorem flush_hand (cfg : Cfg) (s0 s : Pad) (h0 : codes.any s0.buttons = false → s0.left = s0.wantLeft)
    (hl : s.left = s0.left) (hw : s.wantLeft = s0.wantLeft) (hr : s.released = false → codes.any s.buttons = false → codes.any s0.buttons = false) :
    (s.flush cfg).1.left = if codes.any s.buttons then s.left else s.wantLeft := by
  rw [(flush_state cfg s).2.2.1]
  cases hrel : s.released
  · simp only [Bool.false_eq_true, if_false]
    cases hb : codes.any s.buttons
    · simp only [Bool.false_eq_true, if_false]; rw [hl, hw]; exact h0 (hr hrel hb)
    · rfl
  · rfl

theorem suspend_view (cfg : Cfg) (s : Pad) (v : Seen) (h : Map → Bool) (V : VRel cfg s v h)
    (ha : (s.suspend cfg).1.aborted = false) :
    VRel cfg (s.suspend cfg).1 { v with left := v.want, keys := { v.keys with down := fun _ => false } } ((s.suspend cfg).2.foldl tell h) ∧
      (s.suspend cfg).2.filterMap axisOf = [] := by
  have R' := (suspend_tells cfg s h v.keys V.rest).2 ha
  unfold Pad.suspend at R' ha ⊢
  obtain ⟨M, lb, _, _⟩ := lift_marked cfg h (codes.filter (fun c => decide (1 ≤ c))) s V.rest.marked
  obtain ⟨b, p, r, e⟩ := lift_state (codes.filter (fun c => decide (1 ≤ c))) s
  generalize List.foldl (fun (t : Pad) c => if t.buttons c then t.setDown c false else t) s (codes.filter (fun c => decide (1 ≤ c))) = s' at R' ha M lb e ⊢
  have none : codes.any s'.buttons = false := by
    rw [any_agree (g := fun _ => false)]
    · simp
    · intro c hc
      rw [lb]
      by_cases h0 : c = 0
      · subst h0; simp [V.zero.1]
      · have : c ∈ codes := (mem_codes c).2 hc
        simp [this, show 1 ≤ c by omega]
  have prev : s'.prev = s.prev := by rw [e]
  obtain ⟨f1, f2, f3, f4, f5, f6, f7, f8⟩ := flush_state cfg s'
  have ax : s'.axesUpdated = false := by rw [e]; exact V.axes
  have hleft := flush_hand cfg s s' V.hand (by rw [e]) (by rw [e]) (fun hr _ => by
    have hm := M.rel
    rw [any_agree (g := fun _ => false)]
    · simp
    · intro c hc
      cases hb : s.buttons c
      · rfl
      · have hp : s'.prev c = true := by rw [prev, V.rest.prev]; exact hb
        have hb' : s'.buttons c = false := by
          cases hx : s'.buttons c
          · rfl
          · have : codes.any s'.buttons = true := List.any_eq_true.2 ⟨c, (mem_codes c).2 hc, hx⟩
            rw [none] at this; cases this
        rw [hm c hp hb'] at hr; cases hr)
  rw [none] at hleft
  simp only [Bool.false_eq_true, if_false] at hleft
  have hbut : (s'.flush cfg).1.buttons = s'.buttons := (flush_tells cfg s' h M).2.2.2.2.1
  refine ⟨⟨R', ?_, ?_, ?_, ?_, ?_, f6, ⟨?_, rfl⟩, ?_⟩, ?_⟩
  · rw [f1, e]; exact V.raw
  · rw [f4, ax, e]; exact V.misc
  · rw [hleft, e]; exact V.want
  · rw [f2, e]; exact V.want
  · rw [f5, ax, e]; exact V.changed
  · rw [hbut, lb]; simp [V.zero.1]
  · intro _; rw [hleft, f2]
  · rw [f8 ha, ax]; rfl

theorem step_view (cfg : Cfg) (s : Pad) (op : Op) (hp : Possible cfg op) (v : Seen) (h : Map → Bool) (V : VRel cfg s v h)
    (ha : (step cfg s op).1.aborted = false) :
    VRel cfg (step cfg s op).1 (v.step op) ((step cfg s op).2.foldl tell h) ∧
    (step cfg s op).2.filterMap axisOf = match op with
      | .frame evs => if s.opened then (axes.filter (moved evs)).map (fun a => (a,
          if (v.misc || moved evs .misc) && (evs.foldl hearsAbs v.val) .misc == 0 then Pos.up
          else place cfg v.left a ((evs.foldl hearsAbs v.val) a))) else []
      | _ => [] := by
  have hs : s.aborted = false := by
    cases hx : s.aborted with
    | false => rfl
    | true => rw [step_aborted cfg s op hx] at ha; dsimp only at ha; rw [hx] at ha; cases ha
  have R' := (step_tells cfg s op h v.keys V.rest).2 ha
  have hleft0 : v.left = if (List.range 768).any v.keys.down then v.left else v.want := by
    rw [← V.any]
    cases hb : codes.any s.buttons
    · have := V.hand hb; rw [V.left, V.want] at this; simpa using this
    · rfl
  unfold step at R' ha ⊢
  rw [if_neg (by rw [hs]; simp)] at R' ha ⊢
  cases op with
  | frame evs =>
    dsimp only at R' ha ⊢
    have ho : s.opened = v.keys.opened := V.rest.opened
    by_cases hop : s.opened = true
    · rw [if_pos hop] at R' ha ⊢
      rw [if_pos hop]
      have hvo : v.keys.opened = true := ho ▸ hop
      obtain ⟨g1, g2, g3, g3', g4, g5, g6, g7, g8⟩ := fold_abs evs s
      have M := fold_marked cfg evs h s V.rest.marked
      obtain ⟨d1, _, _⟩ := fold_down evs s v.keys.down V.rest.down
      obtain ⟨z1, z2⟩ := fold_zero cfg evs hp s v.keys.down V.zero.1 V.zero.2
      generalize evs.foldl kev s = s' at R' ha g1 g2 g3 g3' g4 g5 g6 g7 g8 M d1 z1 ⊢
      obtain ⟨f1, f2, f3, f4, f5, f6, f7, f8⟩ := flush_state cfg s'
      have hbut : (s'.flush cfg).1.buttons = s'.buttons := (flush_tells cfg s' h M).2.2.2.2.1
      have hany : codes.any s'.buttons = (List.range 768).any (evs.foldl hearsKey v.keys.down) := any_agree (fun c hc => by
        by_cases h0 : c = 0
        · subst h0; rw [z1, z2]
        · exact d1 c (by omega) hc)
      have hleft := flush_hand cfg s s' V.hand g5 g6 (fun hr hb => by
        rw [any_agree (g := fun _ => false)]
        · simp
        · intro c hc
          cases hbc : s.buttons c
          · rfl
          · have hpv : s'.prev c = true := by rw [g8, V.rest.prev]; exact hbc
            have hb' : s'.buttons c = false := by
              cases hx : s'.buttons c
              · rfl
              · have : codes.any s'.buttons = true := List.any_eq_true.2 ⟨c, (mem_codes c).2 hc, hx⟩
                rw [hb] at this; cases this
            rw [M.rel c hpv hb'] at hr; cases hr)
      have hax : s'.axesUpdated = axes.any (moved evs) := by rw [g4, V.axes]; rfl
      have hks : (v.step (.frame evs)).keys = v.keys.step (.frame evs) := rfl
      have kd : (v.keys.step (.frame evs)).down = evs.foldl hearsKey v.keys.down := by simp [Keys.step, hvo]
      refine ⟨⟨R', ?_, ?_, ?_, ?_, ?_, f6, ⟨?_, ?_⟩, ?_⟩, ?_⟩
      · rw [f1, g1, V.raw]; simp [Seen.step, Seen.hears, hvo]
      · rw [f4, hax, g2, V.misc]; simp [Seen.step, Seen.hears, hvo]
      · rw [hleft, hany, g5, g6, V.left, V.want]
        simp only [Seen.step, Seen.hears, hvo, if_true, kd]
      · rw [f2, g6, V.want]; simp [Seen.step, Seen.hears, hvo]
      · rw [f5, hax]
        split
        · rfl
        · rename_i hx
          funext a
          by_cases hm : a = .misc
          · subst hm; rw [g3', V.changed]
          · rw [g3 a hm, V.changed]
            simp only [Bool.false_or]
            cases hma : moved evs a
            · rfl
            · exfalso
              apply hx
              apply List.any_eq_true.2
              refine ⟨a, ?_, hma⟩
              cases a <;> first | exact absurd rfl hm | (simp [axes])
      · rw [hbut]; exact z1
      · rw [hks, kd]; exact z2
      · intro hb
        rw [hbut] at hb
        rw [hleft, hb, f2]; rfl
      · rw [f8 ha, hax]
        have key : axes.filterMap (shown cfg s') = (axes.filter (moved evs)).map (fun a => (a,
          if (v.misc || moved evs .misc) && (evs.foldl hearsAbs v.val) .misc == 0 then Pos.up
          else place cfg v.left a ((evs.foldl hearsAbs v.val) a))) := by
          have c : ∀ a ∈ axes, shown cfg s' a = if moved evs a then some (a,
              if (v.misc || moved evs .misc) && (evs.foldl hearsAbs v.val) .misc == 0 then Pos.up
              else place cfg v.left a ((evs.foldl hearsAbs v.val) a)) else none := by
            intro a hm
            have hne : a ≠ .misc := by rintro rfl; simp [axes] at hm
            unfold shown
            rw [g3 a hne, V.changed, g2, V.misc, g1, V.raw, g5, V.left]
            simp
          exact filterMap_if _ _ _ _ c
        split
        · exact key
        · rename_i hx
          have : axes.filter (moved evs) = [] := by
            rw [List.filter_eq_nil_iff]
            intro a hm hh
            exact hx (List.any_eq_true.2 ⟨a, hm, hh⟩)
          rw [this]; rfl
    · rw [if_neg hop] at R' ha ⊢
      rw [if_neg hop]
      have hvo : ¬ v.keys.opened = true := ho ▸ hop
      refine ⟨⟨R', V.raw.trans ?_, V.misc.trans ?_, ?_, V.want.trans ?_, V.changed, V.axes, ⟨V.zero.1, ?_⟩, V.hand⟩, rfl⟩
      · simp [Seen.step, Seen.hears, hvo]
      · simp [Seen.step, Seen.hears, hvo]
      · rw [V.left]; simp only [Seen.step, Seen.hears, hvo, if_false, Keys.step]; exact hleft0
      · simp [Seen.step, Seen.hears, hvo]
      · simp [Seen.step, Keys.step, hvo, V.zero.2]
  | suspend =>
    dsimp only at R' ha ⊢
    have ho : s.opened = v.keys.opened := V.rest.opened
    by_cases hop : s.opened = true
    · rw [if_pos hop] at R' ha ⊢
      have hvo : v.keys.opened = true := ho ▸ hop
      obtain ⟨W, f⟩ := suspend_view cfg s v h V ha
      refine ⟨⟨R', W.raw, W.misc, W.left.trans ?_, W.want, W.changed, W.axes, ⟨W.zero.1, ?_⟩, W.hand⟩, f⟩
      · simp [Seen.step, Seen.hears, Keys.step, hvo]
      · simp [Seen.step, Keys.step, hvo]
    · rw [if_neg hop] at R' ha ⊢
      have hvo : ¬ v.keys.opened = true := ho ▸ hop
      refine ⟨⟨R', V.raw, V.misc, V.left.trans ?_, V.want, V.changed, V.axes, ⟨V.zero.1, ?_⟩, V.hand⟩, rfl⟩
      · simp only [Seen.step, Seen.hears, Keys.step, hvo]; exact hleft0
      · simp [Seen.step, Keys.step, hvo, V.zero.2]
  | resume raw =>
    dsimp only at R' ha ⊢
    have ho : s.opened = v.keys.opened := V.rest.opened
    by_cases hop : s.opened = true
    · rw [if_pos hop] at R' ha ⊢
      have hvo : v.keys.opened = true := ho ▸ hop
      refine ⟨⟨R', V.raw.trans ?_, V.misc.trans ?_, V.left.trans ?_, V.want.trans ?_, V.changed, V.axes, ⟨V.zero.1, ?_⟩, V.hand⟩, rfl⟩
      · simp [Seen.step, Seen.hears, hvo]
      · simp [Seen.step, Seen.hears, hvo]
      · simp only [Seen.step, Seen.hears, Keys.step, hvo]; exact hleft0
      · simp [Seen.step, Seen.hears, hvo]
      · simp [Seen.step, Keys.step, V.zero.2]
    · rw [if_neg hop] at R' ha ⊢
      have hvo : ¬ v.keys.opened = true := ho ▸ hop
      refine ⟨⟨R', ?_, V.misc.trans ?_, V.left.trans ?_, V.want.trans ?_, V.changed, V.axes, ⟨V.zero.1, ?_⟩, V.hand⟩, rfl⟩
      · simp [Seen.step, Seen.hears, hvo]
      · simp [Seen.step, Seen.hears, hvo]
      · simp only [Seen.step, Seen.hears, Keys.step, hvo]; exact hleft0
      · simp [Seen.step, Seen.hears, hvo]
      · simp [Seen.step, Keys.step, V.zero.2]
  | setLeft b =>
    dsimp only at R' ha ⊢
    have hany := V.any
    unfold Pad.changeLeft at R' ha ⊢
    dsimp only at R' ha ⊢
    by_cases hb : codes.any s.buttons = true
    · rw [if_pos hb] at R' ha ⊢
      refine ⟨⟨R', V.raw, V.misc, V.left.trans ?_, rfl, V.changed, V.axes, V.zero, fun hx => ?_⟩, rfl⟩
      · rw [hb] at hany
        simp only [Seen.step, Seen.hears, Keys.step, ← hany, if_true]
      · dsimp only at hx; rw [hb] at hx; cases hx
    · rw [if_neg hb] at R' ha ⊢
      refine ⟨⟨R', V.raw, V.misc, ?_, rfl, V.changed, V.axes, V.zero, fun hx => rfl⟩, rfl⟩
      have hb' : codes.any s.buttons = false := by simpa using hb
      rw [hb'] at hany
      simp only [Seen.step, Seen.hears, Keys.step, ← hany, Bool.false_eq_true, if_false]
  | setDisabled b =>
    dsimp only at R' ha ⊢
    have hd : s.disabled = v.keys.disabled := V.rest.disabled
    by_cases hbd : b = s.disabled
    · rw [if_pos hbd] at R' ha ⊢
      have hk : v.keys.step (.setDisabled b) = v.keys := by
        rw [hbd, hd]
        cases hk : v.keys.disabled
        · simp only [Keys.step]; rw [← hk]
        · simp only [Keys.step, hk, if_true]
      refine ⟨⟨R', V.raw, V.misc, V.left.trans ?_, V.want, V.changed, V.axes, ⟨V.zero.1, ?_⟩, V.hand⟩, rfl⟩
      · simp only [Seen.step, Seen.hears, hk]; exact hleft0
      · simp only [Seen.step, hk]; exact V.zero.2
    · rw [if_neg hbd] at R' ha ⊢
      cases b with
      | true =>
        have hk : v.keys.disabled = false := by
          cases hx : v.keys.disabled
          · rfl
          · exact absurd (by rw [hd, hx]) hbd
        simp only [if_true] at R' ha ⊢
        obtain ⟨W, f⟩ := suspend_view cfg s v h V ha
        refine ⟨⟨R', W.raw, W.misc, W.left.trans ?_, W.want, W.changed, W.axes, ⟨W.zero.1, ?_⟩, W.hand⟩, f⟩
        · simp [Seen.step, Seen.hears, Keys.step, hk]
        · simp [Seen.step, Keys.step, hk]
      | false =>
        simp only [Bool.false_eq_true, if_false] at R' ha ⊢
        refine ⟨⟨R', V.raw, V.misc, V.left.trans ?_, V.want, V.changed, V.axes, ⟨V.zero.1, ?_⟩, V.hand⟩, rfl⟩
        · simp only [Seen.step, Seen.hears, Keys.step]; exact hleft0
        · simp only [Seen.step, Keys.step]; exact V.zero.2
  | leds l =>
    refine ⟨⟨R', V.raw, V.misc, V.left.trans ?_, V.want, V.changed, V.axes, V.zero, V.hand⟩, rfl⟩
    simp only [Seen.step, Seen.hears, Keys.step]; exact hleft0

theorem run_view (cfg : Cfg) (ops : List Op) : ∀ (s : Pad) (v : Seen) (h : Map → Bool), (∀ op ∈ ops, Possible cfg op) → VRel cfg s v h →
    (run cfg s ops).1.aborted = false → VRel cfg (run cfg s ops).1 (ops.foldl Seen.step v) ((run cfg s ops).2.foldl tell h) := by
  induction ops with
  | nil => intro s v h _ V _; exact V
  | cons op ops ih =>
    intro s v h hp V ha
    simp only [run] at ha ⊢
    have h1 : (step cfg s op).1.aborted = false := by
      cases hx : (step cfg s op).1.aborted with
      | false => rfl
      | true => rw [run_aborted cfg ops _ hx] at ha; dsimp only at ha; rw [hx] at ha; cases ha
    have V' := (step_view cfg s op (hp op (by simp)) v h V h1).1
    rw [List.foldl_append]
    exact ih _ _ _ (fun o ho => hp o (by simp [ho])) V' ha

/-! ### Assertions -/

theorem ring_alive (cfg : Cfg) (up : Bool) (a : Abs) (n : Nat) (s : Pad) (h : s.aborted = false)
    (hc : s.changed a = true → ∃ g ∈ s.groups, g.hasRing cfg n = true) : (s.ring cfg up a n).1 = s := by
  unfold Pad.ring
  split
  · rfl
  · rename_i hx
    split
    · rename_i hn
      rw [h] at hx
      obtain ⟨g, hg, hr⟩ := hc (by simpa using hx)
      rw [List.find?_eq_none] at hn
      exact absurd hr (hn g hg)
    · rfl

theorem strip_alive (cfg : Cfg) (up : Bool) (a : Abs) (n : Nat) (s : Pad) (h : s.aborted = false)
    (hc : s.changed a = true → ∃ g ∈ s.groups, g.hasStrip cfg n = true) : (s.strip cfg up a n).1 = s := by
  unfold Pad.strip
  split
  · rfl
  · rename_i hx
    split
    · rename_i hn
      rw [h] at hx
      obtain ⟨g, hg, hr⟩ := hc (by simpa using hx)
      rw [List.find?_eq_none] at hn
      exact absurd hr (hn g hg)
    · rfl

/-- The groups still have everything. -/
theorem covered_still {cfg : Cfg} {gs0 gs : List Group} (h : gs.map still = gs0.map still) (C : Covered cfg gs0) : Covered cfg gs := by
  have key : ∀ x ∈ gs0, ∃ g ∈ gs, still g = still x := by
    intro x hx
    have : still x ∈ gs.map still := h ▸ List.mem_map_of_mem hx
    obtain ⟨g, hg, he⟩ := List.mem_map.1 this
    exact ⟨g, hg, he⟩
  refine ⟨fun n hn => ?_, fun n hn => ?_, fun n hn => ?_⟩
  · obtain ⟨x, hx, hh⟩ := C.buttons n hn
    obtain ⟨g, hg, he⟩ := key x hx
    exact ⟨g, hg, by unfold Group.hasButton at hh ⊢; rw [(still_eq he).2.2.2.1]; exact hh⟩
  · obtain ⟨x, hx, hh⟩ := C.rings n hn
    obtain ⟨g, hg, he⟩ := key x hx
    exact ⟨g, hg, by unfold Group.hasRing at hh ⊢; rw [(still_eq he).2.2.2.2.1]; exact hh⟩
  · obtain ⟨x, hx, hh⟩ := C.strips n hn
    obtain ⟨g, hg, he⟩ := key x hx
    exact ⟨g, hg, by unfold Group.hasStrip at hh ⊢; rw [(still_eq he).2.2.2.2.2.1]; exact hh⟩

theorem notifyAxes_alive (cfg : Cfg) (s : Pad) (h : s.aborted = false) (C : Covered cfg s.groups) (P : Paired cfg)
    (hc : ∀ a ∈ axes, s.changed a = true → cfg.has a = true) : (s.notifyAxes cfg).1.aborted = false := by
  unfold Pad.notifyAxes
  dsimp only
  have r1 : s.changed .ring1 = true → ∃ g ∈ s.groups, g.hasRing cfg 0 = true := fun hx => C.rings 0 (by
    have := hc .ring1 (by simp [axes]) hx
    unfold Cfg.numRings; rw [if_pos this]; split <;> omega)
  have r2 : s.changed .ring2 = true → ∃ g ∈ s.groups, g.hasRing cfg 1 = true := fun hx => C.rings 1 (by
    have := hc .ring2 (by simp [axes]) hx
    unfold Cfg.numRings; rw [if_pos (P.1 this), if_pos this]; omega)
  have r3 : s.changed .strip1 = true → ∃ g ∈ s.groups, g.hasStrip cfg 0 = true := fun hx => C.strips 0 (by
    have := hc .strip1 (by simp [axes]) hx
    unfold Cfg.numStrips; rw [if_pos this]; split <;> omega)
  have r4 : s.changed .strip2 = true → ∃ g ∈ s.groups, g.hasStrip cfg 1 = true := fun hx => C.strips 1 (by
    have := hc .strip2 (by simp [axes]) hx
    unfold Cfg.numStrips; rw [if_pos (P.2 this), if_pos this]; omega)
  rw [ring_alive cfg _ .ring1 0 s h r1, ring_alive cfg _ .ring2 1 s h r2, strip_alive cfg _ .strip1 0 s h r3, strip_alive cfg _ .strip2 1 s h r4]
  exact h

theorem notifyMask_alive (cfg : Cfg) (p : Bool) (mask : Nat → Bool) (l : List Nat) (gs0 : List Group) (C : Covered cfg gs0) : ∀ (s : Pad) (cur : Nat → Nat),
    GRel gs0 s.groups cur → s.aborted = false → (notifyMask cfg p mask l s).1.aborted = false := by
  induction l with
  | nil => intro s cur _ h; exact h
  | cons c l ih =>
    intro s cur R h
    unfold notifyMask
    dsimp only
    have A : ∃ r, (if mask c then s.notifyButton cfg p c else (s, [])) = r ∧ GRel gs0 r.1.groups (r.2.foldl upd cur) ∧ r.1.aborted = false := by
      split
      · refine ⟨_, rfl, (notifyButton_chk cfg p s c gs0 cur R).2.1, ?_⟩
        unfold Pad.notifyButton
        rw [if_neg (by rw [h]; simp)]
        split
        · exact h
        · exact h
        · rename_i n hn
          split
          · rename_i hf
            obtain ⟨g, hg, hb⟩ := (covered_still R.same C).buttons n ((map_good cfg).lt c n hn)
            rw [List.find?_eq_none] at hf
            exact absurd hb (hf g hg)
          · exact h
      · exact ⟨_, rfl, R, h⟩
    obtain ⟨r, er, R', h'⟩ := A
    rw [er]
    exact ih r.1 _ R' h'

theorem flush_alive (cfg : Cfg) (s : Pad) (gs0 : List Group) (C : Covered cfg gs0) (P : Paired cfg) (cur : Nat → Nat) (R : GRel gs0 s.groups cur)
    (h : s.aborted = false) (hc : ∀ a ∈ axes, s.changed a = true → cfg.has a = true) : (s.flush cfg).1.aborted = false := by
  unfold Pad.flush
  generalize codes = l
  have A : ∃ a, (if s.axesUpdated then
      let r := s.notifyAxes cfg
      ({ r.1 with axesUpdated := false }, r.2)
    else (s, [])) = a ∧ (∃ cur, GRel gs0 a.1.groups cur) ∧ a.1.aborted = false := by
    split
    · exact ⟨_, rfl, ⟨_, (notifyAxes_chk cfg s gs0 cur R).2.1⟩, notifyAxes_alive cfg s h (covered_still R.same C) P hc⟩
    · exact ⟨_, rfl, ⟨_, R⟩, h⟩
  obtain ⟨a, ea, ⟨cur1, R1⟩, h1⟩ := A
  rw [ea]
  have B : ∃ b, (if a.1.released then
      let r := notifyMask cfg false (fun c => a.1.prev c && !a.1.buttons c) l a.1
      ({ r.1 with released := false }.changeLeft, r.2)
    else (a.1, [])) = b ∧ (∃ cur, GRel gs0 b.1.groups cur) ∧ b.1.aborted = false := by
    split
    · have c2 := notifyMask_chk cfg false (fun c => a.1.prev c && !a.1.buttons c) l gs0 a.1 _ R1
      have k := notifyMask_alive cfg false (fun c => a.1.prev c && !a.1.buttons c) l gs0 C a.1 _ R1 h1
      obtain ⟨lf, el⟩ := changeLeft_state { (notifyMask cfg false (fun c => a.1.prev c && !a.1.buttons c) l a.1).1 with released := false }
      refine ⟨_, rfl, ?_, ?_⟩
      · dsimp only; rw [el]; exact ⟨_, c2.2.1⟩
      · dsimp only; rw [el]; exact k
    · exact ⟨_, rfl, ⟨_, R1⟩, h1⟩
  obtain ⟨b, eb, ⟨cur2, R2⟩, h2⟩ := B
  dsimp only
  rw [eb]
  split
  · exact notifyMask_alive cfg true (fun c => b.1.buttons c && !b.1.prev c) l gs0 C b.1 _ R2 h2
  · exact h2

theorem step_alive (cfg : Cfg) (s : Pad) (op : Op) (gs0 : List Group) (C : Covered cfg gs0) (P : Paired cfg) (cur : Nat → Nat) (R : GRel gs0 s.groups cur)
    (hp : Possible cfg op) (h : s.aborted = false) (hc : s.changed = fun _ => false) : (step cfg s op).1.aborted = false := by
  have sus : (s.suspend cfg).1.aborted = false := by
    unfold Pad.suspend
    obtain ⟨b, p, r, e⟩ := lift_state (codes.filter (fun c => decide (1 ≤ c))) s
    rw [e]
    exact flush_alive cfg _ gs0 C P cur R h (fun a _ hx => by dsimp only at hx; rw [hc] at hx; cases hx)
  unfold step
  rw [if_neg (by rw [h]; simp)]
  cases op with
  | frame evs =>
    dsimp only
    split
    · have g := fold_groups evs s
      obtain ⟨g1, g2, g3, g3', g4, g5, g6, g7, g8⟩ := fold_abs evs s
      refine flush_alive cfg _ gs0 C P cur (g.1 ▸ R) (by rw [g7]; exact h) (fun a ha hx => ?_)
      have hne : a ≠ .misc := by rintro rfl; simp [axes] at ha
      rw [g3 a hne, hc, Bool.false_or] at hx
      unfold moved at hx
      obtain ⟨e, he, hh⟩ := List.any_eq_true.1 hx
      cases e with
      | abs b v =>
        have := hp _ he
        dsimp only at hh this
        rw [← eq_of_beq hh]; exact this
      | key c v => cases hh
    · exact h
  | suspend => dsimp only; split
               · exact sus
               · exact h
  | resume raw => dsimp only; split <;> exact h
  | setLeft b =>
    dsimp only
    obtain ⟨l, e⟩ := changeLeft_state { s with wantLeft := b }
    rw [e]; exact h
  | setDisabled b =>
    dsimp only
    split
    · exact h
    · split
      · exact sus
      · exact h
  | leds l => exact h

theorem run_alive (cfg : Cfg) (ops : List Op) (gs0 : List Group) (C : Covered cfg gs0) (P : Paired cfg) : ∀ (s : Pad) (cur : Nat → Nat) (v : Seen) (hh : Map → Bool),
    GRel gs0 s.groups cur → (∀ op ∈ ops, Possible cfg op) → s.aborted = false → VRel cfg s v hh → (run cfg s ops).1.aborted = false := by
  induction ops with
  | nil => intro s cur v hh _ _ h _; exact h
  | cons op ops ih =>
    intro s cur v hh R hp h V
    have h1 := step_alive cfg s op gs0 C P cur R (hp op (by simp)) h V.changed
    exact ih _ _ _ _ (step_chk cfg s op gs0 cur R).2.1 (fun o ho => hp o (by simp [ho])) h1 (step_view cfg s op (hp op (by simp)) v hh V h1).1

theorem create_view (cfg : Cfg) (lit : Lit) (raw : Abs → Int) (s : Pad) (h : create cfg lit raw = some s) :
    VRel cfg s { val := raw } (fun _ => false) := by
  have R := create_rest cfg lit raw s h
  unfold create at h
  split at h
  · cases h
  · injection h with h
    subst h
    exact ⟨R, rfl, rfl, rfl, rfl, rfl, rfl, ⟨rfl, rfl⟩, fun _ => rfl⟩

/-- The modes of a list of groups. -/
def modesOf (gs : List Group) (i : Nat) : Nat := match gs.find? (fun g => g.index == i) with | some g => g.mode | none => 0

theorem create_rel (cfg : Cfg) (lit : Lit) (raw : Abs → Int) (s : Pad) (h : create cfg lit raw = some s) :
    cfg.groups lit = some s.groups ∧ GRel s.groups s.groups (modesOf s.groups) ∧ s.lit = lit ∧ s.aborted = false := by
  unfold create at h
  split at h
  · cases h
  · rename_i gs hg
    injection h with h
    subst h
    have G := groups_gok cfg lit gs hg
    refine ⟨hg, ⟨rfl, fun g hm => ?_, G⟩, rfl, rfl⟩
    unfold modesOf
    cases hf : gs.find? (fun x => x.index == g.index) with
    | none =>
      rw [List.find?_eq_none] at hf
      exact absurd (beq_self_eq_true g.index) (hf g hm)
    | some x =>
      have hx := List.mem_of_find?_eq_some hf
      have hp := List.find?_some hf
      rw [nodup_index G.nodup hx hm (by simpa using hp)]

end Libinput.Pad
