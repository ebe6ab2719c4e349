import Verif.Tablet.Values
/-
When the tip of a pen is down.
-/
namespace Libinput.Tablet

/-! ### The specification -/

/-- A part of the range of an axis, in percent, truncated. -/
def part (r : Range) (p : Int) : Int := Int.tdiv (100 * r.min + (r.max - r.min) * p) 100

/-- The pressure from which on a pen touches: 5 % of the range, unless the quirks file says something sensible. -/
def downAt (cfg : Cfg) : Int := match cfg.quirk with
  | some (lo, hi) => if lo < hi then hi else part (cfg.range .pressure) 5
  | none => part (cfg.range .pressure) 5

/-- The pressure at which a pen stops touching: 1 % of the range, unless the quirks file says something sensible. -/
def upAt (cfg : Cfg) : Int := match cfg.quirk with
  | some (lo, hi) => if lo < hi then lo else part (cfg.range .pressure) 1
  | none => part (cfg.range .pressure) 1

/-- The thresholds of a pen.  A pen that is as good as new has those above.  A worn pen, one whose pressure is `o` when nothing
touches it, at most 20 % of the range, stops touching at `o`, and has to be pressed harder by `o` to touch. -/
def Limits (cfg : Cfg) (worn : Bool) (lo hi : Int) : Prop :=
  lo = upAt cfg ∧ hi = downAt cfg ∨
  worn = true ∧ cfg.has .distance = true ∧ ∃ o, (cfg.range .pressure).min ≤ o ∧ o ≤ part (cfg.range .pressure) 20 ∧
    lo = o ∧ hi = downAt cfg + (o - (cfg.range .pressure).min)

/-- What the kernel has said last. -/
structure Dev where
  opened : Bool
  val : Axis → Int

def hears (d : Axis → Int) : KEv → Axis → Int
  | .abs a v => fun b => if b = a then v else d b
  | _ => d

/-- A suspended tablet hears nothing; when it is resumed, the values are read anew. -/
def Dev.step (d : Dev) : Op → Dev
  | .frame evs _ => if d.opened then { d with val := evs.foldl hears d.val } else d
  | .suspend _ => { d with opened := false }
  | .resume raw => if d.opened then d else ⟨true, raw⟩
  | _ => d

/-- Events that tell how the pen is; not those of its buttons, and not that it leaves. -/
def shows : Ev → Bool
  | .tip _ _ | .axis _ | .prox true _ => true
  | _ => false

def isOut : Ev → Bool
  | .prox false _ => true
  | _ => false

def isIn : Ev → Bool
  | .prox true _ => true
  | _ => false

/-! ### The tools -/

def Pok (cfg : Cfg) (w : Bool) (t : Tool) : Prop :=
  .pressure ∈ t.caps ∧ t.upper = downAt cfg ∧
  (t.hasOffset = false ∧ t.lower = upAt cfg ∨
   w = true ∧ t.hasOffset = true ∧ cfg.has .distance = true ∧ t.lower = (cfg.range .pressure).min ∧
     (cfg.range .pressure).min ≤ t.offset ∧ t.offset ≤ part (cfg.range .pressure) 20)

theorem part_percent (r : Range) (p : Int) : percent r p = part r p := by
  unfold percent part; congr 1; omega

theorem newTool_pok (cfg : Cfg) (w : Bool) (k : Kind) (id serial : Nat) (hp : cfg.has .pressure = true) (hc : .pressure ∈ cfg.toolCaps k id) :
    Pok cfg w (newTool cfg k id serial) := by
  unfold newTool Pok downAt upAt
  dsimp only
  rw [if_pos hp]
  split
  · rename_i lo hi hq
    simp only [part_percent]
    by_cases h : lo < hi
    · rw [if_neg (by omega)]
      refine ⟨hc, ?_, .inl ⟨rfl, ?_⟩⟩ <;> simp [h, hq]
    · rw [if_pos (by omega)]
      refine ⟨hc, ?_, .inl ⟨rfl, ?_⟩⟩ <;> simp [h, hq]
  · rename_i hq
    simp only [part_percent]
    refine ⟨hc, ?_, .inl ⟨?_, ?_⟩⟩ <;> simp [hq]

/-- Whether the values are those of a worn pen that comes: far above the tablet, and yet with some pressure. -/
def looksWorn (cfg : Cfg) (v : Axis → Int) : Prop :=
  (cfg.range .pressure).min < v .pressure ∧ v .pressure ≤ part (cfg.range .pressure) 20 ∧ part (cfg.range .distance) 50 ≤ v .distance

theorem detectOffset_pok (cfg : Cfg) (w : Bool) (v : Vals) (e : Bool) (t : Tool) (ht : Pok cfg w t)
    (hm : (cfg.range .pressure).min ≤ v.raw .pressure) (hw : w = false → e = true → ¬ looksWorn cfg v.raw) :
    Pok cfg w (v.detectOffset cfg e t) := by
  unfold Vals.detectOffset
  dsimp only
  simp only [part_percent]
  split
  · exact ht
  · split
    · exact ht
    · rename_i hd
      have hd' : cfg.has .distance = true := by
        cases h : cfg.has .distance
        · exact absurd (.inr h) hd
        · rfl
      obtain ⟨h1, h2, h3⟩ := ht
      split
      · split
        · refine ⟨h1, h2, ?_⟩
          rcases h3 with ⟨h, _⟩ | ⟨h3, h4, h5, h6, h7, h8⟩
          · simp_all
          · exact .inr ⟨h3, h4, h5, h6, hm, by dsimp only; omega⟩
        · exact ⟨h1, h2, h3⟩
      · split
        · exact ⟨h1, h2, h3⟩
        · split
          · exact ⟨h1, h2, h3⟩
          · rename_i he
            split
            · exact ⟨h1, h2, h3⟩
            · split
              · exact ⟨h1, h2, h3⟩
              · refine ⟨h1, h2, .inr ⟨?_, rfl, hd', rfl, hm, by dsimp only; omega⟩⟩
                cases w
                · exact absurd ⟨by omega, by omega, by omega⟩ (hw rfl (by simpa using he))
                · rfl

/-! ### A round -/

/-- Whether a pen touches: it has to be pressed at least as much as `hi` to touch, and more than `lo` to go on touching. -/
def touches (lo hi p : Int) (before : Bool) : Bool := if before then decide (lo < p) else decide (hi ≤ p)

theorem detectContact_tip (cfg : Cfg) (w : Bool) (s : Pen) (t : Tool) (ht : Pok cfg w t) (hp : cfg.has .pressure = true)
    (h1 : s.st.enterContact = false) (h2 : s.st.leaveContact = false) :
    ∃ lo hi, Limits cfg w lo hi ∧ (s.detectContact cfg t).st.sent.inContact = touches lo hi (s.v.raw .pressure) s.st.inContact := by
  obtain ⟨c, hu, hl⟩ := ht
  unfold Pen.detectContact Vals.adjusted
  rw [if_neg (by simpa using c), if_neg (by simp [hp])]
  dsimp only
  rcases hl with ⟨a1, a2⟩ | ⟨hw, a1, a2, a3, a4, a5⟩
  · refine ⟨t.lower, t.upper, .inl ⟨a2, hu⟩, ?_⟩
    rw [a1]
    simp only [Bool.false_eq_true, if_false, touches]
    cases hi : s.st.inContact <;> simp only [and_true, and_false, if_false, if_true, Bool.false_eq_true, reduceCtorEq] <;> split <;>
      simp_all [Bits.sent]
  · refine ⟨t.offset, t.upper + (t.offset - (cfg.range .pressure).min), .inr ⟨hw, a2, t.offset, a4, a5, rfl, by rw [hu]⟩, ?_⟩
    rw [a1, a3]
    simp only [if_true, touches]
    cases hi : s.st.inContact <;> simp only [and_true, and_false, if_false, if_true, Bool.false_eq_true, reduceCtorEq] <;> split <;>
      simp_all [Bits.sent] <;> omega

theorem send_out (cfg : Cfg) (s : Pen) (t : Tool) :
    (s.st.leaving = false → ∀ e ∈ events (s.send cfg t).2, isOut e = false) ∧
    (s.st.leaving = true → ∃ x d, events (s.send cfg t).2 = x ++ [.prox false d]) ∧
    (s.st.entering = true → ∃ e ∈ events (s.send cfg t).2, isIn e = true) ∧
    (s.st.entering = false → s.st.enterContact = false → s.st.leaveContact = false → s.st.axesUpdated = false →
      ∀ e ∈ events (s.send cfg t).2, shows e = false) := by
  obtain ⟨c₁, a₁, c₂, a₂, c₃, a₃, a₄, e⟩ := send_events cfg s t
  rw [e]
  clear e
  refine ⟨?_, ?_, ?_, ?_⟩
  · intro h e he
    rw [h] at he
    simp only [List.mem_append] at he
    rcases he with (((he | he) | he) | he) | he
    · split at he
      · rw [List.mem_singleton.1 he]; rfl
      · cases he
    · split at he
      · rw [List.mem_singleton.1 he]; rfl
      · split at he
        · rw [List.mem_singleton.1 he]; rfl
        · split at he
          · rw [List.mem_singleton.1 he]; rfl
          · cases he
    · split at he
      · obtain ⟨c, _, rfl⟩ := List.mem_map.1 he; rfl
      · cases he
    · split at he
      · obtain ⟨c, _, rfl⟩ := List.mem_map.1 he; rfl
      · cases he
    · simp at he
  · intro h
    rw [h]
    exact ⟨_, _, rfl⟩
  · intro h
    rw [h]
    exact ⟨.prox true ⟨t.key, false, c₁, a₁⟩, by simp, rfl⟩
  · intro h1 h2 h3 h4 e he
    simp only [h1, h2, h3, h4, Bool.false_eq_true, if_false, Bool.false_and, List.nil_append, List.mem_append] at he
    rcases he with (he | he) | he
    · split at he
      · obtain ⟨c, _, rfl⟩ := List.mem_map.1 he; rfl
      · cases he
    · split at he
      · obtain ⟨c, _, rfl⟩ := List.mem_map.1 he; rfl
      · cases he
    · split at he
      · rw [List.mem_singleton.1 he]; rfl
      · cases he

theorem send_raw (cfg : Cfg) (s : Pen) (t : Tool) : (s.send cfg t).1.v.raw = s.v.raw := by
  have hu : ∀ v : Vals, ∀ h k, (v.updateAxes cfg h k t).raw = v.raw := by
    intro v h k
    unfold Vals.updateAxes
    split
    · rfl
    · unfold Vals.updateRotation
      have h1 : ∀ w : Vals, w.updateWheel.raw = w.raw := by intro w; unfold Vals.updateWheel; split <;> rfl
      have h2 : ∀ w : Vals, ∀ l, (w.updateTilt cfg l).raw = w.raw := by intro w l; unfold Vals.updateTilt; split <;> rfl
      have h3 : ∀ w : Vals, (w.updateSlider cfg).raw = w.raw := by intro w; unfold Vals.updateSlider; split <;> rfl
      have h4 : ∀ w : Vals, (w.updateDistance cfg).raw = w.raw := by intro w; unfold Vals.updateDistance; split <;> rfl
      have h5 : ∀ w : Vals, (w.updatePressure cfg t).raw = w.raw := by intro w; unfold Vals.updatePressure; split <;> rfl
      have h6 : ∀ w : Vals, ∀ r, (w.updateXY cfg r).raw = w.raw := by intro w r; unfold Vals.updateXY; split <;> rfl
      have h7 : (((((((v.updateXY cfg h.rotate).updatePressure cfg t).updateDistance cfg).updateSlider cfg).updateTilt cfg h.left).updateWheel)).raw = v.raw := by
        rw [h1, h2, h3, h4, h5, h6]
      dsimp only
      generalize (((((((v.updateXY cfg h.rotate).updatePressure cfg t).updateDistance cfg).updateSlider cfg).updateTilt cfg h.left).updateWheel)) = w at h7 ⊢
      rw [← h7]
      repeat' split
      all_goals rfl
  have hsm : ∀ v : Vals, ∀ j, (v.smoothen cfg j).1.raw = v.raw := by
    intro v j
    unfold Vals.smoothen
    dsimp only
    repeat' split
    all_goals rfl
  unfold Pen.send
  dsimp only
  have h1 : (if s.st.leaving = true then ({ s with st.axesUpdated := false }, s.v.axes) else s.notifyAxes cfg t).1.v.raw = s.v.raw := by
    split
    · rfl
    · exact (hsm _ _).trans (hu _ _ _)
  generalize (if s.st.leaving = true then ({ s with st.axesUpdated := false }, s.v.axes) else s.notifyAxes cfg t) = r at h1 ⊢
  have h2 : (r.1.sendProxIn t.key r.2).1.v.raw = s.v.raw := by unfold Pen.sendProxIn; split <;> exact h1
  generalize r.1.sendProxIn t.key r.2 = p at h2 ⊢
  have h3 : (p.1.sendTip t.key r.2).1.v.raw = s.v.raw := by unfold Pen.sendTip; split <;> [exact h2; (split <;> exact h2)]
  generalize p.1.sendTip t.key r.2 = q at h3 ⊢
  have h4 : (if q.2.2 = true then (q.1, []) else q.1.sendAxes t.key r.2).1.v.raw = s.v.raw := by
    split
    · exact h3
    · unfold Pen.sendAxes; split <;> exact h3
  generalize (if q.2.2 = true then (q.1, []) else q.1.sendAxes t.key r.2) = x at h4 ⊢
  unfold Pen.sendButtons Pen.sendProxOut
  dsimp only
  split
  · dsimp only
    have h5 : ∀ z : Pen, z.applyRotation.v = z.v := by intro z; unfold Pen.applyRotation; split <;> rfl
    rw [h5, (changeLeft_v _).1]
    exact h4
  · exact h4

/-- The tools, the pressure and what the tablet is told of. -/
structure Tame (cfg : Cfg) (w : Bool) (s : Pen) : Prop where
  tools : ∀ t ∈ s.t.tools, Pok cfg w t
  min : (cfg.range .pressure).min ≤ s.v.raw .pressure

/-- A device with pressure, whose pens can feel it. -/
structure Feels (cfg : Cfg) : Prop where
  pressure : cfg.has .pressure = true
  caps : ∀ k id, k.isCursor = false → .pressure ∈ cfg.toolCaps k id

theorem putTool_pok {cfg : Cfg} {w : Bool} (s : ToolSt) (t : Tool) (hs : ∀ u ∈ s.tools, Pok cfg w u) (ht : Pok cfg w t) : ∀ u ∈ (s.putTool t).tools, Pok cfg w u := by
  intro u hu
  obtain ⟨x, hx, rfl⟩ := List.mem_map.1 hu
  split
  · exact ht
  · exact hs x hx

theorem getTool_pok {cfg : Cfg} {w : Bool} (F : Feels cfg) (s : ToolSt) (k : Kind) (hk : k.isCursor = false) (hs : ∀ u ∈ s.tools, Pok cfg w u) :
    (∀ u ∈ (s.getTool cfg k).1.tools, Pok cfg w u) ∧ Pok cfg w (s.getTool cfg k).2 := by
  unfold ToolSt.getTool
  dsimp only
  split
  · rename_i t ht
    refine ⟨hs, hs t ?_⟩
    split at ht
    · exact List.mem_of_find?_eq_some ht
    · cases ht
  · split
    · rename_i t ht
      exact ⟨hs, hs t (List.mem_of_find?_eq_some ht)⟩
    · have := newTool_pok cfg w k s.id s.serial F.pressure (F.caps k s.id hk)
      refine ⟨fun u hu => ?_, this⟩
      rcases List.mem_cons.1 hu with rfl | h
      · exact this
      · exact hs u h

/-- What happens to a pen before the events are sent. -/
theorem prepare_tip {cfg : Cfg} {w : Bool} (F : Feels cfg) (s : Pen) (t : Tool) (T : Tame cfg w s) (ht : Pok cfg w t)
    (h1 : s.st.enterContact = false) (h2 : s.st.leaveContact = false)
    (hw : w = false → s.st.entering = true → ¬ looksWorn cfg s.v.raw) :
    Tame cfg w (s.prepare cfg t).1 ∧ (s.prepare cfg t).1.v.raw = s.v.raw ∧
    (s.prepare cfg t).1.st.leaving = s.st.leaving ∧ (s.prepare cfg t).1.st.entering = s.st.entering ∧
    (s.prepare cfg t).1.st.axesUpdated = s.st.axesUpdated ∧ (s.prepare cfg t).1.st.inContact = s.st.inContact ∧
    (s.st.leaving = false → (s.st.axesUpdated = true ∨ s.st.entering = true →
        ∃ lo hi, Limits cfg w lo hi ∧ (s.prepare cfg t).1.st.sent.inContact = touches lo hi (s.v.raw .pressure) s.st.inContact) ∧
      (s.st.axesUpdated = false → s.st.entering = false →
        (s.prepare cfg t).1.st.enterContact = false ∧ (s.prepare cfg t).1.st.leaveContact = false)) ∧
    (s.st.leaving = true → (s.prepare cfg t).1.st.sent.inContact = false) := by
  unfold Pen.prepare
  split
  · rename_i hl
    refine ⟨⟨T.tools, T.min⟩, rfl, rfl, rfl, rfl, rfl, fun h => ?_, fun _ => ?_⟩
    · rw [hl] at h; cases h
    · simp [Bits.sent, h1, h2]
  · rename_i hl
    split
    · rename_i hmoved
      dsimp only
      have I0 : ∃ c, (if s.st.entering = true then { s with v.changed := t.caps } else s) = { s with v.changed := c } := by
        split
        · exact ⟨_, rfl⟩
        · exact ⟨s.v.changed, rfl⟩
      obtain ⟨c, ec⟩ := I0
      rw [ec]
      dsimp only
      have ht' := detectOffset_pok cfg w { s.v with changed := c } s.st.entering t ht T.min hw
      generalize Vals.detectOffset cfg { s.v with changed := c } s.st.entering t = t' at ht' ⊢
      obtain ⟨lo, hi, L, e⟩ := detectContact_tip cfg w { s with v.changed := c, t := s.t.putTool t' } t' ht' F.pressure h1 h2
      obtain ⟨e1, l1, es, _⟩ := detectContact_state cfg { s with v.changed := c, t := s.t.putTool t' } t'
      rw [es] at e ⊢
      dsimp only at e ⊢
      have hr : ∀ v : Vals, ∀ k, ((v.sanitizePressure cfg t').sanitizeRotation k).raw = v.raw := by
        intro v k
        have a1 : (v.sanitizePressure cfg t').raw = v.raw := by
          unfold Vals.sanitizePressure
          dsimp only
          repeat' split
          all_goals rfl
        have a2 : ∀ v : Vals, (v.sanitizeRotation k).raw = v.raw := by
          intro v
          unfold Vals.sanitizeRotation
          repeat' split
          all_goals rfl
        rw [a2, a1]
      refine ⟨⟨putTool_pok s.t t' T.tools ht', ?_⟩, ?_, rfl, rfl, rfl, rfl, fun _ => ⟨fun _ => ⟨lo, hi, L, e⟩, fun a1 a2 => ?_⟩, fun h => absurd h hl⟩
      · dsimp only; rw [hr]; exact T.min
      · rw [hr]
      · rw [a1, a2] at hmoved; cases hmoved
    · rename_i hx
      refine ⟨T, rfl, rfl, rfl, rfl, rfl, fun _ => ⟨fun h => ?_, fun _ _ => ⟨h1, h2⟩⟩, fun h => absurd h hl⟩
      simp only [Bool.or_eq_true] at hx
      exact absurd h hx

/-- The tip after a round. -/
theorem pass_tip {cfg : Cfg} {w : Bool} (F : Feels cfg) (s : Pen) (j : Bool) (now : Nat) (f : Nat → Bool) (b : Bool) (P : Pens cfg s f b) (A : Ahead s f)
    (T : Tame cfg w s) (hw : w = false → (∃ e ∈ events (s.pass cfg j now).2.1, isIn e = true) → ¬ looksWorn cfg s.v.raw) :
    Tame cfg w (s.pass cfg j now).1 ∧ (s.pass cfg j now).1.v.raw = s.v.raw ∧
    ((∀ e ∈ events (s.pass cfg j now).2.1, isOut e = false) → (∃ e ∈ events (s.pass cfg j now).2.1, shows e = true) →
      ∃ lo hi, Limits cfg w lo hi ∧ (events (s.pass cfg j now).2.1).foldl tipStep b = touches lo hi (s.v.raw .pressure) b) ∧
    ((∃ e ∈ events (s.pass cfg j now).2.1, isOut e = true) → (events (s.pass cfg j now).2.1).foldl tipStep b = false ∧
      ∃ x d, events (s.pass cfg j now).2.1 = x ++ [.prox false d]) ∧
    ((s.pass cfg j now).2.2 = true → ∃ e ∈ events (s.pass cfg j now).2.1, isOut e = true) := by
  obtain ⟨pb1, pb2, pb3⟩ := toolChange_pens s j now P.now P.prev P.pens
  obtain ⟨t1, t2, t3⟩ := P.tip F.pressure
  have RD := pass_clean cfg s j now f b P A
  obtain ⟨n, p, kd, q, st', ec, hst, ha⟩ := toolChange_any s j now
  have hag := RD.again
  have hstay := RD.stays
  clear RD
  revert hw hag hstay
  unfold Pen.pass
  dsimp only
  rw [ec] at pb1 pb2 pb3 ⊢
  dsimp only at pb1 pb2 pb3 ⊢
  have hc : st'.enterContact = false ∧ st'.leaveContact = false ∧ st'.inContact = s.st.inContact ∧ st'.outOfRange = false := by
    rcases hst with ⟨rfl, _⟩ | ⟨rfl, _⟩ | ⟨rfl, _⟩ <;> exact ⟨t2, t3, rfl, P.range⟩
  have none : ∀ (x : Pen), x.t.tools = s.t.tools ∨ (∀ t ∈ x.t.tools, Pok cfg w t) → x.v = s.v → Tame cfg w x ∧ x.v.raw = s.v.raw := by
    intro x hx hv
    refine ⟨⟨?_, by rw [hv]; exact T.min⟩, by rw [hv]⟩
    rcases hx with hx | hx
    · rw [hx]; exact T.tools
    · exact hx
  cases kd with
  | none =>
    intro hw _ _
    obtain ⟨n1, n2⟩ := none { s with t := { s.t with now := n, prev := p, kind := Option.none }, q := q, st := st' } (.inl rfl) rfl
    refine ⟨n1, n2, fun _ h => ?_, fun h => ?_, fun h => (by cases h)⟩
    · obtain ⟨e, he, _⟩ := h; cases he
    · obtain ⟨e, he, _⟩ := h; cases he
  | some k =>
    dsimp only
    have hk := pb3 k rfl
    obtain ⟨g1, g2⟩ := getTool_pok (cfg := cfg) (w := w) F { s.t with now := n, prev := p, kind := some k } k hk T.tools
    generalize ToolSt.getTool cfg _ k = g at g1 g2 ⊢
    rw [hk]
    simp only [Bool.false_eq_true, if_false, hc.2.2.2, Bool.or_false]
    by_cases ho : st'.outOfProx = true
    · rw [if_pos ho]
      intro hw _ _
      obtain ⟨n1, n2⟩ := none { s with t := g.1, q := q, st := st' } (.inr g1) rfl
      refine ⟨n1, n2, fun _ h => ?_, fun h => ?_, fun h => (by cases h)⟩
      · obtain ⟨e, he, _⟩ := h; cases he
      · obtain ⟨e, he, _⟩ := h; cases he
    · rw [if_neg ho]
      dsimp only
      intro hw hag hstay
      obtain ⟨n1, n2⟩ := none { s with t := g.1, q := q, st := st' } (.inr g1) rfl
      have hent : (({ s with t := g.1, q := q, st := st' } : Pen).prepare cfg g.2).1.st.entering = st'.entering := by
        obtain ⟨_, v, l, bb, e, lv, r, ep⟩ := prepare_any cfg { s with t := g.1, q := q, st := st' } g.2
        rw [ep]
      obtain ⟨o1, o2, o3, o4⟩ := send_out cfg (({ s with t := g.1, q := q, st := st' } : Pen).prepare cfg g.2).1 (({ s with t := g.1, q := q, st := st' } : Pen).prepare cfg g.2).2
      obtain ⟨p1, p2, p3, p4, p5, p6, p7, p8⟩ := prepare_tip (w := w) F { s with t := g.1, q := q, st := st' } g.2 n1 g2 hc.1 hc.2.1
        (fun a1 a2 => hw a1 (o3 (hent.trans a2)))
      have sr := send_raw cfg (({ s with t := g.1, q := q, st := st' } : Pen).prepare cfg g.2).1 (({ s with t := g.1, q := q, st := st' } : Pen).prepare cfg g.2).2
      have stt := send_tip cfg (({ s with t := g.1, q := q, st := st' } : Pen).prepare cfg g.2).1 (({ s with t := g.1, q := q, st := st' } : Pen).prepare cfg g.2).2
        (fun h => p8 (p3.symm.trans h))
      obtain ⟨v', h', es⟩ := send_state cfg (({ s with t := g.1, q := q, st := st' } : Pen).prepare cfg g.2).1 (({ s with t := g.1, q := q, st := st' } : Pen).prepare cfg g.2).2
      have et : ((({ s with t := g.1, q := q, st := st' } : Pen).prepare cfg g.2).1.send cfg (({ s with t := g.1, q := q, st := st' } : Pen).prepare cfg g.2).2).1.t =
        (({ s with t := g.1, q := q, st := st' } : Pen).prepare cfg g.2).1.t := by rw [es]
      have eo : ((({ s with t := g.1, q := q, st := st' } : Pen).prepare cfg g.2).1.send cfg (({ s with t := g.1, q := q, st := st' } : Pen).prepare cfg g.2).2).1.st =
        (({ s with t := g.1, q := q, st := st' } : Pen).prepare cfg g.2).1.st.sent := by rw [es]
      clear es
      dsimp only at p1 p2 p3 p4 p5 p6 p7 p8 hent
      have ho2 : (({ s with t := g.1, q := q, st := st' } : Pen).prepare cfg g.2).1.st.outOfProx = false := by
        obtain ⟨_, v, l, bb, e, lv, r, ep⟩ := prepare_any cfg { s with t := g.1, q := q, st := st' } g.2
        rw [ep]; simpa using ho
      generalize Pen.prepare cfg _ g.2 = z at *
      have hb : b = z.1.st.inContact := by rw [t1, p6, hc.2.2.1]
      have key : (∃ e ∈ events (z.1.send cfg z.2).2, isOut e = true) → z.1.st.leaving = true := by
        rintro ⟨e, he, h⟩
        cases hl : z.1.st.leaving
        · rw [o1 hl e he] at h; cases h
        · rfl
      refine ⟨⟨by rw [et]; exact p1.tools, by rw [sr]; exact p1.min⟩, sr.trans p2, ?_, ?_, ?_⟩
      · rintro h1 ⟨e, he, hs⟩
        have hl : st'.leaving = false := by
          rw [← p3]
          cases hl : z.1.st.leaving
          · rfl
          · obtain ⟨x, d, ex⟩ := o2 hl
            have := h1 (.prox false d) (by rw [ex]; simp)
            cases this
        rw [hb, stt.2]
        obtain ⟨q1, q2⟩ := p7 hl
        by_cases hx : st'.axesUpdated = true ∨ st'.entering = true
        · obtain ⟨lo, hi, L, e⟩ := q1 hx
          exact ⟨lo, hi, L, by rw [p6]; exact e⟩
        · simp only [not_or, Bool.not_eq_true] at hx
          obtain ⟨r1, r2⟩ := q2 hx.1 hx.2
          have := o4 (p4.trans hx.2) r1 r2 (p5.trans hx.1) e he
          rw [this] at hs; cases hs
      · intro h
        have hl := key h
        rw [hb, stt.2]
        exact ⟨p8 (p3.symm.trans hl), o2 hl⟩
      · intro h
        have hl : z.1.st.leaving = true := by
          have := (hag h).2
          rw [eo] at this
          simpa [Bits.sent, ho2] using this
        obtain ⟨x, d, ex⟩ := o2 hl
        exact ⟨.prox false d, by rw [ex]; simp, rfl⟩

/-! ### A frame -/

/-- The frame tells how the pen is, and it does not leave afterwards. -/
def Tells (es : List Ev) : Prop := ∃ x e y, es = x ++ e :: y ∧ shows e = true ∧ ∀ e' ∈ y, isOut e' = false

/-- The tip after the events `es` of a frame; it was `b` before. -/
def Agrees (cfg : Cfg) (w : Bool) (p : Int) (b : Bool) (es : List Ev) : Prop :=
  Tells es → ∃ lo hi, Limits cfg w lo hi ∧
    es.foldl tipStep b = touches lo hi p (if es.any isOut then false else b)

theorem round_agrees {cfg : Cfg} {w : Bool} {p : Int} {b : Bool} {es : List Ev}
    (h1 : (∀ e ∈ es, isOut e = false) → (∃ e ∈ es, shows e = true) → ∃ lo hi, Limits cfg w lo hi ∧ es.foldl tipStep b = touches lo hi p b)
    (h2 : (∃ e ∈ es, isOut e = true) → es.foldl tipStep b = false ∧ ∃ x d, es = x ++ [.prox false d]) : Agrees cfg w p b es := by
  rintro ⟨x, e, y, rfl, hs, hy⟩
  by_cases ho : ∃ e' ∈ x ++ e :: y, isOut e' = true
  · exfalso
    obtain ⟨_, z, d, hz⟩ := h2 ho
    rcases List.eq_nil_or_concat y with rfl | ⟨y', a, rfl⟩
    · have := (List.append_inj' hz rfl).2
      injection this with this
      subst this
      cases hs
    · rw [List.concat_eq_append] at hz hy
      have e1 : x ++ e :: (y' ++ [a]) = (x ++ e :: y') ++ [a] := by simp
      rw [e1] at hz
      have := (List.append_inj' hz rfl).2
      injection this with this
      subst this
      have := hy (.prox false d) (by simp)
      cases this
  · have ho' : ∀ e' ∈ x ++ e :: y, isOut e' = false := by
      intro e' he
      cases h : isOut e'
      · rfl
      · exact absurd ⟨e', he, h⟩ ho
    have ha : (x ++ e :: y).any isOut = false := by
      rw [List.any_eq_false]
      intro e' he
      rw [ho' e' he]; simp
    rw [ha]
    exact h1 ho' ⟨e, by simp, hs⟩

theorem flush_tip {cfg : Cfg} {w : Bool} (F : Feels cfg) (s : Pen) (j : Bool) (now n : Nat) (f : Nat → Bool) (b : Bool) (P : Pens cfg s f b) (A : Ahead s f)
    (T : Tame cfg w s) (hw : w = false → (∃ e ∈ events (s.flush cfg j now (n + 2)).2, isIn e = true) → ¬ looksWorn cfg s.v.raw) :
    Tame cfg w (s.flush cfg j now (n + 2)).1 ∧ (s.flush cfg j now (n + 2)).1.v.raw = s.v.raw ∧
    Agrees cfg w (s.v.raw .pressure) b (events (s.flush cfg j now (n + 2)).2) := by
  have R := pass_clean cfg s j now f b P A
  have Q := pass_tip (w := w) F s j now f b P A T
  revert hw
  unfold Pen.flush
  dsimp only
  generalize s.pass cfg j now = r at R Q ⊢
  obtain ⟨r1, r2, ag⟩ := r
  cases ag with
  | false =>
    intro hw
    dsimp only at hw Q ⊢
    simp only [Bool.false_eq_true, if_false] at hw ⊢
    obtain ⟨q1, q2, q3, q4, _⟩ := Q hw
    exact ⟨q1, q2, round_agrees q3 q4⟩
  | true =>
    dsimp only at Q ⊢
    rw [if_pos rfl]
    obtain ⟨a1, a2⟩ := R.again rfl
    have hf := R.pens.dead a2
    have A1 : Ahead r1 ((events r2).foldl heldStep f) := by
      intro c hc
      have := hf c
      dsimp only at this
      rw [this] at hc; cases hc
    have R2 := pass_clean cfg r1 j now _ _ R.pens A1
    have P1 := R.pens
    dsimp only at P1
    have Q2 := pass_tip (w := w) F r1 j now _ _ P1 A1
    unfold Pen.flush
    dsimp only at R2 Q2 ⊢
    generalize r1.pass cfg j now = q at R2 Q2 ⊢
    obtain ⟨q1, q2, ag2⟩ := q
    have : ag2 = false := by
      cases ag2
      · rfl
      · have := (R2.again rfl).1
        dsimp only at a2
        rw [a2] at this; cases this
    subst this
    dsimp only at Q2 ⊢
    simp only [Bool.false_eq_true, if_false]
    intro hw
    rw [events_append] at hw ⊢
    obtain ⟨u1, u2, _, u4, u5⟩ := Q (fun a ⟨e, he, h⟩ => hw a ⟨e, by simp [he], h⟩)
    obtain ⟨v1, v2, v3, v4, _⟩ := Q2 u1 (fun a ⟨e, he, h⟩ => by rw [u2]; exact hw a ⟨e, by simp [he], h⟩)
    refine ⟨v1, v2.trans u2, ?_⟩
    have out1 := u5 rfl
    obtain ⟨w1, z, d, hz⟩ := u4 out1
    rw [w1] at v3 v4
    have B := round_agrees v3 v4
    rintro ⟨x, e, y, hx, hs, hy⟩
    have tell : Tells (events q2) := by
      rcases List.append_eq_append_iff.1 hx with ⟨t, ht1, ht2⟩ | ⟨t, ht1, ht2⟩
      · -- x = events r2 ++ t
        exact ⟨t, e, y, ht2, hs, hy⟩
      · cases t with
        | nil => exact ⟨[], e, y, by simpa using ht2.symm, hs, hy⟩
        | cons c t =>
          exfalso
          injection ht2 with h1 h2
          subst h1
          rw [ht1] at hz
          rcases List.eq_nil_or_concat t with rfl | ⟨t', a, rfl⟩
          · have := (List.append_inj' hz rfl).2
            injection this with this
            subst this
            cases hs
          · rw [List.concat_eq_append] at hz h2
            have e1 : x ++ e :: (t' ++ [a]) = (x ++ e :: t') ++ [a] := by simp
            rw [e1] at hz
            have := (List.append_inj' hz rfl).2
            injection this with this
            subst this
            have := hy (.prox false d) (by rw [h2]; simp)
            cases this
    obtain ⟨lo, hi, L, e'⟩ := B tell
    refine ⟨lo, hi, L, ?_⟩
    rw [List.foldl_append, w1, e', u2]
    obtain ⟨o, ho, ho'⟩ := out1
    have : (events r2 ++ events q2).any isOut = true := by
      rw [List.any_eq_true]; exact ⟨o, by simp [ho], ho'⟩
    rw [this]
    simp

theorem syn_tip {cfg : Cfg} {w : Bool} (F : Feels cfg) (s : Pen) (j : Bool) (now : Nat) (f : Nat → Bool) (b : Bool) (P : Pens cfg s f b) (A : Ahead s f)
    (T : Tame cfg w s) (hw : w = false → (∃ e ∈ events (s.syn cfg j now).2, isIn e = true) → ¬ looksWorn cfg s.v.raw) :
    Tame cfg w (s.syn cfg j now).1 ∧ (s.syn cfg j now).1.v.raw = s.v.raw ∧ Agrees cfg w (s.v.raw .pressure) b (events (s.syn cfg j now).2) := by
  have Q := flush_tip (w := w) F s j now 2 f b P A T
  revert hw
  unfold Pen.syn
  dsimp only
  generalize Pen.flush cfg j now 4 s = r at Q ⊢
  obtain ⟨⟨a, ea⟩, ev⟩ := toggle_state r.1
  rw [ea, events_append, ev, List.append_nil]
  obtain ⟨bd, er⟩ := reset_state { r.1 with arb := a }
  rw [er]
  intro hw
  obtain ⟨q1, q2, q3⟩ := Q hw
  exact ⟨⟨q1.tools, q1.min⟩, q2, q3⟩

/-! ### Histories -/

/-- The kernel keeps to the lower end of the range of the pressure, and no other tablet shares the pens. -/
def Op.Plain (cfg : Cfg) : Op → Prop
  | .frame evs _ => ∀ v, KEv.abs .pressure v ∈ evs → (cfg.range .pressure).min ≤ v
  | .resume raw => (cfg.range .pressure).min ≤ raw .pressure
  | .foreign _ => False
  | _ => True

structure Link (cfg : Cfg) (w : Bool) (s : Pen) (d : Dev) : Prop where
  tame : Tame cfg w s
  val : s.v.raw = d.val
  opened : s.opened = d.opened

theorem kev_raw (cfg : Cfg) (s : Pen) (e : KEv) : (kev cfg s e).v.raw = hears s.v.raw e ∧ (kev cfg s e).t.tools = s.t.tools := by
  cases e with
  | abs a x =>
    simp only [kev, absEvent, hears]
    split
    · exact ⟨rfl, rfl⟩
    · unfold Vals.mark; dsimp only; repeat' split
      all_goals exact ⟨rfl, rfl⟩
  | wheel x => simp only [kev, hears, Vals.mark]; repeat' split
               all_goals first | exact ⟨rfl, rfl⟩ | simp
  | id x => exact ⟨rfl, rfl⟩
  | serial x => simp only [kev, hears]; split <;> simp
  | key c x =>
    simp only [kev, keyEvent, hears]
    repeat' split
    all_goals first | exact ⟨rfl, rfl⟩ | exact ⟨trivial, rfl⟩ | exact ⟨trivial, trivial⟩

theorem fold_raw (cfg : Cfg) (evs : List KEv) : ∀ s, (evs.foldl (kev cfg) s).v.raw = evs.foldl hears s.v.raw ∧
    (evs.foldl (kev cfg) s).t.tools = s.t.tools := by
  induction evs with
  | nil => intro s; exact ⟨rfl, rfl⟩
  | cons e evs ih =>
    intro s
    obtain ⟨h1, h2⟩ := kev_raw cfg s e
    obtain ⟨i1, i2⟩ := ih (kev cfg s e)
    simp only [List.foldl_cons]
    rw [i1, i2, h1, h2]
    exact ⟨rfl, rfl⟩

theorem hears_min (evs : List KEv) (m : Int) : ∀ v : Axis → Int, m ≤ v .pressure → (∀ x, KEv.abs .pressure x ∈ evs → m ≤ x) →
    m ≤ evs.foldl hears v .pressure := by
  induction evs with
  | nil => intro v h _; exact h
  | cons e evs ih =>
    intro v h hx
    simp only [List.foldl_cons]
    refine ih _ ?_ (fun x hm => hx x (by simp [hm]))
    cases e with
    | abs a x =>
      simp only [hears]
      split
      · rename_i ha; exact hx x (by rw [ha]; simp)
      · exact h
    | _ => exact h

theorem agrees_nil (cfg : Cfg) (w : Bool) (p : Int) (b : Bool) : Agrees cfg w p b [] := by
  rintro ⟨x, e, y, h, _⟩
  simp at h

theorem still {cfg : Cfg} {w : Bool} {s : Pen} {d : Dev} {p : Int} {b : Bool} (s' : Pen) (n : Bool) (L : Link cfg w s d) (h1 : s'.v = s.v) (h2 : s'.t = s.t)
    (h3 : s'.opened = s.opened) : Link cfg w (s'.changeRotation n).1 d ∧ Agrees cfg w p b (events (s'.changeRotation n).2) := by
  obtain ⟨c1, c2, c3⟩ := changeRotation_v s' n
  have c4 : (s'.changeRotation n).1.opened = s'.opened := by
    unfold Pen.changeRotation Pen.applyRotation
    dsimp only
    split <;> rfl
  rw [c3]
  exact ⟨⟨⟨by rw [c2, h2]; exact L.tame.tools, by rw [c1, h1]; exact L.tame.min⟩, by rw [c1, h1]; exact L.val, (c4.trans h3).trans L.opened⟩, agrees_nil _ _ _ _⟩

theorem step_tip {cfg : Cfg} {w : Bool} (F : Feels cfg) (s : Pen) (d : Dev) (op : Op) (f : Nat → Bool) (b : Bool) (R : Rest cfg s f b)
    (hc : ∀ evs n, op = .frame evs n → ∀ e ∈ evs, isCursorKey e = false) (hp : op.Plain cfg) (L : Link cfg w s d)
    (hw : w = false → (∃ e ∈ events (step cfg s op).2, isIn e = true) → ¬ looksWorn cfg (d.step op).val) :
    Link cfg w (step cfg s op).1 (d.step op) ∧ Agrees cfg w ((d.step op).val .pressure) b (events (step cfg s op).2) := by
  have hung : ¬ s.hung = true := by rw [R.pens.hung]; simp
  have stay : ∀ p, Link cfg w s d ∧ Agrees cfg w p b (events []) := fun p => ⟨L, agrees_nil _ _ _ _⟩
  revert hw
  unfold step
  rw [if_neg hung]
  cases op with
  | frame evs n =>
    dsimp only [Dev.step]
    rw [← L.opened]
    split
    · intro hw
      obtain ⟨P, A⟩ := fold_clean cfg evs s f b (hc evs n rfl) R
      obtain ⟨r1, r2⟩ := fold_raw cfg evs s
      have T : Tame cfg w (evs.foldl (kev cfg) s) := ⟨by rw [r2]; exact L.tame.tools, by rw [r1]; exact hears_min evs _ _ L.tame.min hp⟩
      unfold Pen.frame at hw ⊢
      obtain ⟨q1, q2, q3⟩ := syn_tip F _ false n f b P A T (fun a h => by rw [r1, L.val]; exact hw a h)
      refine ⟨⟨q1, ?_, ?_⟩, ?_⟩
      · rw [q2, r1, L.val]
      · rw [syn_opened, fold_opened]
      · rw [r1, L.val] at q3; exact q3
    · intro _; exact stay _
  | timeout n =>
    dsimp only [Dev.step]
    split
    · split
      · unfold Pen.timeout
        dsimp only
        split
        · obtain ⟨q, e⟩ := setTimer_state { s with q.timer := none } n
          rw [e]
          intro _
          exact ⟨⟨⟨L.tame.tools, L.tame.min⟩, L.val, L.opened⟩, agrees_nil _ _ _ _⟩
        · split
          · obtain ⟨q, e⟩ := setTimer_state { s with q.timer := none } s.q.lastTime
            rw [e]
            intro _
            exact ⟨⟨⟨L.tame.tools, L.tame.min⟩, L.val, L.opened⟩, agrees_nil _ _ _ _⟩
          · intro hw
            have R' : Rest cfg { s with q.timer := none } f b := R.congr rfl rfl rfl rfl rfl rfl rfl
            obtain ⟨P, A⟩ := fold_clean cfg [KEv.key 320 0] _ f b (by simp [isCursorKey]) R'
            obtain ⟨r1, r2⟩ := fold_raw cfg [KEv.key 320 0] { s with q.timer := none }
            have ho := fold_opened cfg [KEv.key 320 0] { s with q.timer := none }
            simp only [List.foldl_cons, List.foldl_nil, kev, hears] at P A r1 r2 ho
            have T : Tame cfg w (keyEvent cfg { s with q.timer := none } 320 0) := ⟨by rw [r2]; exact L.tame.tools, by rw [r1]; exact L.tame.min⟩
            have so := syn_opened cfg (keyEvent cfg { s with q.timer := none } 320 0) true n
            have key := syn_tip F _ true n f b P A T
            rw [r1] at key
            rw [ho] at so
            dsimp only at key so
            generalize Pen.syn cfg (keyEvent cfg { s with q.timer := none } 320 0) true n = r at hw key so ⊢
            rw [L.val] at key
            obtain ⟨q1, q2, q3⟩ := key hw
            exact ⟨⟨⟨q1.tools, q1.min⟩, q2, so.trans L.opened⟩, q3⟩
      · intro _; exact stay _
    · intro _; exact stay _
  | suspend n =>
    dsimp only [Dev.step]
    split
    · unfold Pen.suspend
      dsimp only
      obtain ⟨⟨a, ea⟩, ev⟩ := setArb_state s .notActive
      rw [ea]
      split
      · rw [ev]
        intro _
        exact ⟨⟨⟨L.tame.tools, L.tame.min⟩, L.val, rfl⟩, agrees_nil _ _ _ _⟩
      · rename_i ho
        rw [events_append, ev, List.nil_append]
        have ho' : s.st.outOfProx = false := by simpa using ho
        have P : Pens cfg { s with arb := a, st.leaving := true } f b := by
          obtain ⟨⟨a1, a2, a3, a4, a5, a6, a7, a8, a9, a10⟩, a11⟩ := R
          exact ⟨a1, a2, a3, a4, a5, a6, a7, fun _ => ho', a9, a10⟩
        have A : Ahead { s with arb := a, st.leaving := true } f := R.ahead
        have T : Tame cfg w { s with arb := a, st.leaving := true } := ⟨L.tame.tools, L.tame.min⟩
        have key := flush_tip F _ false n 2 f b P A T
        dsimp only at key ⊢
        rw [L.val] at key
        intro hw
        obtain ⟨q1, q2, q3⟩ := key hw
        exact ⟨⟨⟨q1.tools, q1.min⟩, q2, rfl⟩, q3⟩
    · rename_i ho
      intro _
      refine ⟨⟨L.tame, L.val, ?_⟩, agrees_nil _ _ _ _⟩
      simpa using ho
  | resume raw =>
    dsimp only [Dev.step]
    rw [← L.opened]
    split
    · intro _; exact stay _
    · intro _; exact ⟨⟨⟨L.tame.tools, hp⟩, rfl, rfl⟩, agrees_nil _ _ _ _⟩
  | setLeft c =>
    dsimp only [Dev.step]
    obtain ⟨h1, h2, h3⟩ := changeLeft_v { s with h.wantLeft := c }
    have h4 : ({ s with h.wantLeft := c } : Pen).changeLeft.1.opened = s.opened := by
      unfold Pen.changeLeft Pen.changeRotation Pen.applyRotation
      repeat' split
      all_goals rfl
    generalize Pen.changeLeft { s with h.wantLeft := c } = r at h1 h2 h3 h4 ⊢
    rw [h3]
    intro _
    exact ⟨⟨⟨by rw [h2]; exact L.tame.tools, by rw [h1]; exact L.tame.min⟩, by rw [h1]; exact L.val, h4.trans L.opened⟩, agrees_nil _ _ _ _⟩
  | foreign t => exact hp.elim
  | touchLeft c =>
    dsimp only [Dev.step]
    split
    · exact fun _ => still { s with h.touchLeft := c } false L rfl rfl rfl
    · intro _; exact stay _
  | touchAdded p l =>
    dsimp only [Dev.step]
    split
    · split
      · exact fun _ => still { s with h := { s.h with touch := true, rotTouch := true, touchLeft := true } } true L rfl rfl rfl
      · exact fun _ => ⟨⟨⟨L.tame.tools, L.tame.min⟩, L.val, L.opened⟩, agrees_nil _ _ _ _⟩
    · exact fun _ => ⟨⟨⟨L.tame.tools, L.tame.min⟩, L.val, L.opened⟩, agrees_nil _ _ _ _⟩
  | touchRemoved =>
    dsimp only [Dev.step]
    split
    · exact fun _ => still { s with h := { s.h with touch := false, rotTouch := false, touchLeft := false } } true L rfl rfl rfl
    · exact fun _ => ⟨⟨⟨L.tame.tools, L.tame.min⟩, L.val, L.opened⟩, agrees_nil _ _ _ _⟩

/-- What is new after one more operation. -/
def news (cfg : Cfg) (s : Pen) (pre : List Op) (op : Op) : List Ev := events (step cfg (run cfg s pre).1 op).2

/-- No pen looks worn when it comes. -/
def Unworn (cfg : Cfg) (s : Pen) (d : Dev) (ops : List Op) : Prop :=
  ∀ pre op post, ops = pre ++ op :: post → (∃ e ∈ news cfg s pre op, isIn e = true) → ¬ looksWorn cfg ((pre ++ [op]).foldl Dev.step d).val

theorem run_tip {cfg : Cfg} {w : Bool} (F : Feels cfg) (ops : List Op) : ∀ s d f b, Rest cfg s f b →
    PensOnly ops → (∀ op ∈ ops, op.Plain cfg) → Link cfg w s d → (w = false → Unworn cfg s d ops) →
    Link cfg w (run cfg s ops).1 (ops.foldl Dev.step d) := by
  induction ops with
  | nil => intro s d f b _ _ _ L _; exact L
  | cons op ops ih =>
    intro s d f b R hc hp L hw
    have hc1 : PensOnly ops := fun x hx => hc x (by simp [hx])
    obtain ⟨_, _, R1⟩ := step_clean cfg s op f b R (hc op (by simp))
    obtain ⟨L1, _⟩ := step_tip (w := w) F s d op f b R (hc op (by simp)) (hp op (by simp)) L
      (fun a h => hw a [] op ops rfl h)
    exact ih _ _ _ _ R1 hc1 (fun x hx => hp x (by simp [hx])) L1 (fun a pre o post e => hw a (op :: pre) o post (by rw [e]; rfl))

end Libinput.Tablet
