import Verif.Motion.EdgeInv
/-
What a frame does to one touch.
-/
namespace Libinput.Motion
open Touch (St)

/-! ### Processing -/

/-- The touch `i` is not taken for a thumb that is ignored. -/
def NotThumb (s : Pad) (i : Nat) : Prop := s.cfg.thumbs = true → s.thumb.index = some i → s.thumb.st = .finger ∨ s.thumb.st = .revived

theorem NotThumb.ignored {s : Pad} {t : Finger} (h : NotThumb s t.index) : s.thumbIgnored t = false := by
  unfold Pad.thumbIgnored
  cases h1 : s.cfg.thumbs with
  | false => rfl
  | true =>
    by_cases h2 : s.thumb.index = some t.index
    · rcases h h1 h2 with h3 | h3 <;> simp [h3]
    · simp [h2]

/-- The touch without its motion history. -/
def Finger.bare (t : Finger) : Finger := { t with hist := [], histReset := false }

theorem forget_bare (t : Finger) (w : Bool) : (t.forget w).bare = t.bare := by
  unfold Finger.forget
  split
  · rfl
  · split <;> rfl

theorem ecore_of_bare {t u : Finger} (h : u.bare = t.bare) : u.ecore = t.ecore := by
  have : ∀ x : Finger, x.ecore = x.bare.ecore := fun x => rfl
  rw [this u, h, ← this t]

theorem processOne_other (s : Pad) (i j : Nat) (v : View) (w : Bool) (now : Nat) (h : j ≠ i) : (s.processOne j v w now).touches[i]? = s.touches[i]? := by
  unfold Pad.processOne
  split
  · rfl
  · split
    · rfl
    · simp only
      split
      · simp [Pad.put, h]
      · rw [show ∀ (p : Pad) (x : Finger), (p.put j x).touches = p.touches.set j x from fun _ _ => rfl, List.getElem?_set_ne h, (only_thumbUpdate _ _).touches]
        simp [Pad.put, h]

/-- What processing makes of a touch that changed. -/
def Processed (s : Pad) (t : Finger) (v : View) (now : Nat) (u : Finger) : Prop :=
  ∃ s2 t2, Same s s2 ∧ t2.bare = t.bare ∧ u = (s2.palmDetect t2 v now).finish v

theorem processOne_self (s : Pad) (i : Nat) (t : Finger) (v : View) (w : Bool) (now : Nat) (h : s.touches[i]? = some t) (hst : t.st ≠ .none) (hd : t.dirty = true) :
    ∃ u, (s.processOne i v w now).touches[i]? = some u ∧ Processed s t v now u := by
  have hlt := (List.getElem?_eq_some_iff.1 h).1
  unfold Pad.processOne
  rw [h]
  simp only [if_neg hst]
  obtain ⟨t1, e1⟩ : ∃ x, x = t.forget w := ⟨_, rfl⟩
  have k1 : t1.bare = t.bare := by rw [e1]; exact forget_bare t w
  have k1' : t1.dirty = true := by have := congrArg ECore.dirty (ecore_of_bare k1); simp only [Finger.ecore] at this; rw [this]; exact hd
  rw [← e1]
  rw [if_neg (by rw [k1']; decide)]
  obtain ⟨t2, e2⟩ : ∃ x, x = (if v.jump = true then { t1 with hist := [] } else t1) := ⟨_, rfl⟩
  have k2 : t2.bare = t.bare := by rw [e2]; split <;> exact k1
  rw [← e2]
  refine ⟨_, ?_, (s.put i t2).thumbUpdate t2, t2, (same_put s i t2).trans (only_thumbUpdate _ _).same, k2, rfl⟩
  simp only [Pad.put, List.getElem?_set, (only_thumbUpdate _ _).touches]
  simp [hlt]

theorem processAll_self (w : Bool) (now : Nat) : ∀ (vs : List View) (s : Pad) (k i : Nat) (t : Finger) (v : View), s.touches[i]? = some t → k ≤ i → vs[i - k]? = some v →
    t.st ≠ .none → t.dirty = true → ∃ u, (s.processAll w now k vs).touches[i]? = some u ∧ Processed s t v now u
  | [], _, _, _, _, _, _, _, h, _, _ => by simp at h
  | x :: vs, s, k, i, t, v, ht, hk, hv, hst, hd => by
    unfold Pad.processAll
    by_cases e : i = k
    · subst e
      have hx : x = v := by simpa using hv
      subst hx
      obtain ⟨u, h1, h2⟩ := processOne_self s i t x w now ht hst hd
      refine ⟨u, ?_, h2⟩
      have later : ∀ (vs : List View) (s : Pad) (k : Nat), i < k → (s.processAll w now k vs).touches[i]? = s.touches[i]? := by
        intro vs
        induction vs with
        | nil => intro s k _; rfl
        | cons y ys ih =>
          intro s k hk
          unfold Pad.processAll
          rw [ih _ (k + 1) (by omega), processOne_other s i k y w now (by omega)]
      rw [later vs _ (i + 1) (by omega)]
      exact h1
    · have hlt : k < i := by omega
      have h0 := processOne_other s i k x w now (by omega)
      rw [← h0] at ht
      obtain ⟨u, h1, s2, t2, h2, h3, h4⟩ := processAll_self w now vs (s.processOne k x w now) (k + 1) i t v ht (by omega)
        (by rw [show i - k = (i - (k + 1)) + 1 by omega] at hv; simpa using hv) hst hd
      exact ⟨u, h1, s2, t2, (same_processOne s k x w now).trans h2, h3, h4⟩

theorem process_self (s : Pad) (vs : List View) (g : Frame) (now : Nat) (i : Nat) (t : Finger) (v : View) (ht : s.touches[i]? = some t) (hv : vs[i]? = some v)
    (hst : v.st ≠ .none) (hd : v.dirty = true) : ∃ u, (s.process vs g now).touches[i]? = some u ∧ Processed s (t.take v now) v now u := by
  unfold Pad.process
  simp only
  have hst' : (t.take v now).st ≠ .none := by rw [take_st]; exact hst
  have hd' : (t.take v now).dirty = true := by
    have := congrArg ECore.dirty (take_ecore t v now); simp only [Finger.ecore] at this; rw [this]; exact hd
  obtain ⟨u, h1, s2, t2, h2, h3, h4⟩ := processAll_self (decide (({ s with touches := takeAll now s.touches vs } : Pad).fingers ≠ s.fingers) || g.reset) now vs
    { s with touches := takeAll now s.touches vs } 0 i (t.take v now) v (takeAll_get now _ _ i t v ht hv) (Nat.zero_le _) hv hst' hd'
  refine ⟨u, ?_, s2, t2, (same_touches s _).trans h2, h3, h4⟩
  split
  · rw [(only_thumbMulti _).touches]; exact h1
  · exact h1

/-! ### Palms and thumbs of touches that end -/

theorem palmPressure_light (s : Pad) (t : Finger) (hp : t.palm = .none) (h : ∀ p, s.cfg.palmPressure = some p → ¬ p < t.pressure) : s.palmPressure t = (t, false) := by
  unfold Pad.palmPressure
  split
  · rfl
  · next p e =>
    rw [if_neg (by rw [hp]; simp)]
    simp only [if_neg (h p e), hp]
    rfl

/-- A touch that ends is not taken for a palm unless it is reported like one. -/
theorem palmDetect_end (s : Pad) (t : Finger) (v : View) (now : Nat) (hst : t.st = .end_) (hp : t.palm = .none) (ha : s.arb = false)
    (h1 : ∀ p, s.cfg.palmPressure = some p → ¬ p < t.pressure) (h2 : ∀ z, s.cfg.palmSize = some z → ¬ (z < t.touchMajor ∨ z < t.touchMinor))
    (h3 : s.cfg.palmTool = true → t.toolPalm = false) : s.palmDetect t v now = t := by
  have e1 := palmPressure_light s t hp h1
  have e2 : s.palmArb t = (t, false) := by unfold Pad.palmArb; simp [ha]
  have e3 : s.palmDwt t = (t, false) := by unfold Pad.palmDwt; simp [hst]
  have e4 : s.palmTrk t = (t, false) := by unfold Pad.palmTrk; simp [hst]
  have e5 : s.palmTool t = (t, false) := by
    unfold Pad.palmTool
    cases e : s.cfg.palmTool with
    | false => rfl
    | true => simp [hp, h3 e]
  have e6 : s.palmSize t = (t, false) := by
    unfold Pad.palmSize
    split
    · rfl
    · next z e => rw [if_neg (by rw [hp]; simp), if_neg (h2 z e)]
  have e7 : s.palmEdge t v now = (t, false) := by
    unfold Pad.palmEdge
    rw [if_neg (by rw [hp]; simp)]
    split
    · rfl
    · rw [if_pos (.inl (by rw [hst]; simp))]
  unfold Pad.palmDetect
  simp [e1, e2, e3, e4, e5, e6, e7]

/-- With a pen nearby every touch is a palm. -/
theorem palmDetect_arb (s : Pad) (t : Finger) (v : View) (now : Nat) (ha : s.arb = true) : (s.palmDetect t v now).palm ≠ .none := by
  unfold Pad.palmDetect
  simp only
  split
  · next h =>
    unfold Pad.palmPressure at h ⊢
    split
    · next e => simp [e] at h
    · next p e =>
      simp only [e] at h
      split
      · next hc => rw [if_pos hc] at h; simp at h
      · next hc =>
        rw [if_neg hc] at h
        simp only at h ⊢
        intro k
        rw [k] at h
        simp at h
  · rw [if_pos (by unfold Pad.palmArb; simp [ha])]
    unfold Pad.palmArb
    simp [ha]

theorem finish_palm (t : Finger) (v : View) : (t.finish v).palm = t.palm ∧ (t.finish v).pos = v.pos := by
  unfold Finger.finish Finger.push
  simp only
  split <;> exact ⟨rfl, rfl⟩

theorem take_end (t : Finger) (v : View) (now : Nat) (h : v.st = .end_) :
    (t.take v now).palm = .none ∧ (t.take v now).pressure = v.pressure ∧ (t.take v now).touchMajor = v.touchMajor ∧ (t.take v now).touchMinor = v.touchMinor ∧
      (t.take v now).toolPalm = v.toolPalm := by
  unfold Finger.take
  simp only [h]
  exact ⟨trivial, trivial, trivial, trivial, trivial⟩

theorem process_end (s : Pad) (vs : List View) (g : Frame) (now : Nat) (i : Nat) (t : Finger) (v : View) (ht : s.touches[i]? = some t) (hv : vs[i]? = some v)
    (hst : v.st = .end_) (hd : v.dirty = true) (ha : s.arb = false) (hp : ¬ PalmLike s.cfg v) :
    ∃ u, (s.process vs g now).touches[i]? = some u ∧ u.palm = .none := by
  obtain ⟨u, h1, s2, t2, h2, h3, h4⟩ := process_self s vs g now i t v ht hv (by rw [hst]; decide) hd
  refine ⟨u, h1, ?_⟩
  obtain ⟨b1, b2, b3, b4, b5⟩ := take_end t v now hst
  have p : ∀ x : Finger, x.palm = x.bare.palm ∧ x.st = x.bare.st ∧ x.pressure = x.bare.pressure ∧ x.touchMajor = x.bare.touchMajor ∧ x.touchMinor = x.bare.touchMinor ∧ x.toolPalm = x.bare.toolPalm :=
    fun x => ⟨rfl, rfl, rfl, rfl, rfl, rfl⟩
  obtain ⟨q1, q2, q3, q4, q5, q6⟩ := p t2
  obtain ⟨r1, r2, r3, r4, r5, r6⟩ := p (t.take v now)
  rw [h3] at q1 q2 q3 q4 q5 q6
  unfold PalmLike at hp
  rw [h4, (finish_palm _ _).1, palmDetect_end s2 t2 v now (q2.trans (r2.symm.trans ((take_st t v now).trans hst))) (q1.trans (r1.symm.trans b1)) (h2.arb.trans ha)]
  · exact q1.trans (r1.symm.trans b1)
  · intro z hz hlt
    rw [h2.cfg] at hz
    rw [q3, ← r3, b2] at hlt
    exact hp (.inl ⟨z, hz, hlt⟩)
  · intro z hz hlt
    rw [h2.cfg] at hz
    rw [q4, ← r4, b3, q5, ← r5, b4] at hlt
    exact hp (.inr (.inl ⟨z, hz, hlt⟩))
  · intro hz
    rw [h2.cfg] at hz
    rw [q6, ← r6, b5]
    cases e : v.toolPalm with
    | false => rfl
    | true => exact absurd (.inr (.inr ⟨hz, e⟩)) hp

theorem process_arb (s : Pad) (vs : List View) (g : Frame) (now : Nat) (i : Nat) (t : Finger) (v : View) (ht : s.touches[i]? = some t) (hv : vs[i]? = some v)
    (hst : v.st ≠ .none) (hd : v.dirty = true) (ha : s.arb = true) : ∃ u, (s.process vs g now).touches[i]? = some u ∧ u.palm ≠ .none := by
  obtain ⟨u, h1, s2, t2, h2, h3, h4⟩ := process_self s vs g now i t v ht hv hst hd
  refine ⟨u, h1, ?_⟩
  rw [h4, (finish_palm _ _).1]
  exact palmDetect_arb s2 t2 v now (h2.arb.trans ha)

theorem noPinch_thumb (s : Pad) (t : Finger) : (s.noPinch t).thumb.index = s.thumb.index ∧ (s.noPinch t).cfg = s.cfg ∧
    ((s.noPinch t).thumb.st = s.thumb.st ∨ s.thumb.st = .pinch) := by
  unfold Pad.noPinch
  split
  · refine ⟨rfl, rfl, ?_⟩
    simp only
    split
    · next h => exact .inr h
    · exact .inl rfl
  · exact ⟨rfl, rfl, .inl rfl⟩

/-- Alone and not the thumb: the touch does not become a thumb that is ignored unless it begins. -/
theorem thumbAlone_index (s : Pad) (t : Finger) (i : Nat) (hi : t.index = i → t.st = .end_ ∧ s.thumb.index ≠ some i) (h : NotThumb s i) : NotThumb (s.thumbAlone t) i := by
  unfold Pad.thumbAlone
  have e1 : t.index = i → s.thumbRevive t = s := by
    intro e
    unfold Pad.thumbRevive
    rw [if_pos (.inr (by rw [e]; exact (hi e).2))]
  have h1 : NotThumb (s.thumbRevive t) i := by
    by_cases e : t.index = i
    · rw [e1 e]; exact h
    · unfold Pad.thumbRevive
      split
      · exact h
      · split <;> (intro _ k; simp [Pad.setThumb] at k; exact absurd k e)
  generalize s.thumbRevive t = u at h1 e1
  simp only
  split
  · next hb =>
    intro _ k
    have k : t.index = i := by simpa [Pad.setThumb] using k
    rw [(hi k).1] at hb
    cases hb.1
  · have h2 : NotThumb (if u.thumb.st = .jailed ∧ u.needsJail t = false then u.setThumb t.index .finger else u) i := by
      split
      · intro _ _; exact .inl rfl
      · exact h1
    generalize (if u.thumb.st = .jailed ∧ u.needsJail t = false then u.setThumb t.index .finger else u) = w at h2
    split
    · intro _ _; exact .inr rfl
    · exact h2

theorem thumbUpdate_other (s : Pad) (t : Finger) (i : Nat) (hi : t.index ≠ i) (h : NotThumb s i) : NotThumb (s.thumbUpdate t) i := by
  unfold Pad.thumbUpdate
  split
  · exact h
  · have k := noPinch_thumb s t
    have h1 : NotThumb (s.noPinch t) i := by
      intro a b
      rw [k.1] at b
      rw [k.2.1] at a
      have := h a b
      rcases k.2.2 with e | e
      · rw [e]; exact this
      · rw [e] at this; rcases this with x | x <;> cases x
    simp only
    split
    · intro _ b; simp [Pad.thumbLift] at b
    · split
      · exact h1
      · exact thumbAlone_index _ t i (fun e => absurd e hi) h1

theorem thumbUpdate_self (s : Pad) (t : Finger) (hst : t.st = .end_) : NotThumb (s.thumbUpdate t) t.index := by
  unfold Pad.thumbUpdate
  split
  · next h => intro a; rw [h] at a; cases a
  · have k := noPinch_thumb s t
    generalize s.noPinch t = u at k
    simp only
    split
    · intro _ b; simp [Pad.thumbLift] at b
    · next hn =>
      have hi : u.thumb.index ≠ some t.index := fun e => hn ⟨hst, e⟩
      have h1 : NotThumb u t.index := fun _ b => absurd b hi
      split
      · exact h1
      · exact thumbAlone_index u t t.index (fun _ => ⟨hst, hi⟩) h1

theorem NotThumb.put {s : Pad} {i : Nat} (h : NotThumb s i) (j : Nat) (t : Finger) : NotThumb (s.put j t) i := h

theorem processOne_thumb_other (s : Pad) (i j : Nat) (v : View) (w : Bool) (now : Nat) (hidx : ∀ t, s.touches[j]? = some t → t.index = j) (hne : j ≠ i) (h : NotThumb s i) :
    NotThumb (s.processOne j v w now) i := by
  unfold Pad.processOne
  split
  · exact h
  · next t ht =>
    split
    · exact h
    · simp only
      split
      · exact h.put _ _
      · refine NotThumb.put ?_ _ _
        apply thumbUpdate_other
        · have e1 := (forget_st t w).2
          have e2 := hidx t ht
          split <;> (rw [← e2, ← e1] at hne; exact hne)
        · exact h.put _ _

theorem processOne_thumb_self (s : Pad) (i : Nat) (t : Finger) (v : View) (w : Bool) (now : Nat) (ht : s.touches[i]? = some t) (hidx : t.index = i) (hst : t.st = .end_) (hd : t.dirty = true) :
    NotThumb (s.processOne i v w now) i := by
  unfold Pad.processOne
  rw [ht]
  simp only [if_neg (show ¬ t.st = .none by rw [hst]; decide)]
  have k1 := forget_bare t w
  have k1' : (t.forget w).dirty = true := by have := congrArg ECore.dirty (ecore_of_bare k1); simp only [Finger.ecore] at this; rw [this]; exact hd
  rw [if_neg (by rw [k1']; decide)]
  refine NotThumb.put ?_ _ _
  obtain ⟨t2, e2⟩ : ∃ x, x = (if v.jump = true then { t.forget w with hist := [] } else t.forget w) := ⟨_, rfl⟩
  have k2 : t2.index = i ∧ t2.st = .end_ := by
    have a := forget_st t w
    rw [e2]; split
    · exact ⟨a.2.trans hidx, a.1.trans hst⟩
    · exact ⟨a.2.trans hidx, a.1.trans hst⟩
  rw [← e2]
  have := thumbUpdate_self (s.put i t2) t2 k2.2
  rw [k2.1] at this
  exact this

theorem indices_get {ts : List Finger} {n : Nat} (h : ts.map Finger.index = List.range n) {i : Nat} {t : Finger} (ht : ts[i]? = some t) : t.index = i := by
  have h1 := congrArg (fun l => l[i]?) h
  simp only [List.getElem?_map, ht, Option.map_some] at h1
  have hlt : i < ts.length := (List.getElem?_eq_some_iff.1 ht).1
  have hn : ts.length = n := by have := congrArg List.length h; simpa using this
  rw [List.getElem?_range (by omega)] at h1
  exact Option.some.inj h1

theorem processAll_thumb (w : Bool) (now n : Nat) : ∀ (vs : List View) (s : Pad) (k i : Nat) (t : Finger), s.touches.map Finger.index = List.range n → s.touches[i]? = some t →
    (k ≤ i → i - k < vs.length ∧ t.st = .end_ ∧ t.dirty = true) → (i < k → NotThumb s i) → NotThumb (s.processAll w now k vs) i
  | [], s, k, i, t, _, _, h, hn => by
    unfold Pad.processAll
    by_cases e : k ≤ i
    · simp at h; omega
    · exact hn (by omega)
  | x :: vs, s, k, i, t, hi, ht, h, hn => by
    unfold Pad.processAll
    have hi' := (shape_processOne s k x w now).index.trans hi
    by_cases e : k = i
    · subst e
      obtain ⟨_, h2, h3⟩ := h (Nat.le_refl _)
      have self := processOne_thumb_self s k t x w now ht (indices_get hi ht) h2 h3
      obtain ⟨u, hu⟩ : ∃ u, (s.processOne k x w now).touches[k]? = some u := by
        have hl := (shape_processOne s k x w now).length
        have hlt := (List.getElem?_eq_some_iff.1 ht).1
        exact ⟨_, List.getElem?_eq_getElem (by omega)⟩
      exact processAll_thumb w now n vs _ (k + 1) k u hi' hu (fun hx => by omega) (fun _ => self)
    · have h0 := processOne_other s i k x w now e
      rw [← h0] at ht
      refine processAll_thumb w now n vs _ (k + 1) i t hi' ht ?_ ?_
      · intro hk
        obtain ⟨a, b⟩ := h (by omega)
        simp only [List.length_cons] at a
        exact ⟨by omega, b⟩
      · intro hk
        have : i < k := by omega
        exact processOne_thumb_other s i k x w now (fun t ht => indices_get hi ht) e (hn this)

theorem takeAll_noBegin (now : Nat) : ∀ (ts : List Finger) (vs : List View), ts.length ≤ vs.length → (∀ w ∈ vs, w.st ≠ .begin) → .begin ∉ (takeAll now ts vs).map Finger.st
  | [], vs, _, _, h => by cases vs <;> simp [takeAll] at h
  | t :: ts, [], h, _, _ => by simp at h
  | t :: ts, v :: vs, hl, hb, hm => by
    simp only [takeAll, List.map_cons, List.mem_cons, take_st] at hm
    rcases hm with hm | hm
    · exact hb v (by simp) hm.symm
    · exact takeAll_noBegin now ts vs (by simpa using hl) (fun w hw => hb w (by simp [hw])) hm

theorem process_thumb (s : Pad) (vs : List View) (g : Frame) (now n : Nat) (i : Nat) (t : Finger) (v : View) (hi : s.touches.map Finger.index = List.range n)
    (ht : s.touches[i]? = some t) (hv : vs[i]? = some v) (hst : v.st = .end_) (hd : v.dirty = true) (hb : s.cfg.thumbs = true → ∀ w ∈ vs, w.st ≠ .begin)
    (hl : s.touches.length ≤ vs.length) :
    NotThumb (s.process vs g now) i := by
  unfold Pad.process
  simp only
  have hd' : (t.take v now).dirty = true := by
    have := congrArg ECore.dirty (take_ecore t v now); simp only [Finger.ecore] at this; rw [this]; exact hd
  have hi0 := (takeAll_index now s.touches vs).trans hi
  have base := processAll_thumb (decide (({ s with touches := takeAll now s.touches vs } : Pad).fingers ≠ s.fingers) || g.reset) now n vs
    { s with touches := takeAll now s.touches vs } 0 i (t.take v now) hi0 (takeAll_get now _ _ i t v ht hv)
    (fun _ => ⟨(List.getElem?_eq_some_iff.1 hv).1, (take_st t v now).trans hst, hd'⟩) (fun h => by omega)
  split
  · next hc =>
    exfalso
    simp only [Bool.and_eq_true, List.any_eq_true] at hc
    obtain ⟨⟨h1, u, hu, h2, h3⟩, _⟩ := hc
    rw [(same_processAll _ now vs _ 0).cfg] at h1
    have hs := stOf_processAll (decide (({ s with touches := takeAll now s.touches vs } : Pad).fingers ≠ s.fingers) || g.reset) now vs { s with touches := takeAll now s.touches vs } 0
    have hm : u.st ∈ (takeAll now s.touches vs).map Finger.st := by
      have : (takeAll now s.touches vs).map Finger.st = stOf { s with touches := takeAll now s.touches vs } := rfl
      rw [this, ← hs]
      exact List.mem_map_of_mem hu
    have h3 : u.st = .begin := by simpa using h3
    rw [h3] at hm
    exact takeAll_noBegin now s.touches vs hl (hb h1) hm
  · exact base

end Libinput.Motion
