import Verif.Motion.Basic
import Verif.Motion.Spec
/-
C40: the events of gestures, two-finger scrolling and pointer motion.
-/
namespace Libinput.Motion
open Touch (St)

theorem followAll_append : ∀ (a b : List Out) (c : Now), followAll c (a ++ b) = (followAll c a).bind fun c => followAll c b
  | [], b, c => rfl
  | o :: a, b, c => by
    simp only [List.cons_append, followAll]
    cases h : follow c o with
    | none => rfl
    | some c' => exact followAll_append a b c'

theorem follow_ofEdge (c : Now) (o : Out) (h : o.ofEdge = true) : follow c o = some c := by
  cases o <;> simp [Out.ofEdge] at h <;> cases c <;> rfl

theorem followAll_ofEdge : ∀ (os : List Out) (c : Now), (∀ o ∈ os, o.ofEdge = true) → followAll c os = some c
  | [], _, _ => rfl
  | o :: os, c, h => by
    simp only [followAll, follow_ofEdge c o (h o (by simp))]
    exact followAll_ofEdge os c fun x hx => h x (by simp [hx])

def Pad.scrolls (s : Pad) : Bool := s.scroll.dirH || s.scroll.dirV

/-- What the state has to do with what is going on. -/
structure GInv (s : Pad) (c : Now) : Prop where
  counts : s.gest.st ≠ .none → 2 ≤ s.gest.count ∧ s.gest.count ≤ 4
  swipe : s.gest.st = .swipe → 3 ≤ s.gest.count
  started : s.gest.started = true → s.gest.st = .scroll ∨ s.gest.st = .pinch ∨ s.gest.st = .swipe
  idle : c = .idle → s.gest.started = true → s.gest.st = .scroll
  scrolling : c = .scrolling → s.scrolls = true
  gesture : ∀ k n, c = .gesture k n → s.gest.started = true ∧ s.gest.st.kind = some k ∧ s.gest.count = n
  dirs : s.scrolls = true → s.gest.started = true ∧ s.gest.st = .scroll ∧ s.method = .twoFinger

/-- Nothing is going on. -/
structure Rest (s : Pad) : Prop where
  st : s.gest.st = .none
  started : s.gest.started = false
  dirs : s.scrolls = false

theorem Rest.inv {s : Pad} (h : Rest s) : GInv s .idle := by
  refine ⟨fun h1 => absurd h.st h1, ?_, ?_, ?_, ?_, ?_, ?_⟩
  · intro h1; rw [h.st] at h1; cases h1
  · intro h1; rw [h.started] at h1; cases h1
  · intro _ h1; rw [h.started] at h1; cases h1
  · intro h1; cases h1
  · intro k n h1; cases h1
  · intro h1; rw [h.dirs] at h1; cases h1

theorem GInv.idle_of_not {s : Pad} {c : Now} (h : GInv s c) (hs : s.gest.started = false) : c = .idle := by
  cases c with
  | idle => rfl
  | scrolling => have := (h.dirs (h.scrolling rfl)).1; rw [hs] at this; cases this
  | gesture k n => have := (h.gesture k n rfl).1; rw [hs] at this; cases this

theorem GInv.still {s : Pad} {c : Now} (h : GInv s c) (hs : s.gest.started = false) : s.scrolls = false := by
  cases hd : s.scrolls with
  | false => rfl
  | true => have := (h.dirs hd).1; rw [hs] at this; cases this

theorem GInv.same {s t : Pad} {c : Now} (h : GInv s c) (k : Same s t) : GInv t c := by
  have e1 := k.gest; have e2 := k.scroll; have e3 := k.method
  have e4 : t.scrolls = s.scrolls := by simp [Pad.scrolls, e2]
  refine ⟨?_, ?_, ?_, ?_, ?_, ?_, ?_⟩ <;> simp only [e1, e3, e4]
  · exact h.counts
  · exact h.swipe
  · exact h.started
  · exact h.idle
  · exact h.scrolling
  · exact h.gesture
  · exact h.dirs

/-- The function sends only what may come next. -/
def Good (c : Now) (r : Pad × List Out) : Prop := ∃ c', followAll c r.2 = some c' ∧ GInv r.1 c'

theorem Good.none {c : Now} {t : Pad} (h : GInv t c) : Good c (t, []) := ⟨c, rfl, h⟩

theorem Good.append {c c' : Now} {os : List Out} {r : Pad × List Out} (h : followAll c os = some c') (k : Good c' r) :
    Good c (r.1, os ++ r.2) := by
  obtain ⟨c2, h2, h3⟩ := k
  exact ⟨c2, by rw [followAll_append, h]; exact h2, h3⟩

theorem good_stopTwoFinger (s : Pad) (c : Now) (now : Nat) (hc : s.scrolls = true → s.method = .twoFinger)
    (hi : c = .idle ∨ (c = .scrolling ∧ s.scrolls = true)) :
    followAll c (s.stopTwoFinger now).2 = some .idle ∧ (s.stopTwoFinger now).1.scrolls = false ∧ (s.stopTwoFinger now).1.gest = s.gest ∧ (s.stopTwoFinger now).1.method = s.method ∧ (s.stopTwoFinger now).1.touches = s.touches := by
  unfold Pad.stopTwoFinger
  by_cases hm : s.method = .twoFinger
  · rw [if_neg (by simpa using hm)]
    simp only [Scroll.stop]
    refine ⟨?_, rfl, trivial, trivial, trivial⟩
    rcases hi with rfl | ⟨rfl, hs⟩
    · split <;> rfl
    · have : (s.scroll.dirH || s.scroll.dirV) = true := hs
      simp [this, followAll, follow]
  · rw [if_pos hm]
    have hd : s.scrolls = false := by
      cases hd : s.scrolls with
      | false => rfl
      | true => exact absurd (hc hd) hm
    rcases hi with rfl | ⟨_, hs⟩
    · exact ⟨rfl, hd, rfl, rfl, rfl⟩
    · rw [hd] at hs; cases hs

theorem good_gestEnd (s : Pad) (c : Now) (now : Nat) (b : Bool) (h : GInv s c) :
    followAll c (s.gestEnd now b).2 = some .idle ∧ Rest (s.gestEnd now b).1 := by
  unfold Pad.gestEnd
  simp only
  by_cases hs : s.gest.started = true
  · rw [if_neg (by simp [hs])]
    rcases h.started hs with e | e | e
    · simp only [e]
      obtain ⟨t, et⟩ : ∃ x : Pad, x = { s with gest := { s.gest with st := .none, started := false } } := ⟨_, rfl⟩
      rw [← et]
      have hsc : t.scrolls = s.scrolls := by rw [et]; rfl
      have hm : t.method = s.method := by rw [et]
      have hc : c = .idle ∨ (c = .scrolling ∧ t.scrolls = true) := by
        cases hcc : c with
        | idle => exact .inl rfl
        | scrolling => exact .inr ⟨rfl, by rw [hsc]; exact h.scrolling hcc⟩
        | gesture k n =>
          have := (h.gesture k n hcc).2.1
          rw [e] at this; simp [GestSt.kind] at this
      obtain ⟨h1, h2, h3, _, _⟩ := good_stopTwoFinger t c now (by rw [hsc, hm]; exact fun hd => (h.dirs hd).2.2) hc
      exact ⟨h1, by rw [h3, et], by rw [h3, et], h2⟩
    · simp only [e]
      have hn : s.scrolls = false := by
        cases hd : s.scrolls with
        | false => rfl
        | true => have := (h.dirs hd).2.1; rw [e] at this; cases this
      refine ⟨?_, rfl, rfl, hn⟩
      cases hcc : c with
      | idle => have := h.idle hcc hs; rw [e] at this; cases this
      | scrolling => have := h.scrolling hcc; rw [hn] at this; cases this
      | gesture k n =>
        obtain ⟨_, h2, h3⟩ := h.gesture k n hcc
        rw [e] at h2; simp [GestSt.kind] at h2
        subst h2; subst h3; simp [followAll, follow]
    · simp only [e]
      have hn : s.scrolls = false := by
        cases hd : s.scrolls with
        | false => rfl
        | true => have := (h.dirs hd).2.1; rw [e] at this; cases this
      refine ⟨?_, rfl, rfl, hn⟩
      cases hcc : c with
      | idle => have := h.idle hcc hs; rw [e] at this; cases this
      | scrolling => have := h.scrolling hcc; rw [hn] at this; cases this
      | gesture k n =>
        obtain ⟨_, h2, h3⟩ := h.gesture k n hcc
        rw [e] at h2; simp [GestSt.kind] at h2
        subst h2; subst h3; simp [followAll, follow]
  · have hs : s.gest.started = false := by simpa using hs
    rw [if_pos hs]
    rw [h.idle_of_not hs]
    exact ⟨rfl, rfl, hs, h.still hs⟩

theorem good_gestState (s : Pad) (c : Now) (now : Nat) (h : GInv s c) : Good c (s.gestState now) := by
  unfold Pad.gestState
  simp only
  split
  · exact .none ⟨h.counts, h.swipe, h.started, h.idle, h.scrolling, h.gesture, h.dirs⟩
  · split
    · obtain ⟨h1, h2⟩ := good_gestEnd s c now false h
      exact ⟨.idle, h1, Rest.inv ⟨h2.st, h2.started, h2.dirs⟩⟩
    · split
      · next hs =>
        rw [h.idle_of_not hs]
        exact .none (Rest.inv ⟨rfl, hs, h.still hs⟩)
      · split
        · exact .none ⟨h.counts, h.swipe, h.started, h.idle, h.scrolling, h.gesture, h.dirs⟩
        · exact .none h

/-- A gesture that has not started has a state that does not matter yet. -/
theorem inv_of_not {s : Pad} (hs : s.gest.started = false) (hd : s.scrolls = false) (h1 : 2 ≤ s.gest.count ∧ s.gest.count ≤ 4)
    (h2 : s.gest.st = .swipe → 3 ≤ s.gest.count) : GInv s .idle :=
  ⟨fun _ => h1, h2, fun h => (by rw [hs] at h; cases h), fun _ h => (by rw [hs] at h; cases h), fun h => (by cases h),
   fun k n h => (by cases h), fun h => (by rw [hd] at h; cases h)⟩

theorem gestNone_facts (s : Pad) (now : Nat) :
    (s.gestNone now).gest.count = s.gest.count ∧ (s.gestNone now).gest.started = s.gest.started ∧ (s.gestNone now).scroll = s.scroll ∧
    (s.gestNone now).method = s.method ∧ ((s.gestNone now).gest.st = s.gest.st ∨ (s.gestNone now).gest.st = .scroll ∨ (s.gestNone now).gest.st = .unknown) := by
  unfold Pad.gestNone
  split
  · split
    · split
      · exact ⟨rfl, rfl, rfl, rfl, .inr (.inl rfl)⟩
      · exact ⟨rfl, rfl, rfl, rfl, .inl rfl⟩
    · split
      · exact ⟨rfl, rfl, rfl, rfl, .inr (.inr rfl)⟩
      · simp only
        split
        · exact ⟨rfl, rfl, rfl, rfl, .inl rfl⟩
        · exact ⟨rfl, rfl, rfl, rfl, .inr (.inr rfl)⟩
  · exact ⟨rfl, rfl, rfl, rfl, .inl rfl⟩

/-- What recognising a gesture leaves alone, and that a swipe has more than two fingers. -/
structure Detected (s t : Pad) : Prop where
  count : t.gest.count = s.gest.count
  started : t.gest.started = s.gest.started
  dirH : t.scroll.dirH = s.scroll.dirH
  dirV : t.scroll.dirV = s.scroll.dirV
  method : t.method = s.method
  touches : t.touches = s.touches
  swipe : t.gest.st = .swipe → s.gest.st = .swipe ∨ 2 < s.gest.count ∨ s.gest.count < 2

theorem det_self (s : Pad) : Detected s s := ⟨rfl, rfl, rfl, rfl, rfl, rfl, fun h => .inl h⟩
theorem det_scroll (s : Pad) (g : Frame) : Detected s (s.toScroll g) := ⟨rfl, rfl, rfl, rfl, rfl, rfl, fun h => by cases h⟩
theorem det_pinch (s : Pad) : Detected s s.toPinch := ⟨rfl, rfl, rfl, rfl, rfl, rfl, fun h => by cases h⟩
theorem det_swipe (s : Pad) (h : 2 < s.gest.count ∨ s.gest.count < 2) : Detected s s.toSwipe := ⟨rfl, rfl, rfl, rfl, rfl, rfl, fun _ => .inr h⟩

theorem gestDetect_facts (s : Pad) (g : Frame) (d1 d2 now : Nat) : Detected s (s.gestDetect g d1 d2 now) := by
  unfold Pad.gestDetect
  simp only
  split
  · next h => exact det_swipe _ (.inl (by simp at h; omega))
  · split
    · exact det_self _
    · generalize (if decide ((s.touch s.gest.second).pos.y < (s.touch s.gest.first).pos.y) = true then s.touch s.gest.first else s.touch s.gest.second) = th
      generalize (if decide ((s.touch s.gest.second).pos.y < (s.touch s.gest.first).pos.y) = true then s.touch s.gest.second else s.touch s.gest.first) = fi
      split
      · split
        · exact det_scroll _ _
        · exact det_swipe _ (by omega)
      · split
        · have k := only_thumbSuppress s th.index
          exact ⟨rfl, rfl, by simp [k.same.scroll], by simp [k.same.scroll], k.same.method, k.touches, fun h => by cases h⟩
        · split
          · exact det_scroll _ _
          · split
            · exact det_pinch _
            · split
              · exact det_self _
              · split
                · exact det_scroll _ _
                · split
                  · next h1 h2 =>
                    refine det_swipe _ ?_
                    simp only [Bool.and_eq_true, Bool.or_eq_true, decide_eq_true_eq, beq_iff_eq, not_and] at h1 h2
                    have := h1 h2.1
                    omega
                  · exact det_pinch _

/-- Starting a gesture. -/
theorem good_gestStart (s : Pad) (c : Now) (h : GInv s c) (hst : s.gest.st = .scroll ∨ s.gest.st = .pinch ∨ s.gest.st = .swipe) :
    ∃ c', followAll c s.gestStart.2 = some c' ∧ GInv s.gestStart.1 c' ∧ s.gestStart.1.gest.started = true ∧ s.gestStart.1.gest.st = s.gest.st ∧
      s.gestStart.1.gest.count = s.gest.count ∧ s.gestStart.1.method = s.method ∧ s.gestStart.1.scroll = s.scroll ∧ s.gestStart.1.cfg = s.cfg ∧ s.gestStart.1.touches = s.touches := by
  unfold Pad.gestStart
  split
  · next hs => exact ⟨c, rfl, h, hs, rfl, rfl, rfl, rfl, rfl, rfl⟩
  · next hs =>
    have hs : s.gest.started = false := by simpa using hs
    have hd := h.still hs
    have hc := h.idle_of_not hs
    subst hc
    have hcnt := h.counts (by rcases hst with e | e | e <;> rw [e] <;> exact fun x => by cases x)
    obtain ⟨t, et⟩ : ∃ x : Pad, x = { s with gest := { s.gest with started := true } } := ⟨_, rfl⟩
    have hsd : t.scrolls = false := by rw [et]; exact hd
    have t1 : t.gest.st = s.gest.st := by rw [et]
    have t2 : t.gest.started = true := by rw [et]
    have t3 : t.gest.count = s.gest.count := by rw [et]
    have t4 : t.method = s.method ∧ t.scroll = s.scroll ∧ t.cfg = s.cfg ∧ t.touches = s.touches := by rw [et]; exact ⟨rfl, rfl, rfl, rfl⟩
    rw [← et]
    clear et
    have key : ∀ c', (c' = .idle → s.gest.st = .scroll) → c' ≠ .scrolling → (∀ k n, c' = .gesture k n → s.gest.st.kind = some k ∧ s.gest.count = n) → GInv t c' := by
      intro c' k1 k2 k3
      refine ⟨fun _ => by rw [t3]; exact hcnt, fun x => by rw [t3]; exact h.swipe (t1.symm.trans x), fun _ => by rw [t1]; exact hst,
        fun x _ => by rw [t1]; exact k1 x, fun x => absurd x k2, fun k n x => ⟨t2, by rw [t1, t3]; exact k3 k n x⟩, fun x => by rw [hsd] at x; cases x⟩
    rcases hst with e | e | e <;> simp only [e, beginOut]
    · exact ⟨.idle, rfl, key _ (fun _ => e) (fun x => by cases x) (fun k n x => by cases x), t2, t1.trans e, t3, t4⟩
    · refine ⟨.gesture .pinch s.gest.count, ?_, key _ (fun x => by cases x) (fun x => by cases x) ?_, t2, t1.trans e, t3, t4⟩
      · have : fingersFor .pinch s.gest.count = true := by simp [fingersFor]; omega
        simp [followAll, follow, this]
      · intro k n x; cases x; exact ⟨by simp [e, GestSt.kind], rfl⟩
    · refine ⟨.gesture .swipe s.gest.count, ?_, key _ (fun x => by cases x) (fun x => by cases x) ?_, t2, t1.trans e, t3, t4⟩
      · have := h.swipe e
        have : fingersFor .swipe s.gest.count = true := by simp [fingersFor]; omega
        simp [followAll, follow, this]
      · intro k n x; cases x; exact ⟨by simp [e, GestSt.kind], rfl⟩

theorem emit_shape {R : Type} (A : Scroll.Arith R) (s : Scroll.State R) (t : Nat) (dx dy : R) :
    Scroll.emit A s t dx dy = [] ∨ (∃ h v, Scroll.emit A s t dx dy = [.axis t h v] ∧ (A.isZero A.zero = true → s.dirH = true ∨ s.dirV = true)) := by
  unfold Scroll.emit
  simp only
  by_cases hz : (A.isZero (if s.dirH = true then dx else A.zero) && A.isZero (if s.dirV = true then dy else A.zero)) = true
  · rw [if_pos hz]; exact .inl rfl
  · rw [if_neg hz]
    refine .inr ⟨_, _, rfl, ?_⟩
    intro hzz
    cases h1 : s.dirH with
    | true => exact .inl rfl
    | false =>
      cases h2 : s.dirV with
      | true => exact .inr rfl
      | false => rw [h1, h2] at hz; simp [hzz] at hz

theorem start_keeps {R : Type} (A : Scroll.Arith R) (s : Scroll.State R) (dx dy : R) (h : (s.dirH || s.dirV) = true) :
    ((Scroll.start A s dx dy).dirH || (Scroll.start A s dx dy).dirV) = true := by
  unfold Scroll.start
  cases h1 : s.dirH <;> cases h2 : s.dirV <;> simp_all

theorem good_gestScroll (s : Pad) (c : Now) (g : Frame) (now : Nat) (hz : s.cfg.arith.isZero s.cfg.arith.zero = true) (h : GInv s c) (hst : s.gest.st = .scroll) : Good c (s.gestScroll g now) := by
  unfold Pad.gestScroll
  by_cases hm : s.method ≠ .twoFinger
  · rw [if_pos hm]; exact .none h
  · rw [if_neg hm]
    have hm : s.method = .twoFinger := by simpa using hm
    by_cases hz0 : s.moved = {}
    · rw [if_pos hz0]; exact .none h
    · rw [if_neg hz0]
      simp only
      obtain ⟨c', h1, h2, h3, h4, h5, h6, h7, h8, _⟩ := good_gestStart s c h (.inl hst)
      obtain ⟨t, et⟩ : ∃ x, x = s.gestStart.1 := ⟨_, rfl⟩
      rw [← et] at h2 h3 h4 h5 h6 h7 h8 ⊢
      have hc' : c' = .idle ∨ c' = .scrolling := by
        cases hcc : c' with
        | idle => exact .inl rfl
        | scrolling => exact .inr rfl
        | gesture k n =>
          have := (h2.gesture k n hcc).2.1
          rw [h4, hst] at this; simp [GestSt.kind] at this
      have key : ∀ c2, (c2 = .idle ∨ (c2 = .scrolling ∧ ((Scroll.start t.cfg.arith t.scroll g.dx g.dy).dirH || (Scroll.start t.cfg.arith t.scroll g.dx g.dy).dirV) = true)) →
          GInv { t with scroll := Scroll.start t.cfg.arith t.scroll g.dx g.dy } c2 := by
        intro c2 hc2
        refine ⟨fun x => h2.counts x, fun x => h2.swipe x, fun x => h2.started x, fun _ _ => h4.trans hst, ?_, ?_, fun _ => ⟨h3, h4.trans hst, h6.trans hm⟩⟩
        · intro x
          rcases hc2 with e | ⟨_, e⟩
          · rw [e] at x; cases x
          · exact e
        · intro k n x
          rcases hc2 with e | ⟨e, _⟩ <;> (rw [e] at x; cases x)
      simp only [Scroll.post]
      have hzt : t.cfg.arith.isZero t.cfg.arith.zero = true := by rw [h8]; exact hz
      rcases emit_shape t.cfg.arith (Scroll.start t.cfg.arith t.scroll g.dx g.dy) now g.dx g.dy with he | ⟨a, b, he, hd⟩
      · rw [he]
        refine ⟨c', by simpa using h1, key c' ?_⟩
        rcases hc' with e | e
        · exact .inl e
        · refine .inr ⟨e, ?_⟩
          have : t.scrolls = true := h2.scrolling e
          exact start_keeps _ _ _ _ this
      · rw [he]
        refine ⟨.scrolling, ?_, key .scrolling (.inr ⟨rfl, ?_⟩)⟩
        · rw [followAll_append, h1]
          rcases hc' with e | e <;> subst e <;> rfl
        · rcases hd hzt with e | e <;> simp [e]

theorem good_gestSwipe (s : Pad) (c : Now) (h : GInv s c) (hst : s.gest.st = .swipe) : Good c s.gestSwipe := by
  unfold Pad.gestSwipe
  split
  · exact .none h
  · obtain ⟨c', h1, h2, h3, h4, h5, h6, h7, h8, _⟩ := good_gestStart s c h (.inr (.inr hst))
    refine ⟨c', ?_, h2⟩
    rw [followAll_append, h1]
    cases hcc : c' with
    | idle => have := h2.idle hcc h3; rw [h4, hst] at this; cases this
    | scrolling => have := (h2.dirs (h2.scrolling hcc)).2.1; rw [h4, hst] at this; cases this
    | gesture k n =>
      obtain ⟨_, k2, k3⟩ := h2.gesture k n hcc
      rw [h4, hst] at k2; simp [GestSt.kind] at k2
      subst k2; simp [followAll, follow, k3]

theorem good_gestPinch (s : Pad) (c : Now) (g : Frame) (h : GInv s c) (hst : s.gest.st = .pinch) : Good c (s.gestPinch g) := by
  unfold Pad.gestPinch
  simp only
  have ht : GInv { s with gest := { s.gest with center := s.centerOf } } c :=
    ⟨h.counts, h.swipe, h.started, h.idle, h.scrolling, h.gesture, h.dirs⟩
  split
  · exact .none ht
  · obtain ⟨c', h1, h2, h3, h4, h5, h6, h7, h8, _⟩ := good_gestStart _ c ht (.inr (.inl hst))
    refine ⟨c', ?_, h2⟩
    rw [followAll_append, h1]
    cases hcc : c' with
    | idle => have := h2.idle hcc h3; rw [h4, hst] at this; cases this
    | scrolling => have := (h2.dirs (h2.scrolling hcc)).2.1; rw [h4, hst] at this; cases this
    | gesture k n =>
      obtain ⟨_, k2, k3⟩ := h2.gesture k n hcc
      rw [h4, hst] at k2; simp [GestSt.kind] at k2
      subst k2; simp [followAll, follow, k3]

theorem good_postGesture (s : Pad) (c : Now) (g : Frame) (d : Nat → Nat) (now : Nat) (hz : s.cfg.arith.isZero s.cfg.arith.zero = true)
    (h : GInv s c) (hn : 2 ≤ s.gest.count ∧ s.gest.count ≤ 4) : Good c (s.postGesture g d now) := by
  unfold Pad.postGesture
  obtain ⟨s1, e1⟩ : ∃ x, x = (if s.gest.st = .none then s.gestNone now else s) := ⟨_, rfl⟩
  have h1 : GInv s1 c ∧ s1.gest.count = s.gest.count ∧ s1.cfg = s.cfg := by
    rw [e1]
    split
    · next hst =>
      have hs : s.gest.started = false := by
        cases hs : s.gest.started with
        | false => rfl
        | true => rcases h.started hs with e | e | e <;> (rw [hst] at e; cases e)
      obtain ⟨f1, f2, f3, f4, f5⟩ := gestNone_facts s now
      have hc := h.idle_of_not hs
      subst hc
      refine ⟨inv_of_not (f2.trans hs) ?_ (by rw [f1]; exact hn) ?_, f1, ?_⟩
      · have := h.still hs; simp only [Pad.scrolls, f3]; exact this
      · intro e; rcases f5 with x | x | x <;> rw [e] at x
        · rw [hst] at x; cases x
        · cases x
        · cases x
      · unfold Pad.gestNone
        split
        · split
          · split <;> rfl
          · split
            · rfl
            · simp only; split <;> rfl
        · rfl
    · exact ⟨h, rfl, rfl⟩
  rw [← e1]
  clear e1
  obtain ⟨h1, hcnt, hcfg⟩ := h1
  simp only
  obtain ⟨s2, e2⟩ : ∃ x, x = (if s1.gest.st = .unknown then s1.gestDetect g (d s1.gest.first) (d s1.gest.second) now else s1) := ⟨_, rfl⟩
  rw [← e2]
  have h2 : GInv s2 c ∧ s2.cfg = s.cfg := by
    rw [e2]
    split
    · next hst =>
      have hs : s1.gest.started = false := by
        cases hs : s1.gest.started with
        | false => rfl
        | true => rcases h1.started hs with e | e | e <;> (rw [hst] at e; cases e)
      have f := gestDetect_facts s1 g (d s1.gest.first) (d s1.gest.second) now
      have hc := h1.idle_of_not hs
      subst hc
      refine ⟨inv_of_not (f.started.trans hs) ?_ (by rw [f.count, hcnt]; exact hn) ?_, ?_⟩
      · have := h1.still hs; simp only [Pad.scrolls, f.dirH, f.dirV]; exact this
      · intro e
        rw [f.count]
        rcases f.swipe e with x | x | x
        · rw [hst] at x; cases x
        · omega
        · omega
      · rw [← hcfg]
        unfold Pad.gestDetect
        simp only
        repeat' split
        all_goals first | rfl | exact (only_thumbSuppress _ _).same.cfg
    · exact ⟨h1, hcfg⟩
  obtain ⟨h2, hcfg2⟩ := h2
  have hz2 : s2.cfg.arith.isZero s2.cfg.arith.zero = true := by rw [hcfg2]; exact hz
  split
  · next e => exact good_gestScroll s2 c g now hz2 h2 e
  · next e => exact good_gestSwipe s2 c h2 e
  · next e => exact good_gestPinch s2 c g h2 e
  · exact .none h2
  · exact .none h2

theorem gestEnd_cfg (s : Pad) (now : Nat) (b : Bool) : (s.gestEnd now b).1.cfg = s.cfg ∧ (s.gestEnd now b).1.method = s.method ∧ (s.gestEnd now b).1.touches = s.touches ∧ (s.gestEnd now b).1.thumb = s.thumb ∧ (s.gestEnd now b).1.dwt = s.dwt ∧ (s.gestEnd now b).1.trk = s.trk ∧ (s.gestEnd now b).1.suspended = s.suspended ∧ (s.gestEnd now b).1.arb = s.arb := by
  unfold Pad.gestEnd
  simp only
  split
  · exact ⟨rfl, rfl, rfl, rfl, rfl, rfl, rfl, rfl⟩
  · split
    · exact ⟨rfl, rfl, rfl, rfl, rfl, rfl, rfl, rfl⟩
    · exact ⟨rfl, rfl, rfl, rfl, rfl, rfl, rfl, rfl⟩
    · unfold Pad.stopTwoFinger; split <;> exact ⟨rfl, rfl, rfl, rfl, rfl, rfl, rfl, rfl⟩
    · exact ⟨rfl, rfl, rfl, rfl, rfl, rfl, rfl, rfl⟩
    · exact ⟨rfl, rfl, rfl, rfl, rfl, rfl, rfl, rfl⟩

theorem good_oneFinger (s : Pad) (c : Now) (g : Frame) (now : Nat) (h : GInv s c) : Good c (s.oneFinger g now) ∧ (s.oneFinger g now).1.cfg = s.cfg := by
  unfold Pad.oneFinger
  split
  · obtain ⟨h1, h2⟩ := good_gestEnd s c now true h
    exact ⟨⟨.idle, h1, Rest.inv ⟨h2.st, h2.started, h2.dirs⟩⟩, (gestEnd_cfg s now true).1⟩
  · exact ⟨.none h, rfl⟩

theorem good_gestPost (s : Pad) (c : Now) (g : Frame) (d : Nat → Nat) (now : Nat) (hz : s.cfg.arith.isZero s.cfg.arith.zero = true)
    (h : GInv s c) : Good c (s.gestPost g d now) := by
  unfold Pad.gestPost
  split
  · exact .none h
  · obtain ⟨⟨c', h1, h2⟩, hcfg⟩ := good_oneFinger s c g now h
    obtain ⟨r, er⟩ : ∃ x, x = s.oneFinger g now := ⟨_, rfl⟩
    rw [← er] at h1 h2 hcfg ⊢
    simp only
    split
    · exact ⟨c', h1, h2⟩
    · split
      · next hc1 =>
        refine ⟨c', ?_, h2⟩
        rw [followAll_append, h1]
        have hid : c' = .idle := by
          refine h2.idle_of_not ?_
          cases hs : r.1.gest.started with
          | false => rfl
          | true =>
            have := h2.counts (by rcases h2.started hs with e | e | e <;> rw [e] <;> exact fun x => by cases x)
            omega
        subst hid
        simp only [Option.bind_some]
        split
        · unfold Pad.postMotion; split <;> rfl
        · rfl
      · split
        · next hc2 =>
          exact Good.append h1 (good_postGesture r.1 c' g d now (by rw [hcfg]; exact hz) h2 (by omega))
        · exact ⟨c', h1, h2⟩

theorem good_each (s : Pad) (c : Now) (f : Finger → Finger × List Out) (hf : ∀ t, ∀ o ∈ (f t).2, o.ofEdge = true) (h : GInv s c) :
    followAll c (s.each f).2 = some c ∧ GInv (s.each f).1 c :=
  ⟨followAll_ofEdge _ _ (each_out _ f s hf), h.same (same_each s f)⟩

theorem good_postRest (s : Pad) (c : Now) (g : Frame) (d : Nat → Nat) (now : Nat) (hz : s.cfg.arith.isZero s.cfg.arith.zero = true)
    (h : GInv s c) : Good c (s.postRest g d now) := by
  unfold Pad.postRest
  split
  · exact .none h
  · split
    · simp only
      obtain ⟨h1, h2⟩ := good_each s c Finger.edgeStop edgeStop_out h
      obtain ⟨k1, k2⟩ := good_gestEnd _ c now true h2
      exact Good.append h1 ⟨.idle, k1, k2.inv⟩
    · simp only
      obtain ⟨h1, h2⟩ := good_each s c (fun t => s.edgePost t now) (fun t => edgePost_out s t now) h
      exact Good.append h1 (good_gestPost _ c g d now (by rw [(same_each s _).cfg]; exact hz) h2)

theorem good_postEvents (s : Pad) (c : Now) (g : Frame) (d : Nat → Nat) (now : Nat) (hz : s.cfg.arith.isZero s.cfg.arith.zero = true)
    (h : GInv s c) : Good c (s.postEvents g d now) := by
  unfold Pad.postEvents
  simp only
  exact Good.append (followAll_ofEdge _ c (clicked_out s g))
    (good_postRest _ c g d now (by rw [(same_clicked s g).cfg]; exact hz) (h.same (same_clicked s g)))

theorem gestState_cfg (s : Pad) (now : Nat) : (s.gestState now).1.cfg = s.cfg ∧ (s.gestState now).1.method = s.method ∧ (s.gestState now).1.touches = s.touches ∧ (s.gestState now).1.thumb = s.thumb ∧ (s.gestState now).1.dwt = s.dwt ∧ (s.gestState now).1.trk = s.trk ∧ (s.gestState now).1.suspended = s.suspended ∧ (s.gestState now).1.arb = s.arb := by
  unfold Pad.gestState
  simp only
  split
  · exact ⟨rfl, rfl, rfl, rfl, rfl, rfl, rfl, rfl⟩
  · split
    · exact gestEnd_cfg s now false
    · split
      · exact ⟨rfl, rfl, rfl, rfl, rfl, rfl, rfl, rfl⟩
      · split <;> exact ⟨rfl, rfl, rfl, rfl, rfl, rfl, rfl, rfl⟩

theorem same_judge (s : Pad) (vs : List View) (g : Frame) (now : Nat) : Same s (s.judge vs g now).1 :=
  (((same_process s vs g now).trans (same_buttons _ _)).trans (same_each _ _)).trans (same_pin _ _)

theorem judge_out (s : Pad) (vs : List View) (g : Frame) (now : Nat) : ∀ o ∈ (s.judge vs g now).2, o = .bug :=
  each_out _ _ _ fun t o ho => edgeState_out _ t now o ho

theorem good_frame (s : Pad) (c : Now) (vs : List View) (g : Frame) (hov : Nat → Bool) (now : Nat) (hz : s.cfg.arith.isZero s.cfg.arith.zero = true)
    (h : GInv s c) : Good c (s.frame vs g hov now) := by
  unfold Pad.frame
  simp only
  have k := same_judge s vs g now
  obtain ⟨c3, h5, h6⟩ := good_gestState _ c now (h.same k)
  obtain ⟨c4, h7, h8⟩ := good_postEvents ((s.judge vs g now).1.gestState now).1 c3 g (fun i => match vs[i]? with | some v => v.gestDirs | none => 0) now
    (by rw [(gestState_cfg _ now).1, k.cfg]; exact hz) h6
  refine ⟨c4, ?_, h8.same (same_settle _ _)⟩
  rw [followAll_append, followAll_append, followAll_ofEdge _ c fun o ho => by rw [judge_out s vs g now o ho]; rfl]
  simp only [Option.bind_some, h5]
  exact h7

theorem good_clear (s : Pad) (c : Now) (vs : List View) (g : Frame) (now : Nat) (hz : s.cfg.arith.isZero s.cfg.arith.zero = true)
    (h : GInv s c) : Good c (s.clear vs g now) := by
  have k : Same s (s.clicked g).1.thumbReset := (same_clicked s g).trans (only_thumbReset _).same
  have f := good_frame (s.clicked g).1.thumbReset c (lifted (s.clicked g).1.touches vs) { g with click := false } (fun _ => false) now
    (by rw [k.cfg]; exact hz) (h.same k)
  unfold Pad.clear
  exact Good.append (followAll_ofEdge _ c (clicked_out s g)) f

theorem good_stopActions (s : Pad) (c : Now) (now : Nat) (h : GInv s c) : Good c (s.stopActions now) := by
  unfold Pad.stopActions
  simp only
  obtain ⟨h1, h2⟩ := good_each s c Finger.edgeStop edgeStop_out h
  obtain ⟨k1, k2⟩ := good_gestEnd _ c now true h2
  exact ⟨.idle, by rw [followAll_append, h1]; exact k1, Rest.inv ⟨k2.st, k2.started, k2.dirs⟩⟩

/-- Nothing that matters for gestures changed. -/
theorem GInv.like {s t : Pad} {c : Now} (h : GInv s c) (e1 : t.gest = s.gest) (e2 : t.scroll = s.scroll) (e3 : t.method = s.method) : GInv t c := by
  have e4 : t.scrolls = s.scrolls := by simp [Pad.scrolls, e2]
  refine ⟨?_, ?_, ?_, ?_, ?_, ?_, ?_⟩ <;> simp only [e1, e3, e4]
  · exact h.counts
  · exact h.swipe
  · exact h.started
  · exact h.idle
  · exact h.scrolling
  · exact h.gesture
  · exact h.dirs

theorem Good.like {c : Now} {r : Pad × List Out} {t : Pad} (h : Good c r) (e1 : t.gest = r.1.gest) (e2 : t.scroll = r.1.scroll)
    (e3 : t.method = r.1.method) : Good c (t, r.2) := by
  obtain ⟨c', h1, h2⟩ := h
  exact ⟨c', h1, h2.like e1 e2 e3⟩

theorem good_keyEvent (s : Pad) (c : Now) (code : Nat) (press : Bool) (now : Nat) (h : GInv s c) : Good c (s.keyEvent code press now) := by
  unfold Pad.keyEvent
  split
  · exact .none (h.like rfl rfl rfl)
  · split
    · exact .none h
    · split
      · exact .none h
      · split
        · exact .none (h.like rfl rfl rfl)
        · split
          · exact .none (h.like rfl rfl rfl)
          · split
            · exact .none h
            · exact (good_stopActions s c now h).like rfl rfl rfl

theorem good_trkEvent (s : Pad) (c : Now) (now : Nat) (h : GInv s c) : Good c (s.trkEvent now) := by
  unfold Pad.trkEvent
  simp only
  obtain ⟨t, et⟩ : ∃ x : Pad, x = { s with trk := { s.trk with last := now, count := s.trk.count + 1 } } := ⟨_, rfl⟩
  have ht : GInv t c := by rw [et]; exact h.like rfl rfl rfl
  rw [← et]
  split
  · exact .none (h.like rfl rfl rfl)
  · split
    · exact .none (ht.like rfl rfl rfl)
    · exact (good_stopActions t c now ht).like rfl rfl rfl

theorem good_gestTimeout (s : Pad) (c : Now) (now : Nat) (h : GInv s c) : Good c (s.gestTimeout now) := by
  unfold Pad.gestTimeout
  simp only
  obtain ⟨t, et⟩ : ∃ x : Pad, x = { s with gest := { s.gest with timer := none } } := ⟨_, rfl⟩
  have ht : GInv t c := by
    rw [et]; exact ⟨h.counts, h.swipe, h.started, h.idle, h.scrolling, h.gesture, h.dirs⟩
  rw [← et]
  split
  · exact .none ht
  · obtain ⟨h1, h2⟩ := good_gestEnd t c now true ht
    exact ⟨.idle, h1, Rest.inv ⟨h2.st, h2.started, h2.dirs⟩⟩

theorem good_setMethod (s : Pad) (c : Now) (m : Method) (now : Nat) (h : GInv s c) : Good c (s.setMethod m now) := by
  unfold Pad.setMethod
  split
  · exact .none h
  · simp only
    obtain ⟨h1, h2⟩ := good_each s c Finger.edgeStop edgeStop_out h
    obtain ⟨t, et⟩ : ∃ x, x = (s.each Finger.edgeStop).1 := ⟨_, rfl⟩
    rw [← et] at h2 ⊢
    -- while a gesture other than scrolling goes on, nothing is stopped
    cases hc : c with
    | gesture k n =>
      have hd : t.scrolls = false := by
        cases hd : t.scrolls with
        | false => rfl
        | true =>
          have e1 := (h2.dirs hd).2.1
          have e2 := (h2.gesture k n hc).2.1
          rw [e1] at e2; simp [GestSt.kind] at e2
      rw [hc] at h1 h2
      have key : (t.stopTwoFinger now).2 = [] ∧ (t.stopTwoFinger now).1.gest = t.gest ∧ (t.stopTwoFinger now).1.scrolls = false := by
        unfold Pad.stopTwoFinger
        split
        · exact ⟨rfl, rfl, hd⟩
        · simp only [Scroll.stop]
          have : (t.scroll.dirH || t.scroll.dirV) = false := hd
          simp [this, Pad.scrolls]
      obtain ⟨q1, q2, q3⟩ := key
      refine ⟨.gesture k n, by rw [q1, List.append_nil]; exact h1, ?_⟩
      refine ⟨?_, ?_, ?_, fun x => (by cases x), fun x => (by cases x), ?_, ?_⟩ <;> simp only [q2]
      · exact h2.counts
      · exact h2.swipe
      · exact h2.started
      · exact h2.gesture
      · intro x; exact absurd (show (t.stopTwoFinger now).1.scrolls = true from x) (by rw [q3]; exact fun y => by cases y)
    | idle =>
      rw [hc] at h1 h2
      obtain ⟨q1, q2, q3, q4, _⟩ := good_stopTwoFinger t .idle now (fun x => (h2.dirs x).2.2) (.inl rfl)
      refine ⟨.idle, by rw [followAll_append, h1]; exact q1, ?_⟩
      refine ⟨?_, ?_, ?_, ?_, fun x => (by cases x), fun k n x => (by cases x), ?_⟩ <;> simp only [q3]
      · exact h2.counts
      · exact h2.swipe
      · exact h2.started
      · exact fun _ => h2.idle rfl
      · intro x; exact absurd (show (t.stopTwoFinger now).1.scrolls = true from x) (by rw [q2]; exact fun y => by cases y)
    | scrolling =>
      rw [hc] at h1 h2
      have hs := h2.scrolling rfl
      obtain ⟨q1, q2, q3, q4, _⟩ := good_stopTwoFinger t .scrolling now (fun x => (h2.dirs x).2.2) (.inr ⟨rfl, hs⟩)
      refine ⟨.idle, by rw [followAll_append, h1]; exact q1, ?_⟩
      refine ⟨?_, ?_, ?_, fun _ _ => (by rw [q3]; exact (h2.dirs hs).2.1), fun x => (by cases x), fun k n x => (by cases x), ?_⟩ <;> simp only [q3]
      · exact h2.counts
      · exact h2.swipe
      · exact h2.started
      · intro x; exact absurd (show (t.stopTwoFinger now).1.scrolls = true from x) (by rw [q2]; exact fun y => by cases y)

theorem good_edgeTimeout (s : Pad) (c : Now) (i now : Nat) (h : GInv s c) : Good c (s.edgeTimeout i now) := by
  unfold Pad.edgeTimeout
  split
  · exact .none h
  · simp only
    refine ⟨c, followAll_ofEdge _ c ?_, h.same (same_put _ _ _)⟩
    intro o ho
    rw [edgeEvent_out _ _ _ _ o ho]; rfl

theorem good_step (s : Pad) (c : Now) (op : Op) (hz : s.cfg.arith.isZero s.cfg.arith.zero = true) (h : GInv s c) : Good c (step s op) := by
  cases op with
  | frame now vs g hov => exact good_frame s c vs g hov now hz h
  | clear now vs g => exact good_clear s c vs g now hz h
  | suspended b => exact .none (h.like rfl rfl rfl)
  | key now k code press =>
    simp only [step]
    split
    · exact good_keyEvent s c code press now h
    · exact .none h
  | pair k => exact .none (h.like rfl rfl rfl)
  | unpair k =>
    simp only [step, Pad.unpair]
    split
    · exact .none (h.like rfl rfl rfl)
    · exact .none h
  | keyTimeout now =>
    simp only [step, Pad.keyTimeout]
    split
    · split <;> exact .none (h.like rfl rfl rfl)
    · exact .none h
  | trackpoint now =>
    simp only [step]
    split
    · exact good_trkEvent s c now h
    · exact .none h
  | trkTimeout now =>
    simp only [step, Pad.trkTimeout]
    split
    · split <;> exact .none (h.like rfl rfl rfl)
    · exact .none h
  | gestTimeout now =>
    simp only [step]
    split
    · exact good_gestTimeout s c now h
    · exact .none h
  | edgeTimeout now i =>
    simp only [step]
    split
    · exact good_edgeTimeout s c i now h
    · exact .none h
  | arbitrate now vs g =>
    simp only [step]
    split
    · exact .none h
    · exact (good_clear { s with arbTimer := none } c vs g now hz (h.like rfl rfl rfl)).like rfl rfl rfl
  | arbitrateEnd now =>
    simp only [step]
    split
    · exact .none (h.like rfl rfl rfl)
    · exact .none h
  | arbTimeout now =>
    simp only [step]
    split
    · exact .none (h.like rfl rfl rfl)
    · exact .none h
  | setMethod now m => exact good_setMethod s c m now h
  | setDwt b => exact .none (h.like rfl rfl rfl)
  | setAreas b => exact .none (h.like rfl rfl rfl)

end Libinput.Motion
