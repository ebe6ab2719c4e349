import Verif.ButtonScroll.Spec
import Verif.Scroll.Props
/-! ## Property theorems: on-button scrolling (C09) -/
namespace Libinput.ButtonScroll
open Libinput.Buttons (Call)
open Spec
variable {R : Type} (A : Scroll.Arith R)

theorem run_append (s : State R) (a b : List (Op R)) :
    run A s (a ++ b) = (run A s a).bind fun r => (run A r.1 b).map fun q => (q.1, r.2 ++ q.2) := by
  induction a generalizing s with
  | nil => simp [run]
  | cons op ops ih =>
    simp only [List.cons_append, run]
    cases h : step A s op with
    | none => simp
    | some q =>
      obtain ⟨s1, o1⟩ := q
      simp only [ih]
      cases h2 : run A s1 ops with
      | none => simp
      | some q2 =>
        obtain ⟨s2, o2⟩ := q2
        simp only [Option.bind_some]
        cases run A s2 b <;> simp

theorem buttons_append (a b : List (Out R)) : buttons (a ++ b) = buttons a ++ buttons b := by simp [buttons]
theorem axes_append (a b : List (Out R)) : axes (a ++ b) = axes a ++ axes b := by simp [axes]
theorem motions_append (a b : List (Out R)) : motions (a ++ b) = motions a ++ motions b := by simp [motions]
theorem buttons_axis (l : List (Scroll.Out R)) : buttons (l.map Out.axis) = [] := by
  induction l with
  | nil => rfl
  | cons a l ih => simpa [buttons] using ih
theorem motions_axis (l : List (Scroll.Out R)) : motions (l.map Out.axis) = [] := by
  induction l with
  | nil => rfl
  | cons a l ih => simpa [motions] using ih
theorem axes_axis (l : List (Scroll.Out R)) : axes (l.map Out.axis) = l := by
  induction l with
  | nil => rfl
  | cons a l ih => rw [List.map_cons]; exact congrArg (a :: ·) ih

/-- Post one scroll call per motion. -/
def posts (ms : List (Nat × R × R)) : List (Scroll.Op R) := ms.map fun m => .post m.1 m.2.1 m.2.2

def motionsOf (ops : List (Op R)) : List (Nat × R × R) :=
  ops.filterMap (fun op => match op with
      | .motion t dx dy => some (t, dx, dy)
      | _ => none)

/-- While scrolling is possible (READY or SCROLLING). -/
theorem run_live (b : Nat) (mid : List (Op R)) (hno : NoScrollButton b mid) :
    ∀ s : State R, s.onButton = true → s.button = b → s.timer = none → (s.st = .ready ∨ s.st = .scrolling) →
      ∃ s' os, run A s mid = some (s', os) ∧
        s' = { s with st := if motionsOf mid = [] then s.st else .scrolling,
                      sc := (Scroll.run A s.sc (posts (motionsOf mid))).1 } ∧
        axes os = (Scroll.run A s.sc (posts (motionsOf mid))).2 ∧
        buttons os = buttonsIn mid ∧ motions os = [] := by
  induction mid with
  | nil => intro s _ _ _ _; exact ⟨s, [], rfl, by simp [motionsOf, posts, Scroll.run], rfl, rfl, rfl⟩
  | cons op mid ih =>
    intro s hon hb ht hst
    have hno' : NoScrollButton b mid := fun t p hm => hno t p (List.mem_cons_of_mem _ hm)
    cases op with
    | button t c p =>
      have hc : c ≠ b := by
        rintro rfl
        exact hno t p (List.mem_cons_self)
      obtain ⟨s', os, h1, h2, h3, h4, h5⟩ := ih hno' s hon hb ht hst
      have hs : step A s (.button t c p) = some (s, [.button ⟨t, c, p⟩]) := by
        simp [step, notifyButton, hb, hc]
      refine ⟨s', .button ⟨t, c, p⟩ :: os, by simp [run, hs, h1], ?_, ?_, ?_, ?_⟩
      · simpa [motionsOf] using h2
      · simpa [axes, motionsOf] using h3
      · rw [show buttonsIn (Op.button t c p :: mid) = ⟨t, c, p⟩ :: buttonsIn mid from rfl, ← h4]; rfl
      · simpa [motions] using h5
    | timer now =>
      obtain ⟨s', os, h1, h2, h3, h4, h5⟩ := ih hno' s hon hb ht hst
      have hs : step A s (.timer now) = some (s, []) := by simp [step, fire, ht]
      refine ⟨s', os, by simp [run, hs, h1], ?_, ?_, ?_, h5⟩
      · simpa [motionsOf] using h2
      · simpa [motionsOf] using h3
      · simpa [buttonsIn] using h4
    | motion t dx dy =>
      have hs : step A s (.motion t dx dy) =
          some ({ s with st := .scrolling, sc := (Scroll.post A s.sc t dx dy).1 },
            (Scroll.post A s.sc t dx dy).2.map .axis) := by
        rcases hst with h | h <;> simp [step, motion, hon, h]
      obtain ⟨s', os, h1, h2, h3, h4, h5⟩ := ih hno'
        { s with st := .scrolling, sc := (Scroll.post A s.sc t dx dy).1 } hon hb ht (Or.inr rfl)
      refine ⟨s', (Scroll.post A s.sc t dx dy).2.map .axis ++ os, by simp [run, hs, h1], ?_, ?_, ?_, ?_⟩
      · rw [h2]
        simp [motionsOf, posts, Scroll.run, Scroll.step]
      · rw [axes_append, axes_axis, h3]
        simp [motionsOf, posts, Scroll.run, Scroll.step]
      · rw [buttons_append, buttons_axis, h4]; rfl
      · rw [motions_append, motions_axis, h5]; rfl

/-- While the button is down and the timeout has not expired. -/
theorem run_down (b due : Nat) (mid : List (Op R)) (hno : NoScrollButton b mid) :
    ∀ s : State R, s.onButton = true → s.button = b → s.timer = some due → s.st = .buttonDown →
      s.sc = Scroll.init A →
      ∃ s' os, run A s mid = some (s', os) ∧
        s'.onButton = true ∧ s'.button = b ∧ s'.lock = s.lock ∧ s'.downTime = s.downTime ∧
        s'.sc = (Scroll.run A (Scroll.init A) (posts (motionsAfter due mid))).1 ∧
        (if motionsAfter due mid = [] then s'.st = .buttonDown ∨ s'.st = .ready else s'.st = .scrolling) ∧
        axes os = (Scroll.run A (Scroll.init A) (posts (motionsAfter due mid))).2 ∧
        buttons os = buttonsIn mid ∧ motions os = [] := by
  induction mid with
  | nil =>
    intro s hon hb ht hst hsc
    exact ⟨s, [], rfl, hon, hb, rfl, rfl, by simpa [motionsAfter, posts, Scroll.run] using hsc,
      by simp [motionsAfter, hst], rfl, rfl, rfl⟩
  | cons op mid ih =>
    intro s hon hb ht hst hsc
    have hno' : NoScrollButton b mid := fun t p hm => hno t p (List.mem_cons_of_mem _ hm)
    cases op with
    | button t c p =>
      have hc : c ≠ b := by
        rintro rfl
        exact hno t p (List.mem_cons_self)
      obtain ⟨s', os, h1, h2, h3, h4, h5, h6, h7, h8, h9, h10⟩ := ih hno' s hon hb ht hst hsc
      have hs : step A s (.button t c p) = some (s, [.button ⟨t, c, p⟩]) := by
        simp [step, notifyButton, hb, hc]
      refine ⟨s', .button ⟨t, c, p⟩ :: os, by simp [run, hs, h1], h2, h3, h4, h5, h6, h7, ?_, ?_, ?_⟩
      · simpa [axes, motionsAfter] using h8
      · rw [show buttonsIn (Op.button t c p :: mid) = ⟨t, c, p⟩ :: buttonsIn mid from rfl, ← h9]; rfl
      · simpa [motions] using h10
    | motion t dx dy =>
      obtain ⟨s', os, h1, h2, h3, h4, h5, h6, h7, h8, h9, h10⟩ := ih hno' s hon hb ht hst hsc
      have hs : step A s (.motion t dx dy) = some (s, []) := by
        simp [step, motion, hon, hst]
      refine ⟨s', os, by simp [run, hs, h1], h2, h3, h4, h5, h6, h7, h8, ?_, h10⟩
      rw [h9]; rfl
    | timer now =>
      by_cases hd : due ≤ now
      · have hs : step A s (.timer now) = some ({ s with timer := none, st := .ready }, []) := by
          simp [step, fire, ht, hd]
        obtain ⟨s', os, h1, h2, h3, h4, h5⟩ := run_live A b mid hno' { s with timer := none, st := .ready }
          hon hb rfl (Or.inl rfl)
        have hma : motionsAfter due (Op.timer now :: mid) = motionsOf mid := by
          unfold motionsAfter; rw [if_pos hd]; rfl
        rw [hma]
        refine ⟨s', os, by simp [run, hs, h1], ?_, ?_, ?_, ?_, ?_, ?_, ?_, ?_, h5⟩
        · rw [h2]; exact hon
        · rw [h2]; exact hb
        · rw [h2]
        · rw [h2]
        · rw [h2, ← hsc]
        · rw [h2]; by_cases hm : motionsOf mid = [] <;> simp [hm]
        · rw [h3, ← hsc]
        · rw [h4]; rfl
      · have hs : step A s (.timer now) = some (s, []) := by simp [step, fire, ht, hd]
        obtain ⟨s', os, h1, h2, h3, h4, h5, h6, h7, h8, h9, h10⟩ := ih hno' s hon hb ht hst hsc
        have hma : motionsAfter due (Op.timer now :: mid) = motionsAfter due mid := by
          simp [motionsAfter, hd]
        rw [hma]
        exact ⟨s', os, by simp [run, hs, h1], h2, h3, h4, h5, h6, h7, h8, h9, h10⟩

theorem run_snoc (s s1 s2 : State R) (a : List (Op R)) (op : Op R) (o1 o2 : List (Out R))
    (h1 : run A s a = some (s1, o1)) (h2 : step A s1 op = some (s2, o2)) :
    run A s (a ++ [op]) = some (s2, o1 ++ o2) := by
  rw [run_append, h1]; simp [run, h2]

/-- The state between two uses of the scroll button: nothing pending. -/
structure AtRest (b : Nat) (s : State R) : Prop where
  on : s.onButton = true
  button : s.button = b
  st : s.st = .idle
  timer : s.timer = none
  sc : s.sc = Scroll.init A
  lock : s.lock = .disabled

/-- The scroll calls of one use of the button. -/
def episodeCalls (t1 t2 : Nat) (mid : List (Op R)) : List (Scroll.Op R) :=
  posts (motionsAfter (t1 + TIMEOUT) mid) ++ [.stop t2]

theorem scroll_run_snoc (s : Scroll.State R) (a : List (Scroll.Op R)) (op : Scroll.Op R) :
    Scroll.run A s (a ++ [op]) = ((Scroll.step A (Scroll.run A s a).1 op).1,
      (Scroll.run A s a).2 ++ (Scroll.step A (Scroll.run A s a).1 op).2) := by
  rw [Scroll.run_append]
  simp [Scroll.run]

theorem episode (b t1 t2 : Nat) (mid : List (Op R)) (hno : NoScrollButton b mid) (s : State R) (hs : AtRest A b s) :
    ∃ s' os, run A s (.button t1 b true :: mid ++ [.button t2 b false]) = some (s', os) ∧ AtRest A b s' ∧
      motions os = [] ∧
      buttons os = buttonsIn mid ++
        (if motionsAfter (t1 + TIMEOUT) mid = [] then [⟨t1, b, true⟩, ⟨t2, b, false⟩] else []) ∧
      axes os = (Scroll.run A (Scroll.init A) (episodeCalls t1 t2 mid)).2 := by
  have hp : step A s (.button t1 b true) =
      some ({ s with st := .buttonDown, timer := some (t1 + TIMEOUT), downTime := t1 }, []) := by
    simp [step, notifyButton, scrollButton, unlockedButton, hs.on, hs.button, hs.lock]
  obtain ⟨s', os, h1, h2, h3, h4, h5, h6, h7, h8, h9, h10⟩ := run_down A b (t1 + TIMEOUT) mid hno
    { s with st := .buttonDown, timer := some (t1 + TIMEOUT), downTime := t1 } hs.on hs.button rfl rfl hs.sc
  simp only at h4 h5
  have hpre : run A s (.button t1 b true :: mid) = some (s', os) := by simp [run, hp, h1]
  have hlock : s'.lock = .disabled := h4.trans hs.lock
  by_cases hm : motionsAfter (t1 + TIMEOUT) mid = []
  · have hrel : step A s' (.button t2 b false) = some ({ s' with timer := none, st := .idle },
        [.button ⟨t1, b, true⟩, .button ⟨t2, b, false⟩]) := by
      rw [if_pos hm] at h7
      rcases h7 with h7 | h7 <;>
        simp [step, notifyButton, scrollButton, unlockedButton, h2, h3, hlock, h7, h5]
    refine ⟨_, _, run_snoc A _ _ _ _ _ _ _ hpre hrel, ⟨h2, h3, rfl, rfl, ?_, hlock⟩, ?_, ?_, ?_⟩
    · rw [h6, hm]; rfl
    · rw [motions_append, h10]; rfl
    · rw [buttons_append, h9, if_pos hm]; rfl
    · rw [axes_append, h8, episodeCalls, scroll_run_snoc, hm]
      simp [posts, Scroll.run, axes, Scroll.step, Scroll.stop, Scroll.init]
  · rw [if_neg hm] at h7
    have hrel : step A s' (.button t2 b false) = some
        ({ s' with timer := none, st := .idle, sc := (Scroll.stop A s'.sc t2).1 },
          (Scroll.stop A s'.sc t2).2.map .axis) := by
      simp [step, notifyButton, scrollButton, unlockedButton, h2, h3, hlock, h7]
    refine ⟨_, _, run_snoc A _ _ _ _ _ _ _ hpre hrel, ⟨h2, h3, rfl, rfl, rfl, hlock⟩, ?_, ?_, ?_⟩
    · rw [motions_append, h10, motions_axis]; rfl
    · rw [buttons_append, h9, if_neg hm, buttons_axis]
    · rw [axes_append, h8, axes_axis, episodeCalls, scroll_run_snoc, h6]; rfl

/-- Between uses of the scroll button everything passes through. -/
theorem run_rest (b : Nat) (mid : List (Op R)) (hno : NoScrollButton b mid) :
    ∀ s : State R, AtRest A b s → ∃ os, run A s mid = some (s, os) ∧
      buttons os = buttonsIn mid ∧ motions os = motionsOf mid ∧ axes os = [] := by
  induction mid with
  | nil => intro s _; exact ⟨[], rfl, rfl, rfl, rfl⟩
  | cons op mid ih =>
    intro s hs
    have hno' : NoScrollButton b mid := fun t p hm => hno t p (List.mem_cons_of_mem _ hm)
    obtain ⟨os, h1, h2, h3, h4⟩ := ih hno' s hs
    cases op with
    | button t c p =>
      have hc : c ≠ b := by
        rintro rfl
        exact hno t p (List.mem_cons_self)
      have hst : step A s (.button t c p) = some (s, [.button ⟨t, c, p⟩]) := by
        simp [step, notifyButton, hs.button, hc]
      refine ⟨.button ⟨t, c, p⟩ :: os, by simp [run, hst, h1], ?_, ?_, ?_⟩
      · rw [show buttonsIn (Op.button t c p :: mid) = ⟨t, c, p⟩ :: buttonsIn mid from rfl, ← h2]; rfl
      · simpa [motions, motionsOf] using h3
      · simpa [axes] using h4
    | motion t dx dy =>
      have hst : step A s (.motion t dx dy) = some (s, [.motion t dx dy]) := by
        simp [step, motion, hs.on, hs.st]
      refine ⟨.motion t dx dy :: os, by simp [run, hst, h1], ?_, ?_, ?_⟩
      · simpa [buttons, buttonsIn] using h2
      · rw [show motionsOf (Op.motion t dx dy :: mid) = (t, dx, dy) :: motionsOf mid from rfl, ← h3]; rfl
      · simpa [axes] using h4
    | timer now =>
      have hst : step A s (.timer now) = some (s, []) := by simp [step, fire, hs.timer]
      exact ⟨os, by simp [run, hst, h1], by simpa [buttonsIn] using h2, by simpa [motionsOf] using h3, h4⟩

theorem held_append (b : Nat) (h : Bool) (x y : List (Op R)) : held b h (x ++ y) = held b (held b h x) y := by
  simp [held]

theorem held_noScroll (b : Nat) (mid : List (Op R)) (hno : NoScrollButton b mid) (h : Bool) :
    held b h mid = h := by
  induction mid generalizing h with
  | nil => rfl
  | cons op mid ih =>
    have hno' : NoScrollButton b mid := fun t p hm => hno t p (List.mem_cons_of_mem _ hm)
    have : held b h (op :: mid) = held b (held b h [op]) mid := held_append b h [op] mid
    rw [this, ih hno']
    cases op with
    | button t c p =>
      have hc : c ≠ b := by
        rintro rfl
        exact hno t p (List.mem_cons_self)
      simp [held, hc]
    | motion _ _ _ => rfl
    | timer _ => rfl

/-- Split at the first event of the scroll button. -/
theorem split_first (b : Nat) (ops : List (Op R)) :
    NoScrollButton b ops ∨ ∃ mid t p post, ops = mid ++ .button t b p :: post ∧ NoScrollButton b mid := by
  induction ops with
  | nil => left; intro t p; simp
  | cons op ops ih =>
    have key : (∃ t p, op = .button t b p) ∨ ∀ t p, op ≠ .button t b p := by
      cases op with
      | button t c p =>
        by_cases hc : c = b
        · subst hc; exact Or.inl ⟨t, p, rfl⟩
        · right; rintro t' p' h; injection h; contradiction
      | motion _ _ _ => right; rintro t' p' h; cases h
      | timer _ => right; rintro t' p' h; cases h
    rcases key with ⟨t, p, rfl⟩ | hne
    · right; exact ⟨[], t, p, ops, rfl, by intro t p; simp⟩
    · rcases ih with h | ⟨mid, t, p, post, rfl, hm⟩
      · left; intro t p hm
        rcases List.mem_cons.mp hm with h' | h'
        · exact hne t p h'.symm
        · exact h t p h'
      · right
        refine ⟨op :: mid, t, p, post, rfl, ?_⟩
        intro t p h
        rcases List.mem_cons.mp h with h' | h'
        · exact hne t p h'.symm
        · exact hm t p h'

theorem alternates_drop (b : Nat) (x y : List (Op R)) (h : Alternates b (x ++ y)) (hx : held b false x = false) :
    Alternates b y := by
  intro pre t p post he
  have := h (x ++ pre) t p post (by rw [he]; simp)
  rw [held_append, hx] at this
  exact this

theorem alternates_take (b : Nat) (x y : List (Op R)) (h : Alternates b (x ++ y)) : Alternates b x := by
  intro pre t p post he
  exact h pre t p (post ++ y) (by rw [he]; simp)

/-- A history in which the scroll button alternates and is up at the end is a sequence of pieces without
scroll button and of complete uses. -/
theorem run_to_rest (b : Nat) (n : Nat) : ∀ (ops : List (Op R)), ops.length ≤ n → Alternates b ops →
    held b false ops = false → ∀ s, AtRest A b s → ∃ s' os, run A s ops = some (s', os) ∧ AtRest A b s' := by
  induction n with
  | zero =>
    intro ops hl _ _ s hs
    have : ops = [] := List.length_eq_zero_iff.mp (Nat.le_zero.mp hl)
    subst this
    exact ⟨s, [], rfl, hs⟩
  | succ n ih =>
    intro ops hl ha hh s hs
    rcases split_first b ops with hno | ⟨m1, t1, p1, rest, rfl, hm1⟩
    · obtain ⟨os, h1, _⟩ := run_rest A b ops hno s hs
      exact ⟨s, os, h1, hs⟩
    · have hp1 : p1 = true := by
        have := ha m1 t1 p1 rest rfl
        rw [held_noScroll b m1 hm1] at this
        cases p1 with
        | true => rfl
        | false => cases this
      subst hp1
      obtain ⟨o1, hr1, _⟩ := run_rest A b m1 hm1 s hs
      rcases split_first b rest with hno | ⟨m2, t2, p2, rest2, rfl, hm2⟩
      · rw [held_append, held_noScroll b m1 hm1] at hh
        have : held b false (Op.button t1 b true :: rest) = held b true rest := by
          simp [held]
        rw [this, held_noScroll b rest hno] at hh
        cases hh
      · have hp2 : p2 = false := by
          have := ha (m1 ++ .button t1 b true :: m2) t2 p2 rest2 (by simp)
          rw [held_append, held_noScroll b m1 hm1] at this
          have h' : held b false (Op.button t1 b true :: m2) = held b true m2 := by simp [held]
          rw [h', held_noScroll b m2 hm2] at this
          cases p2 with
          | true => cases this
          | false => rfl
        subst hp2
        obtain ⟨s2, o2, hr2, hs2, _⟩ := episode A b t1 t2 m2 hm2 s hs
        have hall : m1 ++ Op.button t1 b true :: (m2 ++ Op.button t2 b false :: rest2)
            = (m1 ++ (Op.button t1 b true :: m2 ++ [Op.button t2 b false])) ++ rest2 := by simp
        have hheld : held b false (m1 ++ (Op.button t1 b true :: m2 ++ [Op.button t2 b false])) = false := by
          rw [held_append, held_append]; simp [held]
        rw [hall] at ha hh hl ⊢
        obtain ⟨s3, o3, hr3, hs3⟩ := ih rest2 (by simp at hl; omega)
          (alternates_drop b _ _ ha hheld) (by rw [held_append, hheld] at hh; exact hh) s2 hs2
        refine ⟨s3, (o1 ++ o2) ++ o3, ?_, hs3⟩
        rw [run_append, run_append, hr1]
        simp only [Option.bind_some]
        rw [hr2]
        simp [hr3]

theorem init_atRest (b : Nat) : AtRest A b (init A true b false) := ⟨rfl, rfl, rfl, rfl, rfl, rfl⟩

/-- **C09, no lock.**  On-button scrolling is configured with scroll button `b`.  Take any history in which
`b` alternates, and in it any use of the scroll button: a press at `t1`, the operations `mid` until
its release at `t2`.  Then nothing aborts and what is sent during that use is:
no pointer motion; the other buttons unchanged; the scroll button's click, with the times of the
physical press and release, exactly if there was no motion after the scroll timeout; and the scroll
events of the motions after the timeout followed by the stop. -/
theorem button_scroll_click_or_scroll (b t1 t2 : Nat) (pre mid post : List (Op R))
    (hno : NoScrollButton b mid)
    (halt : Alternates b (pre ++ (.button t1 b true :: mid ++ [.button t2 b false]) ++ post)) :
    ∃ s1 o1 s2 o2, run A (init A true b false) pre = some (s1, o1) ∧
      run A s1 (.button t1 b true :: mid ++ [.button t2 b false]) = some (s2, o2) ∧
      motions o2 = [] ∧
      buttons o2 = buttonsIn mid ++
        (if motionsAfter (t1 + TIMEOUT) mid = [] then [⟨t1, b, true⟩, ⟨t2, b, false⟩] else []) ∧
      axes o2 = (Scroll.run A (Scroll.init A)
        ((motionsAfter (t1 + TIMEOUT) mid).map (fun m => .post m.1 m.2.1 m.2.2) ++ [.stop t2])).2 := by
  have hup : held b false pre = false := by
    have := halt pre t1 true (mid ++ [.button t2 b false] ++ post) (by simp)
    simpa using this
  have halt' : Alternates b pre := by
    rw [List.append_assoc] at halt
    exact alternates_take b _ _ halt
  obtain ⟨s1, o1, h1, hs1⟩ := run_to_rest A b pre.length pre (Nat.le_refl _) halt' hup _ (init_atRest A b)
  obtain ⟨s2, o2, h2, _, h3, h4, h5⟩ := episode A b t1 t2 mid hno s1 hs1
  exact ⟨s1, o1, s2, o2, h1, h2, h3, h4, h5⟩

/-- **C09, never both.**  In the same setting: if any scroll event was sent during the use, then no event of
the scroll button was sent, and after the release no scroll axis is left open. -/
theorem button_scroll_never_both (hz : A.isZero A.zero = true) (b t1 t2 : Nat) (pre mid post : List (Op R))
    (hno : NoScrollButton b mid)
    (halt : Alternates b (pre ++ (.button t1 b true :: mid ++ [.button t2 b false]) ++ post)) :
    ∃ s1 o1 s2 o2, run A (init A true b false) pre = some (s1, o1) ∧
      run A s1 (.button t1 b true :: mid ++ [.button t2 b false]) = some (s2, o2) ∧
      (axes o2 ≠ [] → ∀ c ∈ buttons o2, c.code ≠ b) ∧
      Scroll.Spec.openH (axes o2) = false ∧ Scroll.Spec.openV (axes o2) = false := by
  obtain ⟨s1, o1, s2, o2, h1, h2, h3, h4, h5⟩ := button_scroll_click_or_scroll A b t1 t2 pre mid post hno halt
  refine ⟨s1, o1, s2, o2, h1, h2, ?_, ?_, ?_⟩
  · intro hax c hc
    rw [h4, List.mem_append] at hc
    rcases hc with hc | hc
    · intro he
      simp only [buttonsIn, List.mem_filterMap] at hc
      obtain ⟨op, hop, ho⟩ := hc
      cases op with
      | button t c' p =>
        simp only [Option.some.injEq] at ho
        subst ho
        simp only at he
        subst he
        exact hno t p hop
      | motion _ _ _ => simp at ho
      | timer _ => simp at ho
    · by_cases hm : motionsAfter (t1 + TIMEOUT) mid = []
      · exfalso
        apply hax
        rw [h5, hm]
        simp [Scroll.run, Scroll.step, Scroll.stop, Scroll.init]
      · simp [hm] at hc
  · rw [h5]
    exact (Scroll.scroll_always_terminated A hz _ t2).2.2.1
  · rw [h5]
    exact (Scroll.scroll_always_terminated A hz _ t2).2.2.2

/-! ### The button lock -/

/-- The lock state and the number of scroll-button events seen, modulo four. -/
def lockOf : Nat → Lock
  | 0 => .idle
  | 1 => .firstDown
  | 2 => .firstUp
  | _ => .secondDown

theorem unlocked_lock (s : State R) (l : Lock) (t : Nat) (p : Bool) :
    unlockedButton A { s with lock := l } t p =
      ({ (unlockedButton A s t p).1 with lock := l }, (unlockedButton A s t p).2) := by
  obtain ⟨on, bt, lk, st, tm, dt, sc⟩ := s
  unfold unlockedButton
  cases p
  · simp only [Bool.false_eq_true, if_false]
    cases st <;> rfl
  · rfl

theorem fire_lock (s : State R) (l : Lock) (now : Nat) :
    fire { s with lock := l } now = { fire s now with lock := l } := by
  obtain ⟨on, bt, lk, st, tm, dt, sc⟩ := s
  unfold fire
  cases tm with
  | none => rfl
  | some e => simp only; split <;> rfl

theorem motion_lock (s : State R) (l : Lock) (t : Nat) (dx dy : R) :
    motion A { s with lock := l } t dx dy = ({ (motion A s t dx dy).1 with lock := l }, (motion A s t dx dy).2) := by
  obtain ⟨on, bt, lk, st, tm, dt, sc⟩ := s
  unfold motion
  simp only
  split
  · rfl
  · cases st <;> rfl

theorem unlocked_keeps (s : State R) (t : Nat) (p : Bool) :
    (unlockedButton A s t p).1.lock = s.lock ∧ (unlockedButton A s t p).1.onButton = s.onButton ∧
    (unlockedButton A s t p).1.button = s.button := by
  unfold unlockedButton
  cases p
  · simp only [Bool.false_eq_true, if_false]
    cases s.st <;> exact ⟨rfl, rfl, rfl⟩
  · exact ⟨rfl, rfl, rfl⟩

theorem fire_keeps (s : State R) (now : Nat) :
    (fire s now).lock = s.lock ∧ (fire s now).onButton = s.onButton ∧ (fire s now).button = s.button := by
  unfold fire
  cases s.timer with
  | none => exact ⟨rfl, rfl, rfl⟩
  | some e => simp only; split <;> exact ⟨rfl, rfl, rfl⟩

theorem motion_keeps (s : State R) (t : Nat) (dx dy : R) :
    (motion A s t dx dy).1.lock = s.lock ∧ (motion A s t dx dy).1.onButton = s.onButton ∧
    (motion A s t dx dy).1.button = s.button := by
  unfold motion
  split
  · exact ⟨rfl, rfl, rfl⟩
  · cases s.st <;> exact ⟨rfl, rfl, rfl⟩

theorem lock_sim (b : Nat) (ops : List (Op R)) :
    ∀ (k : Nat) (h : Bool), k < 4 → (h = true ↔ k % 2 = 1) →
    (∀ pre t p post, ops = pre ++ .button t b p :: post → held b h pre = !p) →
    ∀ s : State R, s.onButton = true → s.button = b → s.lock = .disabled →
    ∀ s' os, run A s (unlock b k ops) = some (s', os) →
      ∃ k', k' < 4 ∧ run A { s with lock := lockOf k } ops = some ({ s' with lock := lockOf k' }, os) := by
  induction ops with
  | nil =>
    intro k h hk _ _ s _ _ _ s' os hr
    simp only [unlock, run, Option.some.injEq, Prod.mk.injEq] at hr
    obtain ⟨rfl, rfl⟩ := hr
    exact ⟨k, hk, rfl⟩
  | cons op ops ih =>
    intro k h hk hkh halt s hon hb hl s' os hr
    -- one step that both runs take alike
    have both : ∀ (s1 : State R) (o1 : List (Out R)) (k1 : Nat) (h1 : Bool), k1 < 4 → (h1 = true ↔ k1 % 2 = 1) →
        held b h [op] = h1 →
        unlock b k (op :: ops) = op :: unlock b k1 ops →
        step A s op = some (s1, o1) → s1.onButton = true → s1.button = b → s1.lock = .disabled →
        step A { s with lock := lockOf k } op = some ({ s1 with lock := lockOf k1 }, o1) →
        ∃ k', k' < 4 ∧ run A { s with lock := lockOf k } (op :: ops) = some ({ s' with lock := lockOf k' }, os) := by
      intro s1 o1 k1 h1 hk1 hkh1 hh1 hu hs1 hon1 hb1 hl1 hs1'
      rw [hu] at hr
      simp only [run, hs1] at hr
      cases hr2 : run A s1 (unlock b k1 ops) with
      | none => simp [hr2] at hr
      | some q =>
        obtain ⟨s2, o2⟩ := q
        simp only [hr2, Option.some.injEq, Prod.mk.injEq] at hr
        obtain ⟨rfl, rfl⟩ := hr
        have halt1 : ∀ pre t p post, ops = pre ++ .button t b p :: post → held b h1 pre = !p := by
          intro pre t p post he
          have := halt (op :: pre) t p post (by rw [he]; rfl)
          rw [show op :: pre = [op] ++ pre from rfl, held_append, hh1] at this
          exact this
        obtain ⟨k', hk', hrun⟩ := ih k1 h1 hk1 hkh1 halt1 s1 hon1 hb1 hl1 s2 o2 hr2
        exact ⟨k', hk', by simp [run, hs1', hrun]⟩
    cases op with
    | timer now =>
      obtain ⟨f1, f2, f3⟩ := fire_keeps s now
      exact both (fire s now) [] k h hk hkh rfl rfl rfl (f2.trans hon) (f3.trans hb) (f1.trans hl)
        (by simp [step, fire_lock])
    | motion t dx dy =>
      obtain ⟨f1, f2, f3⟩ := motion_keeps A s t dx dy
      exact both (motion A s t dx dy).1 (motion A s t dx dy).2 k h hk hkh rfl rfl rfl (f2.trans hon)
        (f3.trans hb) (f1.trans hl) (by simp [step, motion_lock])
    | button t c p =>
      by_cases hc : c = b
      · subst hc
        have hp : p = !h := by
          have := halt [] t p ops rfl
          simp only [held, List.foldl_nil] at this
          rw [this]; simp
        subst hp
        have hh1 : held c h [Op.button (R := R) t c (!h)] = !h := by simp [held]
        obtain ⟨u1, u2, u3⟩ := unlocked_keeps A s t (!h)
        have hk4 : k = 0 ∨ k = 1 ∨ k = 2 ∨ k = 3 := by omega
        -- a step that the locked run swallows
        have skip : (k = 1 ∨ k = 2) → ∃ k', k' < 4 ∧
            run A { s with lock := lockOf k } (Op.button t c (!h) :: ops) = some ({ s' with lock := lockOf k' }, os) := by
          intro hk12
          have hu : unlock c k (Op.button t c (!h) :: ops) = unlock c ((k + 1) % 4) ops := by
            rcases hk12 with rfl | rfl <;> simp [unlock]
          rw [hu] at hr
          have halt1 : ∀ pre t' p post, ops = pre ++ .button t' c p :: post → held c (!h) pre = !p := by
            intro pre t' p post he
            have := halt (Op.button t c (!h) :: pre) t' p post (by rw [he]; rfl)
            rw [show Op.button t c (!h) :: pre = [Op.button t c (!h)] ++ pre from rfl, held_append, hh1] at this
            exact this
          obtain ⟨k', hk', hrun⟩ := ih ((k + 1) % 4) (!h) (by omega)
            (by cases h <;> simp_all <;> omega) halt1 s hon hb hl s' os hr
          refine ⟨k', hk', ?_⟩
          have hs1' : step A { s with lock := lockOf k } (Op.button t c (!h)) =
              some ({ s with lock := lockOf ((k + 1) % 4) }, []) := by
            rcases hk12 with rfl | rfl
            · have : h = true := hkh.mpr rfl
              subst this
              simp [step, notifyButton, scrollButton, hon, hb, lockOf]
            · have : h = false := by cases h <;> simp_all
              subst this
              simp [step, notifyButton, scrollButton, hon, hb, lockOf]
          simp [run, hs1', hrun]
        have hstep : step A s (.button t c (!h)) = some (unlockedButton A s t (!h)) := by
          simp [step, notifyButton, scrollButton, hon, hb, hl]
        rcases hk4 with rfl | rfl | rfl | rfl
        · have : h = false := by cases h <;> simp_all
          subst this
          refine both _ _ 1 true (by omega) (by simp) hh1 (by simp [unlock]) hstep (u2.trans hon)
            (u3.trans hb) (u1.trans hl) ?_
          have hs : step A { s with lock := .idle } (.button t c true) =
              some (unlockedButton A { s with lock := .firstDown } t true) := by
            simp [step, notifyButton, scrollButton, hon, hb]
          show step A { s with lock := .idle } (.button t c true) = _
          rw [hs, unlocked_lock]; rfl
        · exact skip (Or.inl rfl)
        · exact skip (Or.inr rfl)
        · have : h = true := hkh.mpr rfl
          subst this
          refine both _ _ 0 false (by omega) (by simp) hh1 (by simp [unlock]) hstep (u2.trans hon)
            (u3.trans hb) (u1.trans hl) ?_
          have hs : step A { s with lock := .secondDown } (.button t c false) =
              some (unlockedButton A { s with lock := .idle } t false) := by
            simp [step, notifyButton, scrollButton, hon, hb]
          show step A { s with lock := .secondDown } (.button t c false) = _
          rw [hs, unlocked_lock]; rfl
      · refine both s [.button ⟨t, c, p⟩] k h hk hkh (by simp [held, hc]) (by simp [unlock, hc])
          (by simp [step, notifyButton, hb, hc]) hon hb hl (by simp [step, notifyButton, hb, hc])

/-- Whatever the unlocked button does: never an abort. -/
theorem run_unlocked_total (ops : List (Op R)) :
    ∀ s : State R, s.lock = .disabled → ∃ s' os, run A s ops = some (s', os) := by
  induction ops with
  | nil => intro s _; exact ⟨s, [], rfl⟩
  | cons op ops ih =>
    intro s hl
    have : ∃ s1 o1, step A s op = some (s1, o1) ∧ s1.lock = .disabled := by
      cases op with
      | timer now => exact ⟨_, _, rfl, (fire_keeps s now).1.trans hl⟩
      | motion t dx dy => exact ⟨_, _, rfl, (motion_keeps A s t dx dy).1.trans hl⟩
      | button t c p =>
        simp only [step, notifyButton]
        split
        · simp only [scrollButton, hl]
          exact ⟨_, _, rfl, (unlocked_keeps A s t p).1.trans hl⟩
        · exact ⟨_, _, rfl, hl⟩
    obtain ⟨s1, o1, h1, h2⟩ := this
    obtain ⟨s2, o2, h3⟩ := ih s1 h2
    exact ⟨s2, o1 ++ o2, by simp [run, h1, h3]⟩

/-- **C09, lock.**  With the button lock enabled the device behaves, for every history in which the scroll
button alternates, exactly as a device without lock on which the scroll button is held from the first
press to the second release; in particular it does not abort. -/
theorem button_scroll_lock (b : Nat) (ops : List (Op R)) (halt : Alternates b ops) :
    ∃ s' s'' os, run A (init A true b true) ops = some (s', os) ∧
      run A (init A true b false) (unlock b 0 ops) = some (s'', os) := by
  obtain ⟨s'', os, h⟩ := run_unlocked_total A (unlock b 0 ops) (init A true b false) rfl
  obtain ⟨k', hk', h2⟩ := lock_sim A b ops 0 false (by omega) (by simp) halt (init A true b false) rfl rfl rfl
    s'' os h
  exact ⟨_, s'', os, h2, h⟩

/-! ### Where the code falls short, and non-vacuity -/

/-- **C09 fails for small motion.**  Hold the scroll button past the timeout, move by less than the scroll
threshold and release: neither a click nor a scroll event is sent. -/
theorem small_motion_loses_click :
    run Scroll.intArith (init Scroll.intArith true 0x112 false)
      [.button 0 0x112 true, .timer 200000, .motion 210000 1 0, .button 300000 0x112 false] =
    some (init Scroll.intArith true 0x112 false, []) := by rfl

/-- **Abort.**  With the lock, a second press without a release in between fails an assertion.  This happens
when the scroll button is the middle button and middle-button emulation adds a middle press while
the physical middle button is held, see `Verif/Mouse`. -/
theorem lock_double_press_aborts :
    run Scroll.intArith (init Scroll.intArith true 0x112 true)
      [.button 0 0x112 true, .button 1 0x112 true] = none := by rfl

/-- Non-vacuity: a click and a scroll in one history. -/
example : (run Scroll.intArith (init Scroll.intArith true 0x112 false)
      [.button 0 0x112 true, .motion 5 9 9, .button 10 0x112 false,
       .motion 20 1 1,
       .button 1000000 0x112 true, .timer 1200000, .motion 1210000 0 6, .button 1300000 0x112 false]).map
        (fun r => (buttons r.2, axes r.2, motions r.2))
    = some ([⟨0, 0x112, true⟩, ⟨10, 0x112, false⟩],
        [.axis 1210000 none (some 6), .stop 1300000 false true], [(20, 1, 1)]) := by decide

/-- Non-vacuity of the hypotheses of `button_scroll_click_or_scroll`. -/
example : NoScrollButton 0x112 [Op.timer 200000, Op.motion (R := Int) 210000 0 6, Op.button 220000 0x110 true] ∧
    motionsAfter (0 + TIMEOUT) [Op.timer 200000, Op.motion (R := Int) 210000 0 6, Op.button 220000 0x110 true]
      = [(210000, 0, 6)] := by
  refine ⟨?_, by decide⟩
  intro t p h
  simp at h

/-- Non-vacuity of the lock theorem: press, release, scroll, press, release. -/
example : (run Scroll.intArith (init Scroll.intArith true 0x112 true)
      [.button 0 0x112 true, .button 10 0x112 false, .timer 200000, .motion 210000 0 6,
       .button 300000 0x112 true, .motion 310000 0 7, .button 320000 0x112 false]).map
        (fun r => (buttons r.2, axes r.2, motions r.2))
    = some ([], [.axis 210000 none (some 6), .axis 310000 none (some 7), .stop 320000 false true], []) := by decide

end Libinput.ButtonScroll
