import Verif.Touch.Extra
import Verif.Tap.Spec
import Verif.SoftButtons.Spec
/-
The touches of a touchpad (C39).
-/
namespace Libinput.Touch
open Spec

/-! A touchpad with two slots and five touches, for the examples. -/

def cfgPress : Config := { mode := .pressure 20 30 }
def cfgSize : Config := { mode := .size 20 30 }
def cfgButtons : Config := { mode := .buttons }
def still : Slot := ⟨0, 0, 0, 0, false⟩
def two : List Slot := [still, still]

/-- A finger lands in slot 0, presses, a second one lands in slot 1, a third one without a slot; all are lifted. -/
def story : List Op :=
  [.tracking true, .axis .y 10, .axis .pressure 50, .key .touch true, .key .finger true, .syn,
   .slot 1, .tracking true, .axis .y 5, .axis .pressure 50, .key .finger false, .key .double true, .syn,
   .key .double false, .key .triple true, .syn, .slot 0, .axis .y 12, .syn,
   .key .triple false, .key .touch false, .tracking false, .slot 1, .tracking false, .syn]

/-! ## The life of a touch -/

/-- Whatever the kernel reports, what the rest of the touchpad code sees of each touch is a life: it begins only when it
was not down, continues and ends only when it was, begins and ends marked as changed, and all touches are lifted when the
state is cleared. -/
theorem touches_live (cfg : Config) (num n slot : Nat) (ks : List Slot) (finger : Bool) (ops : List Op) :
    Lives (List.replicate n false) (run (init cfg num n slot ks finger) ops).2 :=
  (run_between (init_between cfg num n slot ks finger).1 ops).2.2

/-- No message about a touch in an unexpected state is ever logged. -/
theorem never_confused (cfg : Config) (num n slot : Nat) (ks : List Slot) (finger : Bool) (ops : List Op) :
    (run (init cfg num n slot ks finger) ops).1.acc.bug = false :=
  (run_between (init_between cfg num n slot ks finger).1 ops).2.1.trans (init_between cfg num n slot ks finger).2.1

theorem run_syn (s : Pad) (ops : List Op) :
    run s (ops ++ [.syn]) = ((run s ops).1.handle.1, (run s ops).2 ++ [.frame (run s ops).1.handle.2]) := by
  rw [run_append, run_cons]; rfl

/-- After each frame the number of fingers is the number of touches that were shown to be down in it. -/
theorem fingers_counted (cfg : Config) (num n slot : Nat) (ks : List Slot) (finger : Bool) (ops : List Op) :
    ∃ vs, (run (init cfg num n slot ks finger) (ops ++ [.syn])).2 = (run (init cfg num n slot ks finger) ops).2 ++ [.frame vs] ∧
      (run (init cfg num n slot ks finger) (ops ++ [.syn])).1.fingers = vs.countP downAfter := by
  rw [run_syn]
  refine ⟨_, rfl, ?_⟩
  obtain ⟨s', h1, h2, h3⟩ := (handle_between (run_between (init_between cfg num n slot ks finger).1 ops).1).2.2
  rw [h2, views_downs, ← h1.counted]
  exact h3.symm

/-- When the state is cleared, all touches are gone and no finger is counted. -/
theorem all_cleared (cfg : Config) (num n slot : Nat) (ks : List Slot) (finger : Bool) (ops : List Op) :
    (∀ t ∈ (run (init cfg num n slot ks finger) (ops ++ [.clear])).1.touches, t.st = .none) ∧
    (run (init cfg num n slot ks finger) (ops ++ [.clear])).1.fingers = 0 ∧
    (run (init cfg num n slot ks finger) (ops ++ [.clear])).1.fake = {} := by
  rw [run_append, run_cons]
  have h := clear_between (run_between (init_between cfg num n slot ks finger).1 ops).1
  refine ⟨fun t ht => (h.2.2.2.2.1 t ht).1, ?_, h.2.2.2.2.2⟩
  have hc : (run (init cfg num n slot ks finger) ops).1.clear.1.acc.n = _ := h.1.counted
  show (run (init cfg num n slot ks finger) ops).1.clear.1.acc.n = 0
  rw [hc]
  unfold downs
  rw [List.countP_eq_zero]
  intro t ht
  simp [Finger.down, (h.2.2.2.2.1 t ht).1]

example : (run (init cfgPress 2 5 0 two false) story).2.length = 5 ∧
    (run (init cfgPress 2 5 0 two false) (story.take 16)).1.fingers = 3 := by decide +kernel

example : (run (init cfgPress 2 5 0 two false) (story.take 16 ++ [.clear])).2.getLast? =
    some (.cleared [(.end_, true), (.end_, true), (.end_, true), (.none, false), (.none, false)]) := by decide +kernel

/-! ## No abort -/

/-- As long as the kernel ends only the touch sequences that are going on, the asserts about the numbers of fingers and of
slots hold, except on ALPS touchpads. -/
theorem never_aborts (cfg : Config) (num n slot : Nat) (ks : List Slot) (finger : Bool) (ops : List Op)
    (ha : cfg.alps = false) (hs : slot < num) (hv : Valid num (Kernel.start slot ks) ops) :
    (run (init cfg num n slot ks finger) ops).1.acc.aborted = false :=
  (enough_run (init_between cfg num n slot ks finger).1 (init_enough cfg num n slot ks finger ha hs) ops hv).fine

example : Valid 2 (Kernel.start 0 two) (story ++ [.clear, .sync 1 [⟨0, 0, 0, 0, true⟩, still], .slot 0, .tracking false]) := by
  simp [story, Valid, Kernel.start, Kernel.follow, put, going, two, still]

/-- An ALPS touchpad that has given up one of its slots does not read it when it is resumed; when the fingers that were put
down meanwhile are lifted, the assert about the number of active slots fails. -/
def alpsStory : List Op :=
  [.tracking true, .key .touch true, .key .double true, .syn, .tracking false, .key .double false, .key .touch false, .syn,
   .clear, .sync 0 [⟨0, 0, 0, 0, true⟩, ⟨0, 0, 0, 0, true⟩], .tracking false, .slot 1, .tracking false, .syn]

theorem alps_aborts :
    Valid 2 (Kernel.start 0 two) alpsStory ∧
    (run (init { mode := .buttons, alps := true } 2 5 0 two false) alpsStory).1.acc.aborted = true ∧
    (run (init { mode := .buttons } 2 5 0 two false) alpsStory).1.acc.aborted = false := by
  refine ⟨?_, by decide +kernel, by decide +kernel⟩
  simp [alpsStory, Valid, Kernel.start, Kernel.follow, put, going, two, still]

/-! ## Fingers and touches -/

/-- How what is shown of a touch and what it is afterwards go together. -/
theorem view_state {ds : List Bool} {s : Pad} (hb : Between ds s) (j : Nat) (v : St × Bool) (hv : s.handle.2[j]? = some v) :
    ∃ t, s.handle.1.touches[j]? = some t ∧ (v.1 = .none → t.st = .none) ∧ (t.st = .none → v.1 = .none ∨ v.1 = .end_) := by
  have h1 := preProcess_showing hb
  have h2 := positionFake_showing h1.1
  rw [handle_eq] at hv ⊢
  rw [(post_loop _).1]
  simp only [Pad.views, List.getElem?_map] at hv ⊢
  cases h : (s.preProcess.positionFake.touches)[j]? with
  | none => rw [h] at hv; simp at hv
  | some t =>
    rw [h] at hv
    simp only [Option.map_some, Option.some.injEq] at hv
    obtain ⟨d, hd⟩ := h2.1.shown.mem t (List.mem_of_getElem? h)
    refine ⟨t.settle, rfl, ?_, ?_⟩
    all_goals
      rw [← hv, settle_st]
      unfold Shown at hd
      cases hs : t.st <;> cases hdd : t.dirty <;> simp_all

/-- On a touchpad with slots, a touch is there in a frame exactly if a touch sequence was started in its slot since the
state was cleared and has not ended: one that is there is shown, one that is not there is not shown or shown to end.  This
is for slots below the number in use (it only changes on ALPS touchpads), without the Synaptics workaround, and if the
kernel, on resuming, talks about the same slot as before. -/
theorem slots_followed (cfg : Config) (num n slot : Nat) (ks : List Slot) (finger : Bool) (ops : List Op)
    (hm : cfg.hasMt = true) (hsyn : cfg.synaptics = false) (hn : num ≤ n) (hs : slot < num)
    (hv : Valid num (Kernel.start slot ks) ops) (hsame : SameSlot (Kernel.start slot ks) ops) :
    ∃ vs, (run (init cfg num n slot ks finger) (ops ++ [.syn])).2 = (run (init cfg num n slot ks finger) ops).2 ++ [.frame vs] ∧
      ∀ i v, i < (run (init cfg num n slot ks finger) (ops ++ [.syn])).1.num → vs[i]? = some v →
        if ((Kernel.start slot ks).after ops).landed i then v.1 ≠ .none else v.1 = .none ∨ v.1 = .end_ := by
  rw [run_syn]
  refine ⟨_, rfl, fun i v hi hvi => ?_⟩
  have hb := (run_between (init_between cfg num n slot ks finger).1 ops).1
  have hf := follows_run (init_between cfg num n slot ks finger).1 (init_follows cfg num n slot ks finger hm hsyn hn hs) ops hv hsame
  have hf' := follows_step hb hf .syn ⟨trivial, trivial⟩ ⟨trivial, trivial⟩
  simp only [step] at hf'
  obtain ⟨e, h1, h2⟩ := hf'.ended
  obtain ⟨t, ht, h3, h4⟩ := view_state hb i v hvi
  have h5 := h2 i hi
  have h6 := (h1 i t ht).2
  rw [h5] at h6
  have h7 : ((run (init cfg num n slot ks finger) ops).1.handle.1.touches[i]? = some t) := ht
  have hme : t.st ≠ .maybeEnd := by
    obtain ⟨e', h8, _⟩ := hf.ended
    exact (handle_ended hb hf.syn h8 i t ht).2
  simp only [Kernel.follow] at h6
  cases hl : ((Kernel.start slot ks).after ops).landed i with
  | true =>
    rw [if_pos rfl]
    rw [hl] at h6
    intro hz
    have := h6.mpr (Or.inl (h3 hz))
    simp at this
  | false =>
    rw [if_neg (by simp)]
    rw [hl] at h6
    exact h4 ((h6.mp (by simp)).resolve_right hme)

/-- A sequence that was started and has not ended is going on: there are no ghosts. -/
theorem landed_on (num slot : Nat) (ks : List Slot) (ops : List Op) (hv : Valid num (Kernel.start slot ks) ops) (i : Nat)
    (hl : ((Kernel.start slot ks).after ops).landed i = true) : ((Kernel.start slot ks).after ops).on i = true := by
  have key : ∀ (ops : List Op) (k : Kernel), Valid num k ops → (∀ i, k.landed i = true → k.on i = true) →
      (k.quiet = true → ∀ i, k.landed i = false) → ∀ i, (k.after ops).landed i = true → (k.after ops).on i = true := by
    intro ops
    induction ops with
    | nil => intro k _ h _; exact h
    | cons op ops ih =>
      intro k hv h1 h2
      rw [valid_cons] at hv
      refine ih (k.follow op) hv.2 ?_ ?_
      · intro i hi
        cases op with
        | tracking b =>
          simp only [Kernel.follow, put] at hi ⊢
          split
          · rename_i e; rw [if_pos e] at hi; exact hi
          · rename_i e; rw [if_neg e] at hi; exact h1 i hi
        | clear => simp [Kernel.follow] at hi
        | sync v ks =>
          have := h2 hv.1.1.1 i
          simp only [Kernel.follow] at hi
          rw [this] at hi; simp at hi
        | _ => exact h1 i hi
      · intro hq i
        cases op <;> simp_all [Kernel.follow]
  exact key ops _ hv (by simp [Kernel.start]) (by simp [Kernel.start]) i hl

example : SameSlot (Kernel.start 0 two) (story.take 16 ++ [.clear, .sync 1 [still, ⟨0, 0, 0, 0, true⟩]]) ∧
    Valid 2 (Kernel.start 0 two) (story.take 16) ∧
    ((Kernel.start 0 two).after (story.take 15)).landed 1 = true ∧ ((Kernel.start 0 two).after (story.take 5)).landed 1 = false := by
  simp [story, SameSlot, Valid, Kernel.start, Kernel.follow, Kernel.after, put, going, two, still]

/-- The code does not ask for the kernel's current slot when the touchpad is resumed.  Slot 1 was in use last; while the
touchpad is suspended the kernel goes back to slot 0.  The next finger lands in slot 0 but becomes touch 1, and when it is
lifted by naming its slot, touch 1 stays down. -/
def ghostStory : List Op :=
  [.slot 1, .tracking true, .tracking false, .syn, .clear, .sync 0 two, .tracking true, .axis .pressure 50, .syn,
   .slot 1, .slot 0, .tracking false, .syn]

theorem ghost_finger :
    Valid 2 (Kernel.start 0 two) ghostStory ∧ (∀ i, ((Kernel.start 0 two).after ghostStory).on i = false) ∧
    (run (init cfgPress 2 5 0 two false) ghostStory).1.fingers = 1 := by
  refine ⟨?_, ?_, by decide +kernel⟩
  · simp [ghostStory, Valid, Kernel.start, Kernel.follow, put, going, two, still]
  · intro i
    simp only [ghostStory, Kernel.after, Kernel.start, Kernel.follow, List.foldl, put, going, two, still]
    match i with
    | 0 => rfl
    | 1 => rfl
    | i + 2 => simp

/-! What the buttons say. -/

theorem fake_step (s : Pad) (op : Op) : (step s op).1.fake =
    match op with
    | .key k p => s.fake.set k p
    | .clear => {}
    | _ => s.fake := by
  cases op with
  | slot v => simp only [step]; split <;> rfl
  | tracking b =>
    simp only [step]
    split
    · unfold Pad.tracking
      split <;> rfl
    · rfl
  | axis ax v => simp only [step]; split <;> rfl
  | key k p => rfl
  | syn => exact (handle_same s).2.2.2.1
  | clear => simp only [step]; rw [clear_eq, (handle_same _).2.2.2.1]; rfl
  | sync v ks => rfl

theorem fake_run (ops : List Op) : ∀ (s : Pad),
    (run s ops).1.fake.touch = held .touch s.fake.touch ops ∧ (run s ops).1.fake.finger = held .finger s.fake.finger ops ∧
    (run s ops).1.fake.double = held .double s.fake.double ops ∧ (run s ops).1.fake.triple = held .triple s.fake.triple ops ∧
    (run s ops).1.fake.quad = held .quad s.fake.quad ops ∧ (run s ops).1.fake.overflow = many s.fake.overflow ops := by
  induction ops with
  | nil => intro s; exact ⟨rfl, rfl, rfl, rfl, rfl, rfl⟩
  | cons op ops ih =>
    intro s
    rw [run_cons]
    have h := ih (step s op).1
    have e := fake_step s op
    cases op with
    | key k p =>
      simp only at e
      rw [e] at h
      cases k <;> cases p <;> simpa [held, many, Fake.set] using h
    | clear => simp only at e; rw [e] at h; simpa [held, many] using h
    | slot v => simp only at e; rw [e] at h; simpa [held, many] using h
    | tracking b => simp only at e; rw [e] at h; simpa [held, many] using h
    | axis ax v => simp only at e; rw [e] at h; simpa [held, many] using h
    | syn => simp only at e; rw [e] at h; simpa [held, many] using h
    | sync v ks => simp only at e; rw [e] at h; simpa [held, many] using h

theorem init_fake (cfg : Config) (num n slot : Nat) (ks : List Slot) (finger : Bool) :
    (init cfg num n slot ks finger).fake.touch = false ∧ (init cfg num n slot ks finger).fake.finger = finger ∧
    (init cfg num n slot ks finger).fake.double = false ∧ (init cfg num n slot ks finger).fake.triple = false ∧
    (init cfg num n slot ks finger).fake.quad = false ∧ (init cfg num n slot ks finger).fake.overflow = false := by
  cases finger <;> exact ⟨rfl, rfl, rfl, rfl, rfl, rfl⟩

/-- The number of fingers is the one the buttons say, and `BTN_TOUCH` is as it was last reported. -/
theorem fake_said (cfg : Config) (num n slot : Nat) (ks : List Slot) (finger : Bool) (ops : List Op) :
    (run (init cfg num n slot ks finger) ops).1.fake.count = (said finger ops).getD 128 ∧
    (run (init cfg num n slot ks finger) ops).1.fake.touch = held .touch false ops := by
  have h := fake_run ops (init cfg num n slot ks finger)
  have hi := init_fake cfg num n slot ks finger
  rw [hi.1, hi.2.1, hi.2.2.1, hi.2.2.2.1, hi.2.2.2.2.1, hi.2.2.2.2.2] at h
  refine ⟨?_, h.1⟩
  unfold Fake.count said
  rw [h.2.1, h.2.2.1, h.2.2.2.1, h.2.2.2.2.1, h.2.2.2.2.2]
  split
  · rfl
  · simp

theorem said_le (finger : Bool) (ops : List Op) (m : Nat) (h : said finger ops = some m) : m ≤ 4 := by
  unfold said at h
  split at h
  · simp at h
  · simp only [Option.some.injEq] at h
    rw [← h]
    repeat' split
    all_goals omega

/-- The touches beyond the slots are there exactly if the buttons say that there are so many fingers.  A touchpad without
slots has only such touches. -/
theorem extra_touches_followed (cfg : Config) (num n slot : Nat) (ks : List Slot) (finger : Bool) (ops : List Op) (m : Nat)
    (hsyn : cfg.synaptics = false) (hsaid : said finger ops = some m) :
    ∃ vs, (run (init cfg num n slot ks finger) (ops ++ [.syn])).2 = (run (init cfg num n slot ks finger) ops).2 ++ [.frame vs] ∧
      ∀ i v, (cfg.hasMt = true → (run (init cfg num n slot ks finger) (ops ++ [.syn])).1.num ≤ i) → vs[i]? = some v →
        if i < m then v.1 ≠ .none else v.1 = .none ∨ v.1 = .end_ := by
  rw [run_syn]
  refine ⟨_, rfl, fun i v hi hvi => ?_⟩
  have hb := (run_between (init_between cfg num n slot ks finger).1 ops).1
  have ht0 := tidy_run (init_between cfg num n slot ks finger).1 (by exact hsyn)
    ⟨fun _ => true, fresh_ended cfg num n slot ks finger⟩ ops
  obtain ⟨⟨e, h1⟩, hcfg⟩ := ht0
  have hcfg : (run (init cfg num n slot ks finger) ops).1.cfg = cfg := hcfg
  have hc := (fake_said cfg num n slot ks finger ops).1
  rw [hsaid] at hc
  simp only [Option.getD_some] at hc
  have hm4 := said_le finger ops m hsaid
  obtain ⟨s, es⟩ : ∃ x, x = (run (init cfg num n slot ks finger) ops).1 := ⟨_, rfl⟩
  rw [← es] at hb h1 hcfg hc hvi hi
  obtain ⟨t, ht, h3, h4⟩ := view_state hb i v hvi
  have h5 := handle_ended hb (by rw [hcfg]; exact hsyn) h1 i t ht
  have hnum := handle_num s (by rw [hcfg]; exact hsyn)
  rw [if_neg (by omega)] at hnum
  have he : endedBy s e i = decide (m ≤ i) := by
    unfold endedBy
    rw [if_neg, hc]
    rintro (h | h)
    · omega
    · unfold Pad.firstFake at h
      rw [(fewerSlots_same s).2.1, hcfg] at h
      cases hmt : cfg.hasMt with
      | true =>
        rw [hmt, if_pos rfl] at h
        have := hi hmt
        simp only at this
        omega
      | false => rw [hmt] at h; simp at h
  rw [he] at h5
  have h6 := h5.1.2
  split
  · rename_i hlt
    intro hz
    have := h6.mpr (Or.inl (h3 hz))
    simp at this; omega
  · rename_i hge
    exact h4 ((h6.mp (by simp; omega)).resolve_right h5.2)

example : said false (story.take 15) = some 3 ∧ said false (story.take 16 ++ [.key .quint true, .key .triple false]) = none ∧
    said true [] = some 1 := by decide

/-! ## Which touches are down -/

/-- On a touchpad that tells fingers by its buttons, no finger is down while `BTN_TOUCH` is up; while it is down, there are
as many as the buttons say, or as there are touches if that is less. -/
theorem buttons_count (cfg : Config) (num n slot : Nat) (ks : List Slot) (finger : Bool) (ops : List Op) (m : Nat)
    (hmode : cfg.mode = .buttons) (hsyn : cfg.synaptics = false) (hsaid : said finger ops = some m) :
    (run (init cfg num n slot ks finger) (ops ++ [.syn])).1.fingers =
      if held .touch false ops
      then min m ((run (init cfg num n slot ks finger) (ops ++ [.syn])).1.touches.countP fun t => t.st != .none)
      else 0 := by
  rw [run_syn]
  have hb := (run_between (init_between cfg num n slot ks finger).1 ops).1
  obtain ⟨⟨e, h1⟩, hcfg⟩ := tidy_run (init_between cfg num n slot ks finger).1 (by exact hsyn)
    ⟨fun _ => true, fresh_ended cfg num n slot ks finger⟩ ops
  have hcfg : (run (init cfg num n slot ks finger) ops).1.cfg = cfg := hcfg
  have hc := fake_said cfg num n slot ks finger ops
  rw [hsaid] at hc
  simp only [Option.getD_some] at hc
  have hm4 := said_le finger ops m hsaid
  obtain ⟨s, es⟩ : ∃ x, x = (run (init cfg num n slot ks finger) ops).1 := ⟨_, rfl⟩
  rw [← es] at hb h1 hcfg hc ⊢
  have h4 : Same s.processFake s.handle.1 := by
    rw [handle_eq]
    exact (((unhover_same _).trans (loop_same _ _)).trans (positionFake_same _)).trans (postProcess_same _)
  have hf : s.processFake.fake = s.fake := h4.fake.symm.trans (handle_same s).2.2.2.1
  have hcfg' : s.processFake.cfg = cfg := (h4.cfg.symm.trans (handle_same s).2.1).trans hcfg
  show s.handle.1.acc.n = _
  rw [handle_n]
  have hu : s.processFake.unhover = s.processFake.unhoverFake := by
    unfold Pad.unhover; rw [hcfg', hmode]
  rw [hu, unhoverFake_count (processFake_between hb).1 (by rw [hf, hc.1]; omega), hf, hc.1, hc.2,
    handle_present hb (by rw [hcfg]; exact hsyn) h1]

example : (run (init cfgButtons 2 5 0 two false) (story.take 15 ++ [.syn])).1.fingers = 3 ∧
    held .touch false (story.take 15) = true := by decide +kernel

/-- On a touchpad that tells fingers by their size, the size last reported for a touch decides whether it is down: it
begins with one axis above the high and the other above the low threshold, and ends with one below the low one. -/
theorem size_decides (cfg : Config) (num n slot : Nat) (ks : List Slot) (finger : Bool) (ops : List Op) (low high : Int)
    (hmode : cfg.mode = .size low high) (hm : cfg.hasMt = true) (hsyn : cfg.synaptics = false) (hn : num ≤ n) (hs : slot < num)
    (hk : ks.length = num) (hv : Valid num (Kernel.start slot ks) ops) (hsame : SameSlot (Kernel.start slot ks) ops) :
    ∃ vs, (run (init cfg num n slot ks finger) (ops ++ [.syn])).2 = (run (init cfg num n slot ks finger) ops).2 ++ [.frame vs] ∧
      ∀ i v, i < (run (init cfg num n slot ks finger) (ops ++ [.syn])).1.num → vs[i]? = some v →
        ∃ t, (run (init cfg num n slot ks finger) ops).1.touches[i]? = some t ∧
          v.1 = bySize low high t.st t.dirty (((Heard.start slot ks).after ops).value .touchMajor i)
            (((Heard.start slot ks).after ops).value .touchMinor i) ∧
          (((Heard.start slot ks).after ops).moved i = true → t.dirty = true) ∧
          (t.dirty = true → ((Heard.start slot ks).after ops).any i = true) := by
  rw [run_syn]
  refine ⟨_, rfl, fun i v hi hvi => ?_⟩
  have hb := (run_between (init_between cfg num n slot ks finger).1 ops).1
  have hf := follows_run (init_between cfg num n slot ks finger).1 (init_follows cfg num n slot ks finger hm hsyn hn hs) ops hv hsame
  have ha := agrees_run (init_agrees cfg num n slot ks finger hm hn hs hk) (k := Kernel.start slot ks) rfl ops hv hsame
  have hcfg : (run (init cfg num n slot ks finger) ops).1.cfg = cfg := (tidy_run (init_between cfg num n slot ks finger).1 (by exact hsyn)
    ⟨fun _ => true, fresh_ended cfg num n slot ks finger⟩ ops).2
  obtain ⟨s, es⟩ : ∃ x, x = (run (init cfg num n slot ks finger) ops).1 := ⟨_, rfl⟩
  rw [← es] at hb hf ha hcfg hvi hi ⊢
  have h4 : Same s.processFake s.handle.1 := by
    rw [handle_eq]
    exact (((unhover_same _).trans (loop_same _ _)).trans (positionFake_same _)).trans (postProcess_same _)
  have hcfg' : s.processFake.cfg = cfg := (h4.cfg.symm.trans (handle_same s).2.1).trans hcfg
  have hu : s.processFake.unhover = s.processFake.loop (sizeOne low high s.handle.1.num) := by
    unfold Pad.unhover; rw [hcfg', hmode, ← processFake_num s]; rfl
  have hi : i < s.handle.1.num := hi
  obtain ⟨a, t, ht, e⟩ := handle_view s hf.mt hf.syn _ hu i v hi hvi
  have hval := ha.value i t (Nat.lt_of_lt_of_le hi (handle_same s).2.2.2.2.1) ht
  refine ⟨t, ht, ?_, hval.2⟩
  have h1 := hval.1 .touchMajor (by simp)
  have h2 := hval.1 .touchMinor (by simp)
  rw [← h1, ← h2, e]
  obtain ⟨d, hd⟩ := hb.ev.mem t (List.mem_of_getElem? ht)
  unfold Ev at hd
  show (endEnding i a (sizeOne low high s.handle.1.num i a t).2).2.st = bySize low high t.st t.dirty t.touchMajor t.touchMinor
  unfold sizeOne bySize
  cases hst : t.st with
  | hovering =>
    cases hdd : t.dirty
    · simp [endEnding, hst]
    · by_cases hbig : (t.touchMajor > high ∧ t.touchMinor > low) ∨ (t.touchMinor > high ∧ t.touchMajor > low)
      · have hbig' : (t.touchMajor > high ∧ t.touchMinor > low) ∨ (t.touchMajor > low ∧ t.touchMinor > high) := by omega
        simp only [hi, hbig, hbig', and_self, if_true, true_and]
        rfl
      · have hbig' : ¬ ((t.touchMajor > high ∧ t.touchMinor > low) ∨ (t.touchMajor > low ∧ t.touchMinor > high)) := by omega
        simp only [hi, hbig, hbig', and_self, if_true, if_false, true_and]
        simp [endEnding, hst]
  | update =>
    cases hdd : t.dirty
    · simp [endEnding, hst]
    · by_cases hsm : t.touchMajor < low ∨ t.touchMinor < low
      · simp only [hi, hsm, and_self, if_true, true_and]
        simp [endEnding, endTouch, maybeEndTouch, hst]
      · simp only [hi, hsm, and_self, if_true, if_false, true_and]
        simp [endEnding, hst]
  | maybeEnd =>
    rw [hst] at hd
    simp only [hi, hd.2, and_self, if_true]
    split <;> simp [endEnding, endTouch, maybeEndTouch, hst]
  | none => simp [endEnding, hst]
  | begin => rw [hst] at hd; exact hd.elim
  | end_ => rw [hst] at hd; exact hd.elim

/-- On a touchpad that tells fingers by their pressure, the pressure last reported for a touch decides whether it is down,
as long as there are not more fingers than slots. -/
theorem pressure_decides (cfg : Config) (num n slot : Nat) (ks : List Slot) (finger : Bool) (ops : List Op) (low high : Int)
    (hmode : cfg.mode = .pressure low high) (hm : cfg.hasMt = true) (hsyn : cfg.synaptics = false) (hn : num ≤ n) (hs : slot < num)
    (hk : ks.length = num) (hv : Valid num (Kernel.start slot ks) ops) (hsame : SameSlot (Kernel.start slot ks) ops)
    (hsaid : ∀ m, said finger ops = some m → m ≤ (run (init cfg num n slot ks finger) (ops ++ [.syn])).1.num) :
    ∃ vs, (run (init cfg num n slot ks finger) (ops ++ [.syn])).2 = (run (init cfg num n slot ks finger) ops).2 ++ [.frame vs] ∧
      ∀ i v, i < (run (init cfg num n slot ks finger) (ops ++ [.syn])).1.num → vs[i]? = some v →
        ∃ t, (run (init cfg num n slot ks finger) ops).1.touches[i]? = some t ∧
          v.1 = byPressure low high t.st t.dirty (((Heard.start slot ks).after ops).value .pressure i) ∧
          (((Heard.start slot ks).after ops).moved i = true → t.dirty = true) ∧
          (t.dirty = true → ((Heard.start slot ks).after ops).any i = true) := by
  rw [run_syn] at hsaid ⊢
  refine ⟨_, rfl, fun i v hi hvi => ?_⟩
  have hb := (run_between (init_between cfg num n slot ks finger).1 ops).1
  have hf := follows_run (init_between cfg num n slot ks finger).1 (init_follows cfg num n slot ks finger hm hsyn hn hs) ops hv hsame
  have ha := agrees_run (init_agrees cfg num n slot ks finger hm hn hs hk) (k := Kernel.start slot ks) rfl ops hv hsame
  have hcfg : (run (init cfg num n slot ks finger) ops).1.cfg = cfg := (tidy_run (init_between cfg num n slot ks finger).1 (by exact hsyn)
    ⟨fun _ => true, fresh_ended cfg num n slot ks finger⟩ ops).2
  have hc := (fake_said cfg num n slot ks finger ops).1
  obtain ⟨s, es⟩ : ∃ x, x = (run (init cfg num n slot ks finger) ops).1 := ⟨_, rfl⟩
  rw [← es] at hb hf ha hcfg hvi hi hc hsaid ⊢
  have h4 : Same s.processFake s.handle.1 := by
    rw [handle_eq]
    exact (((unhover_same _).trans (loop_same _ _)).trans (positionFake_same _)).trans (postProcess_same _)
  have hcfg' : s.processFake.cfg = cfg := (h4.cfg.symm.trans (handle_same s).2.1).trans hcfg
  have hfk : s.processFake.fake = s.fake := h4.fake.symm.trans (handle_same s).2.2.2.1
  have hnum : s.processFake.num = s.handle.1.num := processFake_num s
  have hfo : s.processFake.fakeOrNone ≤ s.handle.1.num := by
    unfold Pad.fakeOrNone
    rw [hfk, hc]
    cases hsd : said finger ops with
    | none => simp
    | some m =>
      have := hsaid m hsd
      simp only [Option.getD_some]
      split <;> omega
  have hu : s.processFake.unhover = s.processFake.loop (pressOne low high s.handle.1.num s.processFake.fakeOrNone) := by
    unfold Pad.unhover
    rw [hcfg', hmode]
    simp only [unhoverPressure_eq]
    rw [if_pos (Or.inl (by rw [loop_num, hnum]; exact hfo)), hnum]
  have hi : i < s.handle.1.num := hi
  obtain ⟨a, t, ht, e⟩ := handle_view s hf.mt hf.syn _ hu i v hi hvi
  have hval := ha.value i t (Nat.lt_of_lt_of_le hi (handle_same s).2.2.2.2.1) ht
  refine ⟨t, ht, ?_, hval.2⟩
  have h1 := hval.1 .pressure (by simp)
  rw [← h1, e]
  obtain ⟨d, hd⟩ := hb.ev.mem t (List.mem_of_getElem? ht)
  unfold Ev at hd
  show (endEnding i a (pressOne low high s.handle.1.num s.processFake.fakeOrNone i a t).2).2.st = byPressure low high t.st t.dirty t.pressure
  unfold pressOne byPressure
  cases hst : t.st with
  | hovering =>
    cases hdd : t.dirty
    · simp [endEnding, hst]
    · by_cases hbig : t.pressure ≥ high
      · simp only [hi, hbig, and_self, if_true]
        rfl
      · simp only [hi, hbig, and_self, if_true, if_false, and_false]
        simp [endEnding, hst]
  | update =>
    cases hdd : t.dirty
    · simp [endEnding, hst]
    · by_cases hsm : t.pressure < low
      · simp only [hi, hsm, hfo, true_or, and_self, if_true]
        simp [endEnding, endTouch, maybeEndTouch, hst]
      · simp only [hi, hsm, and_self, if_true, if_false, and_false]
        simp [endEnding, hst]
  | maybeEnd =>
    rw [hst] at hd
    simp only [hi, hd.2, and_self, if_true]
    split <;> simp [endEnding, endTouch, maybeEndTouch, hst]
  | none => simp [endEnding, hst]
  | begin => rw [hst] at hd; exact hd.elim
  | end_ => rw [hst] at hd; exact hd.elim

example : ((Heard.start 0 two).after (story.take 12)).value .pressure 1 = 50 ∧
    ((Heard.start 0 two).after (story.take 12)).moved 1 = true ∧ ((Heard.start 0 two).after (story.take 12)).moved 0 = false := by
  simp [story, Heard.start, Heard.after, Heard.follow, put]

/-- The position, pressure and size of a touch in a slot are those last reported for the slot, and a touch for which one of
them was reported since the last frame is marked as changed. -/
theorem values_heard (cfg : Config) (num n slot : Nat) (ks : List Slot) (finger : Bool) (ops : List Op)
    (hm : cfg.hasMt = true) (hn : num ≤ n) (hs : slot < num) (hk : ks.length = num)
    (hv : Valid num (Kernel.start slot ks) ops) (hsame : SameSlot (Kernel.start slot ks) ops) (i : Nat) (t : Finger)
    (hi : i < (run (init cfg num n slot ks finger) ops).1.num)
    (ht : (run (init cfg num n slot ks finger) ops).1.touches[i]? = some t) :
    t.y = ((Heard.start slot ks).after ops).value .y i ∧ t.pressure = ((Heard.start slot ks).after ops).value .pressure i ∧
    t.touchMajor = ((Heard.start slot ks).after ops).value .touchMajor i ∧
    t.touchMinor = ((Heard.start slot ks).after ops).value .touchMinor i ∧
    (((Heard.start slot ks).after ops).moved i = true → t.dirty = true) ∧
    (t.dirty = true → ((Heard.start slot ks).after ops).any i = true) := by
  have ha := agrees_run (init_agrees cfg num n slot ks finger hm hn hs hk) (k := Kernel.start slot ks) rfl ops hv hsame
  have h := ha.value i t hi ht
  exact ⟨h.1 .y (by simp), h.1 .pressure (by simp), h.1 .touchMajor (by simp), h.1 .touchMinor (by simp), h.2.1, h.2.2⟩

/-- With more fingers than slots on such a touchpad, all touches that are there are down if one of those in the slots is
pressed hard enough, else none is. -/
theorem pressure_extra (cfg : Config) (num n slot : Nat) (ks : List Slot) (finger : Bool) (ops : List Op) (low high : Int) (m : Nat)
    (hmode : cfg.mode = .pressure low high) (hm : cfg.hasMt = true) (hsyn : cfg.synaptics = false)
    (hsaid : said finger ops = some m) (hlt : (run (init cfg num n slot ks finger) (ops ++ [.syn])).1.num < m) :
    ∃ vs, (run (init cfg num n slot ks finger) (ops ++ [.syn])).2 = (run (init cfg num n slot ks finger) ops).2 ++ [.frame vs] ∧
      ∀ v ∈ vs,
        if ((run (init cfg num n slot ks finger) ops).1.touches.take (run (init cfg num n slot ks finger) (ops ++ [.syn])).1.num).any
            fun t => pressed low high (decide ((run (init cfg num n slot ks finger) (ops ++ [.syn])).1.num = 1)) t.st t.dirty t.pressure
        then v.1 ≠ .hovering else downAfter v = false := by
  rw [run_syn] at hlt ⊢
  refine ⟨_, rfl, fun v hv => ?_⟩
  have hb := (run_between (init_between cfg num n slot ks finger).1 ops).1
  have hcfg : (run (init cfg num n slot ks finger) ops).1.cfg = cfg := (tidy_run (init_between cfg num n slot ks finger).1 (by exact hsyn)
    ⟨fun _ => true, fresh_ended cfg num n slot ks finger⟩ ops).2
  have hc := (fake_said cfg num n slot ks finger ops).1
  rw [hsaid] at hc
  simp only [Option.getD_some] at hc
  have hm4 := said_le finger ops m hsaid
  exact handle_extra hb (by rw [hcfg]; exact hm) (by rw [hcfg]; exact hsyn) (by rw [hcfg]; exact hmode) (by omega)
    (by rw [hc]; exact hlt) v hv

example : said false (story.take 15) = some 3 ∧ (run (init cfgPress 2 5 0 two false) (story.take 16)).1.num = 2 := by decide +kernel

/-- Touches without a slot are where the topmost touch in a slot is: the smallest of the `y` of the touches in slots that
are shown as being there. -/
theorem extra_touches_topmost (cfg : Config) (num n slot : Nat) (ks : List Slot) (finger : Bool) (ops : List Op) (m : Nat)
    (hm : cfg.hasMt = true) (hsyn : cfg.synaptics = false) (hsaid : said finger ops = some m)
    (hlt : (run (init cfg num n slot ks finger) (ops ++ [.syn])).1.num < m)
    (hdown : (run (init cfg num n slot ks finger) (ops ++ [.syn])).1.fingers ≠ 0) :
    ∃ vs, (run (init cfg num n slot ks finger) (ops ++ [.syn])).2 = (run (init cfg num n slot ks finger) ops).2 ++ [.frame vs] ∧
      ((∃ i v, i < (run (init cfg num n slot ks finger) (ops ++ [.syn])).1.num ∧ vs[i]? = some v ∧ seen v = true) →
      ∀ i t v, (run (init cfg num n slot ks finger) (ops ++ [.syn])).1.num ≤ i → vs[i]? = some v → v.1 ≠ .none →
        (run (init cfg num n slot ks finger) (ops ++ [.syn])).1.touches[i]? = some t →
        (∃ j u, j < (run (init cfg num n slot ks finger) (ops ++ [.syn])).1.num ∧
          (run (init cfg num n slot ks finger) (ops ++ [.syn])).1.touches[j]? = some u ∧ u.y = t.y) ∧
        ∀ j u w, j < (run (init cfg num n slot ks finger) (ops ++ [.syn])).1.num → vs[j]? = some w → seen w = true →
          (run (init cfg num n slot ks finger) (ops ++ [.syn])).1.touches[j]? = some u → t.y ≤ u.y) := by
  rw [run_syn] at hlt hdown ⊢
  refine ⟨_, rfl, ?_⟩
  have hcfg : (run (init cfg num n slot ks finger) ops).1.cfg = cfg := (tidy_run (init_between cfg num n slot ks finger).1 (by exact hsyn)
    ⟨fun _ => true, fresh_ended cfg num n slot ks finger⟩ ops).2
  have hc := (fake_said cfg num n slot ks finger ops).1
  rw [hsaid] at hc
  simp only [Option.getD_some] at hc
  obtain ⟨s, es⟩ : ∃ x, x = (run (init cfg num n slot ks finger) ops).1 := ⟨_, rfl⟩
  rw [← es] at hcfg hc hlt hdown ⊢
  dsimp only at hlt hdown ⊢
  have hp := (positionFake_same s.preProcess).trans (postProcess_same _)
  have hnum : s.preProcess.num = s.handle.1.num := by rw [handle_eq]; exact hp.num.symm
  have hcf : s.preProcess.cfg.hasMt = true := by
    have h1 := (handle_same s).2.1
    rw [handle_eq] at h1
    rw [← hp.cfg, h1, hcfg]; exact hm
  have hfk : s.preProcess.fake = s.fake := by
    have h1 := (handle_same s).2.2.2.1
    rw [handle_eq] at h1
    rw [← hp.fake, h1]
  have hfin : s.preProcess.acc.n = s.handle.1.acc.n := by
    rw [handle_n]
    exact each_n endEnding (fun i a t => by unfold endEnding endTouch; cases t.st <;> simp) _ _ _
  have hcond : ¬ (s.preProcess.fake.count ≤ s.preProcess.num ∨ s.preProcess.fingers = 0) := by
    rw [hfk, hc, hnum]
    simp only [Pad.fingers] at hdown ⊢
    omega
  have hspec := topmost_spec (s.preProcess.touches.take s.preProcess.num) none
  -- the touches shown, in terms of those before the extra ones are positioned
  have hpos : s.preProcess.positionFake =
      match topmost none (s.preProcess.touches.take s.preProcess.num) with
      | none => { s.preProcess with acc := { s.preProcess.acc with noTop := true } }
      | some b => s.preProcess.loop (positionOne s.preProcess.num b) := by
    unfold Pad.positionFake
    rw [if_neg hcond, hcf]
    rfl
  have hviews : s.handle.2 = s.preProcess.positionFake.touches.map fun t => (t.st, t.dirty) := rfl
  have htouch : s.handle.1.touches = s.preProcess.positionFake.touches.map Finger.settle := by
    rw [handle_eq]; exact (post_loop _).1
  have hsl : ∀ (j : Nat) t, j < s.preProcess.num → s.preProcess.positionFake.touches[j]? = some t → s.preProcess.touches[j]? = some t := by
    intro j t hj ht
    rw [hpos] at ht
    split at ht
    · exact ht
    · obtain ⟨a', t0, h0, e⟩ := each_get _ _ _ _ _ _ ht
      rw [Nat.zero_add, positionOne, if_pos (Or.inl hj)] at e
      rw [h0, e]
  have hget : ∀ (j : Nat) v, s.handle.2[j]? = some v → ∃ t, s.preProcess.positionFake.touches[j]? = some t ∧ v = (t.st, t.dirty) ∧
      ∀ u, s.handle.1.touches[j]? = some u → u = t.settle := by
    intro j v hv
    rw [hviews, List.getElem?_map] at hv
    cases hg : s.preProcess.positionFake.touches[j]? with
    | none => rw [hg] at hv; simp at hv
    | some t =>
      rw [hg] at hv
      simp only [Option.map_some, Option.some.injEq] at hv
      refine ⟨t, rfl, hv.symm, fun u hu => ?_⟩
      rw [htouch, List.getElem?_map, hg] at hu
      simpa using hu.symm
  have hsy : ∀ t : Finger, t.settle.y = t.y := fun t => settle_at t .y
  rintro ⟨i0, v0, hi0, hv0, hseen0⟩ i t v hi hvi hvn hti
  rw [← hnum] at hi0 hi
  obtain ⟨t0, ht0, ev0, _⟩ := hget i0 v0 hv0
  have hm0 : t0 ∈ s.preProcess.touches.take s.preProcess.num := by
    have := hsl i0 t0 hi0 ht0
    obtain ⟨hlt, e⟩ := List.getElem?_eq_some_iff.mp this
    rw [← e]; exact List.mem_take_iff_getElem.mpr ⟨i0, by omega, rfl⟩
  have hs0 : t0.st ≠ .end_ ∧ t0.st ≠ .none := by
    unfold seen at hseen0
    rw [ev0] at hseen0
    simp at hseen0
    exact ⟨hseen0.2, hseen0.1⟩
  cases htop : topmost none (s.preProcess.touches.take s.preProcess.num) with
  | none =>
    rw [htop] at hspec
    rcases hspec.2 t0 hm0 with e | e
    · exact absurd e hs0.1
    · exact absurd e hs0.2
  | some b =>
    rw [htop] at hspec hpos
    dsimp only at hpos
    obtain ⟨hin, _, hmin⟩ := hspec
    have hin : b ∈ s.preProcess.touches.take s.preProcess.num := by
      rcases hin with h | h
      · simp at h
      · exact h
    obtain ⟨tt, htt, ett, hu⟩ := hget i v hvi
    have hti' := hu t hti
    have hty : t.y = b.y := by
      rw [hti', hsy]
      rw [hpos] at htt
      obtain ⟨a', t1, h1, e1⟩ := each_get _ _ _ _ _ _ htt
      have hne : t1.st ≠ .none := by
        intro hz
        rw [positionOne, if_pos (Or.inr hz)] at e1
        apply hvn
        rw [ett, e1]; exact hz
      rw [positionOne, if_neg (by rintro (h | h); omega; exact hne h)] at e1
      rw [e1]
    refine ⟨?_, ?_⟩
    · obtain ⟨j, hj, e⟩ := List.mem_take_iff_getElem.mp hin
      have hj1 : j < s.preProcess.num := by omega
      have hlen : s.preProcess.positionFake.touches.length = s.preProcess.touches.length := (positionFake_same _).len
      have hg : s.preProcess.positionFake.touches[j]? = some (s.preProcess.positionFake.touches[j]'(by omega)) :=
        List.getElem?_eq_getElem _
      have hb' := hsl j _ hj1 hg
      rw [List.getElem?_eq_getElem (by omega), e] at hb'
      simp only [Option.some.injEq] at hb'
      refine ⟨j, (s.preProcess.positionFake.touches[j]'(by omega)).settle, by omega, ?_, ?_⟩
      · rw [htouch, List.getElem?_map, hg]; rfl
      · rw [hsy, ← hb', hty]
    · intro j u w hj hw hsw hu'
      rw [← hnum] at hj
      obtain ⟨tj, htj, ewj, huj⟩ := hget j w hw
      have e1 := huj u hu'
      have hin' : tj ∈ s.preProcess.touches.take s.preProcess.num := by
        have := hsl j tj hj htj
        obtain ⟨hlt, e⟩ := List.getElem?_eq_some_iff.mp this
        rw [← e]; exact List.mem_take_iff_getElem.mpr ⟨j, by omega, rfl⟩
      have hsj : tj.st ≠ .end_ ∧ tj.st ≠ .none := by
        unfold seen at hsw
        rw [ewj] at hsw
        simp at hsw
        exact ⟨hsw.2, hsw.1⟩
      rw [e1, hsy, hty]
      exact hmin tj hin' hsj.1 hsj.2

example : (run (init cfgPress 2 5 0 two false) (story.take 16)).1.touches.map Finger.y = [10, 5, 5, 0, 0] := by decide +kernel

/-! ## The Synaptics workaround -/

/-- On a Synaptics serial touchpad, touches that end while the buttons say that there are three fingers or more are kept.
If the kernel does not start them again, such a touch stays down after all sequences have ended. -/
def stuckStory : List Op :=
  [.tracking true, .axis .pressure 50, .key .touch true, .key .finger true, .syn,
   .slot 1, .tracking true, .axis .pressure 50, .key .finger false, .key .double true, .syn,
   .tracking false, .key .double false, .key .triple true, .syn,
   .slot 0, .tracking false, .key .triple false, .key .touch false, .syn]

theorem synaptics_stuck :
    Valid 2 (Kernel.start 0 two) stuckStory ∧ (∀ i, ((Kernel.start 0 two).after stuckStory).on i = false) ∧
    held .touch false stuckStory = false ∧ said false stuckStory = some 0 ∧
    (run (init { mode := .pressure 20 30, synaptics := true } 2 5 0 two false) stuckStory).1.fingers = 1 ∧
    (run (init cfgPress 2 5 0 two false) stuckStory).1.fingers = 0 := by
  refine ⟨?_, ?_, by decide, by decide, by decide +kernel, by decide +kernel⟩
  · simp [stuckStory, Valid, Kernel.start, Kernel.follow, put, going, two, still]
  · intro i
    simp only [stuckStory, Kernel.after, Kernel.start, Kernel.follow, List.foldl, put, going, two, still]
    match i with
    | 0 => rfl
    | 1 => rfl
    | i + 2 => simp

end Libinput.Touch
