import Verif.Dispatch.Steps
/-
Adding, suspending, resuming and removing devices.
-/
namespace Libinput.Dispatch
open Spec

/-- What an act about some device leaves alone. -/
structure Quiet (s t : Ctx) : Prop where
  mono : Mono s t
  silent : Silent s t
  monitor : t.monitor = s.monitor

theorem Quiet.refl (s) : Quiet s s := ⟨.refl _, .refl _, rfl⟩
theorem Quiet.trans {a b c} (h : Quiet a b) (k : Quiet b c) : Quiet a c :=
  ⟨h.mono.trans k.mono, h.silent.trans k.silent, k.monitor.trans h.monitor⟩
theorem quiet_setDev (s d v) : Quiet s (s.setDev d v) := ⟨mono_setDev _ _ _, silent_setDev _ _ _, rfl⟩

/-- The state after a device was given a new file and a source for it. -/
def opened (s : Ctx) (d : Nat) (v : Dev) (n : Nat) : Ctx :=
  { s with
    heap := fun i => if i = s.fresh then some { fd := some s.files, owner := .dev d } else s.heap i
    fresh := s.fresh + 1
    files := s.files + 1
    opened := fun f => if f = s.files then true else s.opened f
    epoll := s.epoll ++ [{ file := s.files, src := s.fresh, owner := .dev d }]
    log := s.log ++ [.watch s.fresh (.dev d)]
    dev := fun i => if i = d then { v with fd := some s.files, source := some s.fresh } else s.dev i
    ndev := n }

theorem inv_opened {s d v n} (h : Inv s) (hs : (s.dev d).source = none) (hr : v.removed = false) (ha : v.alive = true)
    (hn : s.ndev ≤ n ∧ d < n) : Inv (opened s d v n) := by
  refine inv_hold (o := .dev d) h hs rfl rfl rfl rfl rfl rfl ?_ ?_ ?_ ?_ rfl rfl
  · intro o'
    cases o' with
    | timer => rfl
    | monitor => rfl
    | dev e =>
      by_cases he : e = d
      · subst he; simp [holder, opened]
      · simp [holder, opened, he]
  · intro e he
    have : e ≠ d := by rintro rfl; exact he rfl
    simp [opened, this]
  · intro e he
    cases he
    simp [opened, hr, ha]
  · exact ⟨hn.1, by rintro e he; cases he; exact hn.2⟩

theorem quiet_opened {s d v n} (h : Inv s) (hn : s.ndev ≤ n) : Quiet s (opened s d v n) := by
  refine ⟨⟨?_, ⟨[.watch s.fresh (.dev d)], rfl, rfl, by simp⟩, hn, rfl, rfl, rfl⟩, ⟨[.watch s.fresh (.dev d)], rfl, rfl, rfl⟩, rfl⟩
  intro i x hx
  refine ⟨x, ?_, rfl⟩
  have := h.bound _ _ hx
  simp only [opened]
  rw [if_neg (by omega)]; exact hx

theorem dev_lt {s d} (h : Inv s) (ha : (s.dev d).alive = true) : d < s.ndev := by
  rcases Nat.lt_or_ge d s.ndev with h1 | h1
  · exact h1
  · rw [h.beyond d h1] at ha; simp at ha

theorem no_source {s d} (h : Inv s) (hd : (s.dev d).fd = none) : (s.dev d).source = none := by
  rcases hs : (s.dev d).source with _ | i
  · rfl
  · obtain ⟨f, hf⟩ := h.holds (.dev d) i hs
    have := h.devFd _ _ _ hs hf
    rw [hd] at this; simp at this

/-- How a resume ends. -/
inductive Resumed (s : Ctx) (d : Nat) (r : Reopen) : Ctx × Int → Prop
  | awake (h : (s.dev d).fd ≠ none) : Resumed s d r (s, 0)
  | removed (h : (s.dev d).fd = none) (h2 : (s.dev d).removed = true) : Resumed s d r (s, -19)
  | notOpened (e) (h : (s.dev d).fd = none) (h2 : (s.dev d).removed = false) (hr : r = .notOpened e) :
      Resumed s d r (s, -(e : Int))
  | noMtdev (h : (s.dev d).fd = none) (h2 : (s.dev d).removed = false) (hr : r = .noMtdev) (hm : (s.dev d).needMt = true) :
      Resumed s d r ((openFile s).1.setDev d { s.dev d with fd := some s.files }, -19)
  | notWatched (t) (h : (s.dev d).fd = none) (h2 : (s.dev d).removed = false) (hr : r = .notWatched) (m)
      (hm : m = if (s.dev d).needMt then .gone else match (s.dev d).mt with
        | .live _ => .gone
        | m => m)
      (ht : t = ((openFile s).1.setDev d { s.dev d with fd := some s.files }).setDev d
        { s.dev d with fd := some s.files, mt := m }) : Resumed s d r (t, -12)
  | fine (h : (s.dev d).fd = none) (h2 : (s.dev d).removed = false)
      (hr : r = .fine ∨ (r = .noMtdev ∧ (s.dev d).needMt = false)) :
      Resumed s d r (opened s d { s.dev d with mt := if (s.dev d).needMt then .live {} else (s.dev d).mt } s.ndev, 0)

theorem setDev_setDev (s : Ctx) (d v w) : (s.setDev d v).setDev d w = s.setDev d w := by
  simp only [Ctx.setDev]
  congr 1
  funext i; split <;> rfl

theorem ite_twice {α : Type} (p : Prop) [Decidable p] (a b c : α) : (if p then a else if p then b else c) = if p then a else c := by
  split <;> simp_all

theorem resume_cases (s d r) : Resumed s d r (resume s d r) := by
  unfold resume
  split
  · rename_i h; exact .awake h
  rename_i h
  have h : (s.dev d).fd = none := by
    rcases hh : (s.dev d).fd with _ | f
    · rfl
    · exact absurd (by rw [hh]; simp) h
  split
  · rename_i h2; exact .removed h h2
  rename_i h2
  have h2 : (s.dev d).removed = false := by simpa using h2
  cases r with
  | notOpened e => exact .notOpened e h h2 rfl
  | noMtdev =>
    by_cases hm : (s.dev d).needMt = true
    · have := Resumed.noMtdev (r := .noMtdev) h h2 rfl hm
      simpa [openFile, setDev_same, hm] using this
    · have hm : (s.dev d).needMt = false := by simpa using hm
      have := Resumed.fine (r := .noMtdev) h h2 (.inr ⟨rfl, hm⟩)
      simpa [openFile, setDev_same, hm, addFd, setDev_setDev, opened, Ctx.setDev, ite_twice] using this
  | notWatched =>
    by_cases hm : (s.dev d).needMt = true
    · have := Resumed.notWatched (r := .notWatched) _ h h2 rfl _ rfl rfl
      simpa [openFile, setDev_same, hm, addFd, setDev_setDev] using this
    · have hm : (s.dev d).needMt = false := by simpa using hm
      have := Resumed.notWatched (r := .notWatched) _ h h2 rfl _ rfl rfl
      generalize hv : (s.dev d).mt = v at this
      cases v <;> simpa [openFile, setDev_same, hm, addFd, setDev_setDev, hv] using this
  | fine =>
    have := Resumed.fine (r := .fine) h h2 (.inl rfl)
    by_cases hm : (s.dev d).needMt = true
    · simpa [openFile, setDev_same, hm, addFd, setDev_setDev, opened, Ctx.setDev, ite_twice] using this
    · have hm : (s.dev d).needMt = false := by simpa using hm
      simpa [openFile, setDev_same, hm, addFd, setDev_setDev, opened, Ctx.setDev, ite_twice] using this

theorem quiet_open (s d v) : Quiet s ((openFile s).1.setDev d v) :=
  ⟨⟨fun _ x h => ⟨x, h, rfl⟩, ⟨[], by simp [openFile, Ctx.setDev], rfl, by simp⟩, Nat.le_refl _, rfl, rfl, rfl⟩,
    ⟨[], by simp [openFile, Ctx.setDev], rfl, rfl⟩, rfl⟩

theorem resume_spec {s d r} (h : Inv s) (ha : (s.dev d).alive = true) :
    Inv (resume s d r).1 ∧ Quiet s (resume s d r).1 ∧ (∀ e, e ≠ d → (resume s d r).1.dev e = s.dev e) ∧
      (Sound s → r ≠ .notWatched → Sound (resume s d r).1) ∧ (NoMt s → NoMt (resume s d r).1) := by
  have hc := resume_cases s d r
  generalize resume s d r = p at hc
  cases hc with
  | awake => exact ⟨h, .refl _, fun _ _ => rfl, fun a _ => a, fun a => a⟩
  | removed => exact ⟨h, .refl _, fun _ _ => rfl, fun a _ => a, fun a => a⟩
  | notOpened => exact ⟨h, .refl _, fun _ _ => rfl, fun a _ => a, fun a => a⟩
  | noMtdev hf h2 hr hm =>
    have hdev : ∀ e, e ≠ d → ((openFile s).1.setDev d { s.dev d with fd := some s.files }).dev e = s.dev e :=
      fun e he => setDev_other _ _ _ he
    refine ⟨inv_open h d hf h2 ha, quiet_open _ _ _, hdev, ?_, ?_⟩
    · intro a _ e
      by_cases he : e = d
      · subst he; rw [setDev_same]; exact a e
      · rw [hdev e he]; exact a e
    · intro a; have := (a d).2; rw [hm] at this; simp at this
  | notWatched t hf h2 hr m hm ht =>
    have hdev : ∀ e, e ≠ d → t.dev e = s.dev e := by
      intro e he; rw [ht, setDev_other _ _ _ he, setDev_other _ _ _ he]; rfl
    have htd : t.dev d = { s.dev d with fd := some s.files, mt := m } := by rw [ht, setDev_same]
    refine ⟨?_, ?_, hdev, fun _ hr' => absurd hr hr', ?_⟩
    · have := inv_mt (inv_open h d hf h2 ha) d m
      rw [setDev_same] at this
      rw [ht]; exact this
    · rw [ht]; exact (quiet_open _ _ _).trans (quiet_setDev _ _ _)
    · intro a e
      by_cases he : e = d
      · subst he; rw [htd]
        have := a e
        refine ⟨?_, this.2⟩
        dsimp only; rw [hm, this.2, this.1]; rfl
      · rw [hdev e he]; exact a e
  | fine hf h2 hr =>
    refine ⟨inv_opened h (no_source h hf) h2 ha ⟨Nat.le_refl _, dev_lt h ha⟩, quiet_opened h (Nat.le_refl _), ?_, ?_, ?_⟩
    · intro e he; simp [opened, he]
    · intro a _ e
      by_cases he : e = d
      · subst he; simp only [opened, if_pos]
        split
        · simp
        · exact a e
      · simp only [opened, if_neg he]; exact a e
    · intro a e
      by_cases he : e = d
      · subst he; simp only [opened, if_pos]
        rw [(a e).2]; exact ⟨(a e).1, rfl⟩
      · simp only [opened, if_neg he]; exact a e

theorem create_eq (s m sh) : create s m sh = opened s s.ndev
    { alive := true, needMt := m, shared := sh, mt := if m then .live {} else .null } (s.ndev + 1) := by
  simp [create, openFile, addFd, opened, Ctx.setDev]

theorem create_spec {s m sh} (h : Inv s) :
    Inv (create s m sh) ∧ Quiet s (create s m sh) ∧ (∀ e, e ≠ s.ndev → (create s m sh).dev e = s.dev e) ∧
      (Sound s → Sound (create s m sh)) ∧ (NoMt s → m = false → NoMt (create s m sh)) := by
  rw [create_eq]
  have hs : (s.dev s.ndev).source = none := (h.gone _ (.inr (h.beyond _ (Nat.le_refl _)))).1
  refine ⟨inv_opened h hs rfl rfl ⟨Nat.le_succ _, Nat.lt_succ_self _⟩, quiet_opened h (Nat.le_succ _), ?_, ?_, ?_⟩
  · intro e he; simp [opened, he]
  · intro a e
    by_cases he : e = s.ndev
    · simp only [opened, if_pos he]; cases m <;> simp
    · simp only [opened, if_neg he]; exact a e
  · intro a hm e
    by_cases he : e = s.ndev
    · simp only [opened, if_pos he, hm]; simp
    · simp only [opened, if_neg he]; exact a e

/-- The device is not in a state in which it has a source. -/
theorem inv_remove {s d k} (h : Inv s) (hs : (s.dev d).source = none) (hf : (s.dev d).fd = none) :
    Inv (s.setDev d { s.dev d with removed := true, alive := (s.dev d).alive && k }) := by
  obtain ⟨t, ht⟩ : ∃ t, t = s.setDev d { s.dev d with removed := true, alive := (s.dev d).alive && k } := ⟨_, rfl⟩
  have td : t.dev d = { s.dev d with removed := true, alive := (s.dev d).alive && k } := by rw [ht, setDev_same]
  have te : ∀ e, e ≠ d → t.dev e = s.dev e := fun e he => by rw [ht, setDev_other _ _ _ he]
  have tsrc : ∀ e, (t.dev e).source = (s.dev e).source := by
    intro e; by_cases he : e = d
    · subst he; rw [td]
    · rw [te e he]
  have tfd : ∀ e, (t.dev e).fd = (s.dev e).fd := by
    intro e; by_cases he : e = d
    · subst he; rw [td]
    · rw [te e he]
  have hh : ∀ o, holder t o = holder s o := by
    intro o; cases o with
    | timer => rw [ht]; rfl
    | monitor => rw [ht]; rfl
    | dev e => exact tsrc e
  have e1 : t.heap = s.heap := by rw [ht]; rfl
  have e2 : t.fresh = s.fresh := by rw [ht]; rfl
  have e3 : t.epoll = s.epoll := by rw [ht]; rfl
  have e4 : t.destroy = s.destroy := by rw [ht]; rfl
  have e5 : t.ndev = s.ndev := by rw [ht]; rfl
  have e6 : t.closed = s.closed := by rw [ht]; rfl
  have e7 : t.log = s.log := by rw [ht]; rfl
  have e8 : t.timer = s.timer := by rw [ht]; rfl
  have e9 : t.opened = s.opened := by rw [ht]; rfl
  have e10 : t.files = s.files := by rw [ht]; rfl
  rw [← ht]
  constructor
  all_goals try simp only [e1, e2, e3, e4, e5, e6, e7, e8, e9, e10, hh, tsrc, tfd]
  · exact h.bound
  · exact h.watch
  · exact h.watched
  · exact h.nodup
  · exact h.dead
  · exact h.destroyNodup
  · exact h.held
  · exact h.holds
  · exact h.isOpen
  · exact h.devFd
  · exact h.devOpen
  · exact h.fdDev
  · exact h.fdFd
  · exact h.fileOne
  · intro e he
    by_cases hed : e = d
    · subst hed; exact ⟨hs, hf⟩
    · rw [te e hed] at he; exact h.gone e he
  · intro e he
    by_cases hed : e = d
    · subst hed; rw [td]; have := h.beyond e he; simp [this]
    · rw [te e hed]; exact h.beyond e he
  · exact h.timerThere
  · exact h.proper
  · exact h.logBound
  · exact h.logWatch
  · exact h.logUnwatch
  · exact h.logDead
  · exact h.logFree
  · exact h.logFreed

theorem sound_asleep {s t : Ctx} {d} (td : (t.dev d).mt = .null) (te : ∀ e, e ≠ d → t.dev e = s.dev e) (a : Sound s) : Sound t := by
  intro e
  by_cases he : e = d
  · subst he; rw [td]; simp
  · rw [te e he]; exact a e

theorem nomt_asleep {s t : Ctx} {d} (td : (t.dev d).mt = .null ∧ (t.dev d).needMt = (s.dev d).needMt)
    (te : ∀ e, e ≠ d → t.dev e = s.dev e) (a : NoMt s) : NoMt t := by
  intro e
  by_cases he : e = d
  · subst he; rw [td.1, td.2]; exact ⟨rfl, (a e).2⟩
  · rw [te e he]; exact a e

/-- After an act: what it is not about is as before. -/
structure After (s t : Ctx) (a : Act) : Prop where
  quiet : Quiet s t
  others : ∀ d, d < s.ndev → about a ≠ some d → t.dev d = s.dev d

theorem act_spec {s a} (h : Inv s) : Ends id s (Room a) (Plain a) (act s a) (fun t => After s t a) := by
  have same : ∀ a, Ends id s (Room a) (Plain a) (.ok s) (fun t => After s t a) :=
    fun a => ⟨h, fun x _ => x, fun x _ => x, .refl _, fun _ _ _ => rfl⟩
  cases a with
  | suspend d =>
    unfold act; dsimp only
    split
    · rcases suspend_spec (d := d) h with ⟨t, h1, h2, h3, h4, h5, h6, h7, _, _⟩ | ⟨h1, h2⟩
      · rw [h1]
        refine ⟨h2, fun x _ => sound_asleep (t := t) (by rw [h5]; rfl) h6 x, fun x _ => nomt_asleep (t := t) (by rw [h5]; exact ⟨rfl, rfl⟩) h6 x,
          ⟨h3, h4, h7⟩, ?_⟩
        intro e _ he; exact h6 e (by rintro rfl; exact he rfl)
      · rw [h1]; exact ⟨rfl, fun x => x.1 d h2, fun x => x.1.sound d h2⟩
    · exact same _
  | resume d r =>
    unfold act; dsimp only
    split
    · rename_i ha
      obtain ⟨h1, h2, h3, h4, h5⟩ := resume_spec (r := r) h ha
      have hq : Quiet (resume s d r).1 ((resume s d r).1.say (.resumed d (resume s d r).2)) :=
        ⟨⟨fun _ x h => ⟨x, h, rfl⟩, ⟨[.resumed d (resume s d r).2], rfl, rfl, by simp⟩, Nat.le_refl _, rfl, rfl, rfl⟩,
          ⟨[.resumed d (resume s d r).2], rfl, rfl, rfl⟩, rfl⟩
      refine ⟨?_, fun x y => ?_, fun x _ => ?_, h2.trans hq, ?_⟩
      · exact inv_same h1 [.resumed d (resume s d r).2] rfl rfl rfl rfl rfl rfl rfl rfl rfl rfl rfl (by simp [Idle])
          (fun _ => ⟨rfl, rfl, rfl, rfl⟩)
      · exact h4 x (fun e => y d (by rw [e]))
      · exact h5 x
      · intro e _ he; exact h3 e (by rintro rfl; exact he rfl)
    · exact same _
  | create m sh =>
    obtain ⟨h1, h2, h3, h4, h5⟩ := create_spec (m := m) (sh := sh) h
    refine ⟨h1, fun x _ => h4 x, fun x y => h5 x ?_, h2, ?_⟩
    · cases m
      · rfl
      · exact absurd rfl (y sh)
    · intro d hd _; exact h3 d (by omega)
  | remove d k =>
    unfold act; dsimp only
    split
    · rename_i ha
      unfold remove
      rcases suspend_spec (d := d) h with ⟨t, h1, h2, h3, h4, h5, h6, h7, _, _⟩ | ⟨h1, h2⟩
      · rw [h1]; dsimp only
        have hi := inv_remove (k := k) h2 (d := d) (by rw [h5]; rfl) (by rw [h5]; rfl)
        have hk : ((t.dev d).alive && k) = k := by
          rw [h5]; show ((s.dev d).alive && k) = k
          rw [ha.1]; simp
        rw [hk] at hi
        refine ⟨hi, fun x _ => ?_, fun x _ => ?_, (Quiet.mk h3 h4 h7).trans (quiet_setDev _ _ _), ?_⟩
        · refine sound_asleep (s := s) (d := d) ?_ (fun e he => ?_) x
          · show ((t.setDev d _).dev d).mt = _; rw [setDev_same, h5]; rfl
          · show (t.setDev d _).dev e = _; rw [setDev_other _ _ _ he, h6 e he]
        · refine nomt_asleep (s := s) (d := d) ?_ (fun e he => ?_) x
          · show ((t.setDev d _).dev d).mt = _ ∧ ((t.setDev d _).dev d).needMt = _
            rw [setDev_same, h5]; exact ⟨rfl, rfl⟩
          · show (t.setDev d _).dev e = _; rw [setDev_other _ _ _ he, h6 e he]
        · intro e _ he
          have : e ≠ d := by rintro rfl; exact he rfl
          show (t.setDev d _).dev e = _
          rw [setDev_other _ _ _ this, h6 e this]
      · rw [h1]; exact ⟨rfl, fun x => x.1 d h2, fun x => x.1.sound d h2⟩
    · exact same _

theorem acts_spec {s} (as : List Act) (h : Inv s) :
    Ends id s (∀ a ∈ as, Room a) (∀ a ∈ as, Plain a) (acts s as)
      (fun t => Quiet s t ∧ ∀ d, d < s.ndev → (∀ a ∈ as, about a ≠ some d) → t.dev d = s.dev d) := by
  induction as generalizing s with
  | nil => exact ⟨h, fun x _ => x, fun x _ => x, .refl _, fun _ _ _ => rfl⟩
  | cons a as ih =>
    unfold acts
    refine Ends.bind (st := id) (st' := id) (fun t => acts t as) ((act_spec (a := a) h).weaken (R' := ∀ b ∈ a :: as, Room b) (P' := ∀ b ∈ a :: as, Plain b) (fun x => x a List.mem_cons_self) (fun x => x a List.mem_cons_self)
      (fun _ x => x)) (fun x hx => by rw [hx]) (fun x hx => by rw [hx]) ?_
    intro t ht hq
    refine (ih ht).weaken (fun x b hb => x b (List.mem_cons_of_mem _ hb)) (fun x b hb => x b (List.mem_cons_of_mem _ hb)) ?_
    rintro u ⟨hu, hd⟩
    refine ⟨hq.quiet.trans hu, fun d hlt ha => ?_⟩
    rw [hd d (Nat.lt_of_lt_of_le hlt hq.quiet.mono.ndev) (fun b hb => ha b (List.mem_cons_of_mem _ hb))]
    exact hq.others d hlt (ha a List.mem_cons_self)

end Libinput.Dispatch
