import Verif.Dispatch.Inv
/-
What each function does to a context for which the invariant holds.
-/
namespace Libinput.Dispatch
open Spec

/-- No device points to a freed converter. -/
def Sound (s : Ctx) : Prop := ∀ d, (s.dev d).mt ≠ .gone

/-- No device has or needs a converter. -/
def NoMt (s : Ctx) : Prop := ∀ d, (s.dev d).mt = .null ∧ (s.dev d).needMt = false

theorem NoMt.sound {s} (h : NoMt s) : Sound s := fun d => by rw [(h d).1]; simp

/-- Either all goes well, or a freed converter was used, which needs a device that needs one and a lack of room. -/
def Ends {α : Type} (st : α → Ctx) (s : Ctx) (R P : Prop) (r : M α) (Q : α → Prop) : Prop :=
  match r with
  | .ok x => Inv (st x) ∧ (Sound s → R → Sound (st x)) ∧ (NoMt s → P → NoMt (st x)) ∧ Q x
  | .error e => e = .mtdev ∧ ¬ (Sound s ∧ R) ∧ ¬ (NoMt s ∧ P)

theorem Ends.weaken {α : Type} {st : α → Ctx} {s R P R' P' Q Q'} {r : M α} (h : Ends st s R P r Q) (hr : R' → R) (hp : P' → P)
    (hq : ∀ x, Q x → Q' x) : Ends st s R' P' r Q' := by
  cases r with
  | ok x => exact ⟨h.1, fun a b => h.2.1 a (hr b), fun a b => h.2.2.1 a (hp b), hq _ h.2.2.2⟩
  | error e => exact ⟨h.1, fun a => h.2.1 ⟨a.1, hr a.2⟩, fun a => h.2.2 ⟨a.1, hp a.2⟩⟩

theorem Ends.bind {α β : Type} {st : α → Ctx} {st' : β → Ctx} {s R P Q Q'} {r : M α} {r' : M β} (k : α → M β)
    (h : Ends st s R P r Q) (ho : ∀ x, r = .ok x → r' = k x) (he : ∀ e, r = .error e → r' = .error e)
    (hk : ∀ x, Inv (st x) → Q x → Ends st' (st x) R P (k x) Q') : Ends st' s R P r' Q' := by
  cases r with
  | error e => rw [he e rfl]; exact h
  | ok x =>
    have h1 := hk x h.1 h.2.2.2
    rw [ho x rfl]
    generalize k x = r at h1
    cases r with
    | ok y => exact ⟨h1.1, fun a b => h1.2.1 (h.2.1 a b) b, fun a b => h1.2.2.1 (h.2.2.1 a b) b, h1.2.2.2⟩
    | error e => exact ⟨h1.1, fun a => h1.2.1 ⟨h.2.1 a.1 a.2, a.2⟩, fun a => h1.2.2 ⟨h.2.2.1 a.1 a.2, a.2⟩⟩

/-- The same, with what is known of converters. -/
theorem Ends.bindN {α β : Type} {st : α → Ctx} {st' : β → Ctx} {s R P Q Q'} {r : M α} {r' : M β} (k : α → M β)
    (h : Ends st s R P r Q) (ho : ∀ x, r = .ok x → r' = k x) (he : ∀ e, r = .error e → r' = .error e)
    (hk : ∀ x, Inv (st x) → (NoMt s → P → NoMt (st x)) → Q x → Ends st' (st x) R P (k x) Q') : Ends st' s R P r' Q' := by
  cases r with
  | error e => rw [he e rfl]; exact h
  | ok x =>
    have h1 := hk x h.1 h.2.2.1 h.2.2.2
    rw [ho x rfl]
    generalize k x = r at h1
    cases r with
    | ok y => exact ⟨h1.1, fun a b => h1.2.1 (h.2.1 a b) b, fun a b => h1.2.2.1 (h.2.2.1 a b) b, h1.2.2.2⟩
    | error e => exact ⟨h1.1, fun a => h1.2.1 ⟨h.2.1 a.1 a.2, a.2⟩, fun a => h1.2.2 ⟨h.2.2.1 a.1 a.2, a.2⟩⟩

/-- Nothing is freed and nobody is called. -/
structure Mono (s s' : Ctx) : Prop where
  heap : ∀ i x, s.heap i = some x → ∃ y, s'.heap i = some y ∧ y.owner = x.owner
  log : ∃ l, s'.log = s.log ++ l ∧ calls l = [] ∧ ∀ i, Did.free i ∉ l
  ndev : s.ndev ≤ s'.ndev
  closed : s'.closed = s.closed
  timer : s'.timer = s.timer
  time : s'.dispatchTime = s.dispatchTime

theorem calls_append (a b : List Did) : calls (a ++ b) = calls a ++ calls b := by simp [calls]
theorem handled_append (a b : List Did) : handled (a ++ b) = handled a ++ handled b := by simp [handled]

theorem Mono.refl (s) : Mono s s := ⟨fun _ x h => ⟨x, h, rfl⟩, ⟨[], by simp, rfl, by simp⟩, Nat.le_refl _, rfl, rfl, rfl⟩

theorem Mono.trans {a b c} (h : Mono a b) (k : Mono b c) : Mono a c := by
  refine ⟨?_, ?_, Nat.le_trans h.ndev k.ndev, k.closed.trans h.closed, k.timer.trans h.timer, k.time.trans h.time⟩
  · intro i x hx
    obtain ⟨y, hy, ho⟩ := h.heap i x hx
    obtain ⟨z, hz, ho'⟩ := k.heap i y hy
    exact ⟨z, hz, ho'.trans ho⟩
  · obtain ⟨l, h1, h2, h3⟩ := h.log
    obtain ⟨m, k1, k2, k3⟩ := k.log
    refine ⟨l ++ m, by rw [k1, h1, List.append_assoc], by rw [calls_append, h2, k2]; rfl, ?_⟩
    intro i hi
    rcases List.mem_append.1 hi with hi | hi
    · exact h3 i hi
    · exact k3 i hi

theorem lags_append (a b : List Did) : lags (a ++ b) = lags a ++ lags b := by simp [lags]

/-- No device handles an event, and no message is given. -/
def Silent (s s' : Ctx) : Prop := ∃ l, s'.log = s.log ++ l ∧ handled l = [] ∧ lags l = []

theorem Silent.refl (s) : Silent s s := ⟨[], by simp, rfl, rfl⟩
theorem Silent.trans {a b c} (h : Silent a b) (k : Silent b c) : Silent a c := by
  obtain ⟨l, h1, h2, h3⟩ := h; obtain ⟨m, k1, k2, k3⟩ := k
  exact ⟨l ++ m, by rw [k1, h1, List.append_assoc], by rw [handled_append, h2, k2]; rfl, by rw [lags_append, h3, k3]; rfl⟩

/-- Removing a source that is held. -/
theorem removeSource_ok {s i f o} (h : Inv s) (hi : s.heap i = some ⟨some f, o⟩) (hf : s.opened f = true) :
    removeSource s (some i) = .ok { s with
      epoll := s.epoll.filter (fun w => w.file ≠ f), heap := fun j => if j = i then some ⟨none, o⟩ else s.heap j,
      destroy := i :: s.destroy, log := s.log ++ [.unwatch i] } := by
  have : i ∉ s.destroy := by rw [h.dead]; rintro ⟨o', hx⟩; rw [hi] at hx; simp at hx
  simp only [removeSource, hi, if_neg this, epollDel, hf]
  simp

theorem setDev_same (s : Ctx) (d v) : (s.setDev d v).dev d = v := by simp [Ctx.setDev]
theorem setDev_other (s : Ctx) (d v) {e} (h : e ≠ d) : (s.setDev d v).dev e = s.dev e := by simp [Ctx.setDev, h]

/-- What `evdev_device_suspend` and the end of a device do to its source. -/
theorem unhold_dev {s i d} (h : Inv s) (hs : (s.dev d).source = some i) :
    ∃ t, removeSource s (some i) = .ok t ∧ Inv (t.setDev d { t.dev d with source := none }) ∧ t.dev = s.dev ∧
      Mono s t ∧ Silent s t ∧ t.opened = s.opened ∧ Did.unwatch i ∈ t.log ∧ t.monitor = s.monitor ∧ t.ndev = s.ndev := by
  obtain ⟨f, hi⟩ := h.holds (.dev d) i hs
  have hf := (h.isOpen _ _ _ hi).1
  refine ⟨_, removeSource_ok h hi hf, ?_, rfl, ?_, ?_, rfl, by simp, rfl, rfl⟩
  · refine inv_unhold h hi rfl rfl rfl (fun _ _ => rfl) (fun _ _ => rfl) rfl rfl ?_ ?_ rfl ?_ rfl
    · intro o'
      cases o' with
      | timer => rfl
      | monitor => rfl
      | dev e =>
        by_cases he : e = d
        · subst he; simp [holder, Ctx.setDev]
        · simp [holder, Ctx.setDev, he]
    · intro e
      by_cases he : e = d
      · subst he; simp [Ctx.setDev]
      · simp [Ctx.setDev, he]
    · intro hc; exact ⟨hc, by simp⟩
  · refine ⟨?_, ⟨[.unwatch i], rfl, rfl, by simp⟩, Nat.le_refl _, rfl, rfl, rfl⟩
    intro j x hx
    dsimp only
    by_cases hj : j = i
    · subst hj; rw [hi] at hx; cases hx; exact ⟨_, if_pos rfl, rfl⟩
    · exact ⟨x, by rw [if_neg hj]; exact hx, rfl⟩
  · exact ⟨[.unwatch i], rfl, rfl, rfl⟩

theorem mono_setDev (s d v) : Mono s (s.setDev d v) :=
  ⟨fun _ x h => ⟨x, h, rfl⟩, ⟨[], by simp [Ctx.setDev], rfl, by simp⟩, Nat.le_refl _, rfl, rfl, rfl⟩
theorem silent_setDev (s d v) : Silent s (s.setDev d v) := ⟨[], by simp [Ctx.setDev], rfl, rfl⟩

/-- Changing a converter. -/
theorem inv_mt {s} (h : Inv s) (d m) : Inv (s.setDev d { s.dev d with mt := m }) := by
  refine inv_same h [] rfl rfl rfl rfl rfl rfl rfl rfl rfl rfl (by simp [Ctx.setDev]) (by simp) ?_
  intro e
  by_cases he : e = d
  · subst he; simp [Ctx.setDev]
  · simp [Ctx.setDev, he]

theorem dropSource_spec {s d} (h : Inv s) :
    ∃ t, dropSource s d = .ok t ∧ Inv t ∧ Mono s t ∧ Silent s t ∧ t.dev d = { s.dev d with source := none } ∧
      (∀ e, e ≠ d → t.dev e = s.dev e) ∧ t.monitor = s.monitor ∧ t.ndev = s.ndev ∧
      (∀ i, (s.dev d).source = some i → Did.unwatch i ∈ t.log) := by
  unfold dropSource
  split
  · rename_i hs
    refine ⟨s, rfl, h, .refl _, .refl _, ?_, fun _ _ => rfl, rfl, rfl, by simp [hs]⟩
    generalize s.dev d = v at hs
    cases v; simp at hs; simp [hs]
  · rename_i i hs
    obtain ⟨t, h1, h2, h3, h4, h5, h6, h7, h8, h9⟩ := unhold_dev h hs
    refine ⟨t.setDev d { t.dev d with source := none }, by rw [h1], h2, h4.trans (mono_setDev _ _ _),
      h5.trans (silent_setDev _ _ _), ?_, ?_, h8, h9, ?_⟩
    · rw [setDev_same, h3]
    · intro e he; rw [setDev_other _ _ _ he, h3]
    · intro j hj; rw [hs] at hj; cases hj; exact h7

/-- What suspending leaves of a device. -/
def asleep (v : Dev) : Dev := { v with source := none, mt := .null, fd := none }

theorem suspend_spec {s d} (h : Inv s) :
    (∃ t, suspend s d = .ok t ∧ Inv t ∧ Mono s t ∧ Silent s t ∧ t.dev d = asleep (s.dev d) ∧
      (∀ e, e ≠ d → t.dev e = s.dev e) ∧ t.monitor = s.monitor ∧ t.ndev = s.ndev ∧
      (∀ i, (s.dev d).source = some i → Did.unwatch i ∈ t.log)) ∨
    (suspend s d = .error .mtdev ∧ (s.dev d).mt = .gone) := by
  obtain ⟨t, h1, h2, h3, h4, h5, h6, h7, h8, h9⟩ := dropSource_spec (d := d) h
  unfold suspend
  rw [h1]; dsimp only
  by_cases hg : (t.dev d).mt = .gone
  · right
    refine ⟨by rw [if_pos hg], ?_⟩
    rw [h5] at hg; exact hg
  left
  obtain ⟨u, hu⟩ : ∃ u, u = t.setDev d { t.dev d with mt := .null } := ⟨_, rfl⟩
  have hui : Inv u := hu ▸ inv_mt h2 d _
  have hum : Mono s u := hu ▸ h3.trans (mono_setDev _ _ _)
  have hus : Silent s u := hu ▸ h4.trans (silent_setDev _ _ _)
  have hud : u.dev d = { s.dev d with source := none, mt := .null } := by rw [hu, setDev_same, h5]
  have hue : ∀ e, e ≠ d → u.dev e = s.dev e := fun e he => by rw [hu, setDev_other _ _ _ he, h6 e he]
  have huw : ∀ i, (s.dev d).source = some i → Did.unwatch i ∈ u.log := fun i hi => by rw [hu]; exact h9 i hi
  have hum' : u.monitor = s.monitor := by rw [hu]; exact h7
  have hun : u.ndev = s.ndev := by rw [hu]; exact h8
  rw [if_neg hg, ← hu]
  have hfd : (u.dev d).fd = (s.dev d).fd := by rw [hud]
  rcases hf : (u.dev d).fd with _ | f
  · refine ⟨u, rfl, hui, hum, hus, ?_, hue, hum', hun, huw⟩
    rw [hud, asleep]; rw [hf] at hfd
    generalize s.dev d = v at hfd
    cases v; simp at hfd; simp [hfd]
  · dsimp only
    refine ⟨_, rfl, ?_, ?_, ?_, ?_, ?_, hum', hun, huw⟩
    · refine inv_close d hui hf (by rw [hud]) rfl rfl rfl rfl ?_ rfl rfl rfl rfl rfl rfl ?_
      · simp only [Ctx.setDev, closeFile]
        split
        · left; rfl
        · right; rfl
      · intro e
        by_cases he : e = d
        · subst he; simp [Ctx.setDev]
        · simp [Ctx.setDev, he, closeFile]
    · refine hum.trans ⟨fun _ x h => ⟨x, h, rfl⟩, ⟨[], by simp [Ctx.setDev, closeFile], rfl, by simp⟩, Nat.le_refl _, rfl, rfl, rfl⟩
    · exact hus.trans ⟨[], by simp [Ctx.setDev, closeFile], rfl, rfl⟩
    · rw [setDev_same, hud]; rfl
    · intro e he; rw [setDev_other _ _ _ he]; exact hue e he

/-- Opening a file. -/
theorem inv_open {s} (h : Inv s) (d : Nat) (hd : (s.dev d).fd = none) (hr : (s.dev d).removed = false)
    (ha : (s.dev d).alive = true) :
    Inv ((openFile s).1.setDev d { s.dev d with fd := some s.files }) := by
  have hs : (s.dev d).source = none := by
    rcases hs : (s.dev d).source with _ | i
    · rfl
    · obtain ⟨f, hf⟩ := h.holds (.dev d) i hs
      have := h.devFd _ _ _ hs hf
      rw [hd] at this; simp at this
  have hfiles : ∀ i o, s.heap i ≠ some ⟨some s.files, o⟩ := fun i o hx => Nat.lt_irrefl _ (h.isOpen _ _ _ hx).2
  have hdf : ∀ d, (s.dev d).fd ≠ some s.files := fun d hx => Nat.lt_irrefl _ (h.devOpen _ _ hx).2
  obtain ⟨t, ht⟩ : ∃ t, t = (openFile s).1.setDev d { s.dev d with fd := some s.files } := ⟨_, rfl⟩
  have td : t.dev d = { s.dev d with fd := some s.files } := by rw [ht, setDev_same]
  have te : ∀ e, e ≠ d → t.dev e = s.dev e := fun e he => by rw [ht, setDev_other _ _ _ he]; rfl
  have tsrc : ∀ e, (t.dev e).source = (s.dev e).source := by
    intro e; by_cases he : e = d
    · subst he; rw [td]
    · rw [te e he]
  have hh : ∀ o, holder t o = holder s o := by
    intro o; cases o with
    | timer => rw [ht]; rfl
    | monitor => rw [ht]; rfl
    | dev e => exact tsrc e
  have op : ∀ f, s.opened f = true ∧ f < s.files → t.opened f = true ∧ f < t.files := by
    intro f hf
    have e1 : t.opened f = if f = s.files then true else s.opened f := by rw [ht]; rfl
    have e2 : t.files = s.files + 1 := by rw [ht]; rfl
    refine ⟨?_, by omega⟩
    rw [e1]; split
    · rfl
    · exact hf.1
  have fd' : ∀ e f, (t.dev e).fd = some f → (e = d ∧ f = s.files) ∨ (s.dev e).fd = some f := by
    intro e f hf
    by_cases he : e = d
    · subst he; rw [td] at hf; left; exact ⟨rfl, by simpa using hf.symm⟩
    · rw [te e he] at hf; right; exact hf
  have e1 : t.heap = s.heap := by rw [ht]; rfl
  have e2 : t.fresh = s.fresh := by rw [ht]; rfl
  have e3 : t.epoll = s.epoll := by rw [ht]; rfl
  have e4 : t.destroy = s.destroy := by rw [ht]; rfl
  have e5 : t.ndev = s.ndev := by rw [ht]; rfl
  have e6 : t.closed = s.closed := by rw [ht]; rfl
  have e7 : t.log = s.log := by rw [ht]; rfl
  have e8 : t.timer = s.timer := by rw [ht]; rfl
  rw [← ht]
  constructor
  all_goals try simp only [e1, e2, e3, e4, e5, e6, e7, e8, hh]
  · exact h.bound
  · exact h.watch
  · exact h.watched
  · exact h.nodup
  · exact h.dead
  · exact h.destroyNodup
  · exact h.held
  · exact h.holds
  · intro i f o hx; exact op f (h.isOpen _ _ _ hx)
  · intro e i f hse hx
    rw [tsrc] at hse
    by_cases he : e = d
    · subst he; rw [hs] at hse; simp at hse
    · rw [te e he]; exact h.devFd _ _ _ hse hx
  · intro e f hf
    rcases fd' e f hf with ⟨_, rfl⟩ | hf
    · have e1 : t.opened s.files = if s.files = s.files then true else s.opened s.files := by rw [ht]; rfl
      have e2 : t.files = s.files + 1 := by rw [ht]; rfl
      exact ⟨by rw [e1]; simp, by omega⟩
    · exact op f (h.devOpen _ _ hf)
  · intro e f i o hf hx
    rcases fd' e f hf with ⟨_, rfl⟩ | hf
    · exact absurd hx (hfiles _ _)
    · exact h.fdDev _ _ _ _ hf hx
  · intro e e' f h1 h2
    rcases fd' e f h1 with ⟨he, hf1⟩ | h1 <;> rcases fd' e' f h2 with ⟨he', hf2⟩ | h2
    · rw [he, he']
    · subst hf1; exact absurd h2 (hdf _)
    · subst hf2; exact absurd h1 (hdf _)
    · exact h.fdFd _ _ _ h1 h2
  · exact h.fileOne
  · intro e he
    by_cases hed : e = d
    · subst hed; rw [td] at he; dsimp only at he; rw [hr, ha] at he; simp at he
    · rw [te e hed] at he ⊢; exact h.gone e he
  · intro e he
    by_cases hed : e = d
    · subst hed; have := h.beyond e he; rw [ha] at this; simp at this
    · rw [te e hed]; exact h.beyond e he
  · exact h.timerThere
  · exact h.proper
  · exact h.logBound
  · exact h.logWatch
  · exact h.logUnwatch
  · exact h.logDead
  · exact h.logFree
  · exact h.logFreed

end Libinput.Dispatch
