import Verif.Dispatch.Rounds
/-
Whole calls and histories of them.
-/
namespace Libinput.Dispatch
open Spec

theorem dropLoop_eq : ∀ (l : List Nat) (s : Ctx), l.Nodup → (∀ i ∈ l, ∃ x, s.heap i = some x) →
    dropLoop s l = .ok { s with heap := fun j => if j ∈ l then none else s.heap j, log := s.log ++ l.map .free } := by
  intro l
  induction l with
  | nil => intro s _ _; simp [dropLoop]
  | cons i l ih =>
    intro s hn hx
    obtain ⟨x, hi⟩ := hx i List.mem_cons_self
    rw [List.nodup_cons] at hn
    unfold dropLoop
    rw [hi]; dsimp only
    rw [ih _ hn.2]
    · simp only [List.map_cons, List.append_assoc, List.singleton_append, List.mem_cons]
      congr 2
      funext j
      by_cases hj : j ∈ l
      · simp [hj]
      · by_cases hji : j = i
        · simp [hji]
        · simp [hj, hji]
    · intro j hj
      obtain ⟨y, hy⟩ := hx j (List.mem_cons_of_mem _ hj)
      refine ⟨y, ?_⟩
      dsimp only
      rw [if_neg]; exact hy
      rintro rfl; exact hn.1 hj

/-- The state after the removed sources are freed. -/
def dropped (s : Ctx) : Ctx :=
  { s with heap := fun j => if j ∈ s.destroy then none else s.heap j, log := s.log ++ s.destroy.map .free, destroy := [] }

theorem drop_eq {s : Ctx} (hn : s.destroy.Nodup) (hx : ∀ i ∈ s.destroy, ∃ x, s.heap i = some x) : drop s = .ok (dropped s) := by
  unfold drop
  rw [dropLoop_eq _ _ hn hx]; rfl

theorem proper_frees (l : List Nat) : ∀ (log : List Did), Proper log → l.Nodup → (∀ i ∈ l, Did.unwatch i ∈ log ∧ Did.free i ∉ log) →
    Proper (log ++ l.map .free) := by
  induction l with
  | nil => intro log h _ _; simpa using h
  | cons i l ih =>
    intro log h hn hu
    rw [List.nodup_cons] at hn
    have h1 := proper_snoc h (x := .free i) (hu i List.mem_cons_self)
    have := ih _ h1 hn.2 (by
      intro j hj
      have := hu j (List.mem_cons_of_mem _ hj)
      refine ⟨List.mem_append_left _ this.1, ?_⟩
      intro hx
      rcases List.mem_append.1 hx with hx | hx
      · exact this.2 hx
      · simp at hx; subst hx; exact hn.1 hj)
    simpa using this

theorem inv_dropped {s} (h : Inv s) : Inv (dropped s) := by
  have hd : ∀ i ∈ s.destroy, ∃ o, s.heap i = some ⟨none, o⟩ := fun i hi => (h.dead i).1 hi
  have hheap : ∀ i x, (dropped s).heap i = some x → i ∉ s.destroy ∧ s.heap i = some x := by
    intro i x hx; simp only [dropped] at hx
    split at hx
    · simp at hx
    · rename_i hi; exact ⟨hi, hx⟩
  have hback : ∀ i f o, s.heap i = some ⟨some f, o⟩ → (dropped s).heap i = some ⟨some f, o⟩ := by
    intro i f o hx; simp only [dropped]
    rw [if_neg]; exact hx
    intro hi; obtain ⟨o', hx'⟩ := hd i hi; rw [hx] at hx'; simp at hx'
  have hh : ∀ o, holder (dropped s) o = holder s o := by intro o; cases o <;> rfl
  have mw : ∀ x, x ∈ (dropped s).log ↔ x ∈ s.log ∨ ∃ i ∈ s.destroy, Did.free i = x := by
    intro x; simp [dropped, List.mem_append, List.mem_map]
  constructor
  · intro i x hx; exact h.bound _ _ (hheap _ _ hx).2
  · intro w hw; exact hback _ _ _ (h.watch w hw)
  · intro i f o hx; exact h.watched _ _ _ (hheap _ _ hx).2
  · exact h.nodup
  · intro i
    constructor
    · intro hi; exact absurd hi (by simp [dropped])
    · rintro ⟨o, hx⟩
      exact absurd ((h.dead i).2 ⟨o, (hheap _ _ hx).2⟩) (hheap _ _ hx).1
  · simp [dropped]
  · intro i f o hx; rw [hh]; exact h.held _ _ _ (hheap _ _ hx).2
  · intro o i hi; rw [hh] at hi; obtain ⟨f, hf⟩ := h.holds _ _ hi; exact ⟨f, hback _ _ _ hf⟩
  · intro i f o hx; exact h.isOpen _ _ _ (hheap _ _ hx).2
  · intro d i f hs hx; exact h.devFd _ _ _ hs (hheap _ _ hx).2
  · exact h.devOpen
  · intro d f i o hf hx; exact h.fdDev _ _ _ _ hf (hheap _ _ hx).2
  · exact h.fdFd
  · intro i j f o o' h1 h2; exact h.fileOne _ _ _ _ _ (hheap _ _ h1).2 (hheap _ _ h2).2
  · exact h.gone
  · exact h.beyond
  · exact h.timerThere
  · refine proper_frees _ _ h.proper h.destroyNodup ?_
    intro i hi
    obtain ⟨o, hx⟩ := hd i hi
    refine ⟨h.logDead _ _ hx, fun hf => ?_⟩
    have := (h.logFree i hf).2; rw [hx] at this; simp at this
  · intro i o hx; rw [mw] at hx; simp at hx; exact h.logBound _ _ hx
  · intro i x hx; rw [mw]; left; exact h.logWatch _ _ (hheap _ _ hx).2
  · intro i hx; rw [mw] at hx; simp at hx
    exact ⟨(h.logUnwatch i hx).1, fun f o hx' => (h.logUnwatch i hx).2 f o (hheap _ _ hx').2⟩
  · intro i o hx; rw [mw]; left; exact h.logDead _ _ (hheap _ _ hx).2
  · intro i hx; rw [mw] at hx; simp at hx
    rcases hx with hx | hi
    · have := h.logFree i hx
      refine ⟨this.1, ?_⟩
      simp only [dropped]; split
      · rfl
      · exact this.2
    · obtain ⟨o, hx⟩ := hd i hi
      exact ⟨h.bound _ _ hx, by simp [dropped, hi]⟩
  · intro i hi hx
    rw [mw]
    simp only [dropped] at hx
    split at hx
    · rename_i hm; right; exact ⟨i, hm, rfl⟩
    · left; exact h.logFreed i hi hx

theorem drop_spec {s} (h : Inv s) : drop s = .ok (dropped s) ∧ Inv (dropped s) :=
  ⟨drop_eq h.destroyNodup (fun i hi => by obtain ⟨o, hx⟩ := (h.dead i).1 hi; exact ⟨_, hx⟩), inv_dropped h⟩

/-- If nothing waits to be freed, all that was removed was freed. -/
theorem freed_of_empty {s} (h : Inv s) (he : s.destroy = []) (i : Nat) (hu : Did.unwatch i ∈ s.log) : Did.free i ∈ s.log := by
  obtain ⟨h1, h2⟩ := h.logUnwatch i hu
  refine h.logFreed i h1 ?_
  rcases hx : s.heap i with _ | ⟨fd, o⟩
  · rfl
  · cases fd with
    | none => have := (h.dead i).2 ⟨o, hx⟩; rw [he] at this; simp at this
    | some f => exact absurd hx (h2 f o)

theorem inv_snapshot {s} (h : Inv s) (now) : Inv (snapshot s now) :=
  inv_same h [] rfl rfl rfl rfl rfl rfl rfl rfl rfl rfl (by simp [snapshot]) (by simp) (fun _ => ⟨rfl, rfl, rfl, rfl⟩)

/-- Reported sources are sources that are watched. -/
theorem reported_mem {s : Ctx} {ready r} (h : r ∈ reported s ready) : ∃ w ∈ s.epoll, ∃ c, (w.owner, c) ∈ ready ∧ r = (w.src, c) := by
  have := List.mem_of_mem_take h
  rw [List.mem_flatMap] at this
  obtain ⟨⟨o, c⟩, hr, hm⟩ := this
  rw [List.mem_map] at hm
  obtain ⟨w, hw, rfl⟩ := hm
  rw [List.mem_filter] at hw
  have : w.owner = o := by simpa using hw.2
  subst this
  exact ⟨w, hw.1, c, hr, rfl⟩

theorem reported_ok {s ready} (h : Inv s) (hf : ∀ r ∈ ready, NotOneself r) :
    ∀ r ∈ reported s ready, ∃ x, s.heap r.1 = some x ∧ ∀ d, x.owner = .dev d → Apart r.2 d := by
  intro r hr
  obtain ⟨w, hw, c, hc, rfl⟩ := reported_mem hr
  exact ⟨_, h.watch w hw, fun d hd => hf _ hc d hd⟩

theorem dispatch_spec {conv s now wait ready} (h : Inv s) (hf : ∀ r ∈ ready, NotOneself r) :
    Ends id s (∀ r ∈ ready, RoomC r.2) (∀ r ∈ ready, PlainC r.2) (dispatch conv s now wait ready)
      (fun t => (∃ e, wait = some e ∧ t = snapshot s now) ∨
        (wait = none ∧ ∃ u, Round conv (snapshot s now) u (reported s ready) ∧ Inv u ∧ t = dropped u)) := by
  have hs := inv_snapshot h now
  unfold dispatch; dsimp only
  cases wait with
  | some e => exact ⟨hs, fun x _ => x, fun x _ => x, .inl ⟨e, rfl, rfl⟩⟩
  | none =>
    dsimp only
    have h1 := callLoop_spec (conv := conv) (reported (snapshot s now) ready) hs (reported_ok hs hf)
    have h1 : Ends id s (∀ r ∈ ready, RoomC r.2) (∀ r ∈ ready, PlainC r.2) (callLoop conv (snapshot s now) (reported (snapshot s now) ready))
        (fun t => Round conv (snapshot s now) t (reported s ready)) :=
      (h1.of_dev (s := s) rfl).weaken
        (fun x r hr => by obtain ⟨w, _, c, hc, rfl⟩ := reported_mem hr; exact x _ hc)
        (fun x r hr => by obtain ⟨w, _, c, hc, rfl⟩ := reported_mem hr; exact x _ hc) (fun _ x => x)
    refine Ends.bind (st := id) (st' := id) (fun t => drop t) h1 (fun x hx => by rw [hx]) (fun x hx => by rw [hx]) ?_
    intro u hu hr
    obtain ⟨h2, h3⟩ := drop_spec (s := u) hu
    show Ends id u _ _ (drop u) _
    rw [h2]
    exact ⟨h3, fun x _ => x, fun x _ => x, .inr ⟨rfl, u, hr, hu, rfl⟩⟩

theorem removeAll_spec {kept} (ds : List Nat) : ∀ {s}, Inv s →
    Ends id s True True (removeAll s kept ds)
      (fun t => Quiet s t ∧ t.ndev = s.ndev ∧ (∀ d, (s.dev d).source = none → (t.dev d).source = none) ∧ ∀ d ∈ ds, (t.dev d).source = none) := by
  induction ds with
  | nil => intro s h; exact ⟨h, fun x _ => x, fun x _ => x, .refl _, rfl, fun _ h => h, by simp⟩
  | cons d ds ih =>
    intro s h
    have h1 : Ends id s True True (act s (.remove d (kept d)))
        (fun t => Quiet s t ∧ t.ndev = s.ndev ∧ (∀ e, (s.dev e).source = none → (t.dev e).source = none) ∧ (t.dev d).source = none) := by
      have h0 := (act_spec (a := .remove d (kept d)) h).weaken (R' := True) (P' := True) (fun _ d => by simp) (fun _ d => by simp) (fun _ x => x)
      have hx : ∀ t, act s (.remove d (kept d)) = .ok t → t.ndev = s.ndev ∧ (∀ e, (s.dev e).source = none → (t.dev e).source = none) ∧ (t.dev d).source = none := by
        intro t ht
        unfold act at ht; dsimp only at ht
        split at ht
        · unfold remove at ht
          rcases suspend_spec (d := d) h with ⟨u, k1, _, _, _, k5, k6, _, k8, _⟩ | ⟨k1, _⟩
          · rw [k1] at ht; dsimp only at ht
            injection ht with ht
            subst ht
            have hdd : ((u.setDev d { u.dev d with removed := true, alive := kept d }).dev d).source = none := by
              rw [setDev_same, k5]; rfl
            refine ⟨k8, fun e he => ?_, hdd⟩
            by_cases hed : e = d
            · subst hed; exact hdd
            · rw [setDev_other _ _ _ hed, k6 e hed]; exact he
          · rw [k1] at ht; simp at ht
        · injection ht with ht
          subst ht
          refine ⟨rfl, fun _ h => h, ?_⟩
          rename_i hc
          refine (h.gone d ?_).1
          rcases ha : (s.dev d).alive with _ | _
          · right; rfl
          · left
            rcases hr : (s.dev d).removed with _ | _
            · exact absurd ⟨ha, hr⟩ hc
            · rfl
      cases hr : act s (.remove d (kept d)) with
      | error e => rw [hr] at h0; exact h0
      | ok t =>
        rw [hr] at h0
        exact ⟨h0.1, h0.2.1, h0.2.2.1, h0.2.2.2.quiet, hx t hr⟩
    unfold removeAll
    refine Ends.bind (st := id) (st' := id) (fun t => removeAll t kept ds) h1 (fun x hx => by rw [hx]) (fun x hx => by rw [hx]) ?_
    rintro t ht ⟨hq, hn, hs, hd⟩
    refine (ih ht).weaken id id ?_
    rintro u ⟨hq', hn', hs', hd'⟩
    refine ⟨hq.trans hq', hn'.trans hn, fun e he => hs' e (hs e he), ?_⟩
    intro e he
    rcases List.mem_cons.1 he with rfl | he
    · exact hs' _ hd
    · exact hd' e he

/-- The state after the monitor was closed and its source removed. -/
def unmonitored (s : Ctx) (i f : Nat) : Ctx :=
  { s with
    opened := fun g => if g = f then false else s.opened g
    epoll := s.epoll.filter (fun w => w.file ≠ f)
    heap := fun j => if j = i then some ⟨none, .monitor⟩ else s.heap j
    destroy := i :: s.destroy
    log := s.log ++ [.unwatch i]
    monitor := none }

theorem disable_monitor {s kept i} (h : Inv s) (hm : s.monitor = some i) :
    ∃ f, disable s false kept = removeAll (unmonitored s i f) kept (List.range s.ndev) ∧ Inv (unmonitored s i f) ∧
      s.heap i = some ⟨some f, .monitor⟩ := by
  obtain ⟨f, hi⟩ := h.holds .monitor i hm
  refine ⟨f, ?_, ?_, hi⟩
  · unfold disable
    rw [hm]; dsimp only
    rw [hi]; dsimp only
    have hnd : i ∉ s.destroy := by rw [h.dead]; rintro ⟨o', hx⟩; rw [hi] at hx; simp at hx
    have : removeSource (closeFile s f false) (some i) = .ok { unmonitored s i f with monitor := s.monitor } := by
      have h1 : (closeFile s f false).heap i = some ⟨some f, .monitor⟩ := hi
      have h2 : i ∉ (closeFile s f false).destroy := hnd
      simp only [removeSource, h1, if_neg h2, epollDel]
      simp [closeFile, unmonitored]
    rw [this]
    rfl
  · refine inv_unhold (s := s) (o := .monitor) h hi rfl rfl rfl ?_ (fun d hd => by simp at hd) rfl rfl ?_ (fun _ => ⟨rfl, rfl, rfl⟩) rfl
      (fun hc => ⟨hc, by simp⟩) rfl
    · intro g hg; simp [unmonitored, hg]
    · intro o'; cases o' <;> rfl

theorem quiet_log {s t} (h : Quiet s t) : ∃ l, t.log = s.log ++ l ∧ handled l = [] ∧ calls l = [] := by
  obtain ⟨l, h1, h2, _⟩ := h.silent
  obtain ⟨m, k1, k2, _⟩ := h.mono.log
  rw [h1] at k1
  have := List.append_cancel_left k1
  subst this
  exact ⟨l, h1, h2, k2⟩

theorem disable_spec {s kept} (h : Inv s) :
    Ends id s True True (disable s false kept)
      (fun t => t.monitor = none ∧ (∀ d, (t.dev d).source = none) ∧ t.closed = s.closed ∧ t.timer = s.timer ∧
        (∃ l, t.log = s.log ++ l ∧ handled l = [] ∧ calls l = [])) := by
  have all : ∀ {s u : Ctx}, Inv u → u.ndev = s.ndev → (∀ d ∈ List.range s.ndev, (u.dev d).source = none) → ∀ d, (u.dev d).source = none := by
    intro s u hu hn hd d
    rcases Nat.lt_or_ge d s.ndev with hlt | hge
    · exact hd d (List.mem_range.2 hlt)
    · exact (hu.gone d (.inr (hu.beyond d (by omega)))).1
  have fin : ∀ {s : Ctx}, Inv s → s.monitor = none → Ends id s True True (removeAll s kept (List.range s.ndev))
      (fun t => t.monitor = none ∧ (∀ d, (t.dev d).source = none) ∧ t.closed = s.closed ∧ t.timer = s.timer ∧
        ∃ l, t.log = s.log ++ l ∧ handled l = [] ∧ calls l = []) := by
    intro s h hm
    have h1 := removeAll_spec (kept := kept) (List.range s.ndev) h
    cases hr : removeAll s kept (List.range s.ndev) with
    | error e => rw [hr] at h1; exact h1
    | ok t =>
      rw [hr] at h1
      obtain ⟨hi, hs, hn, hq, hnd, _, hd⟩ := h1
      exact ⟨hi, hs, hn, hq.monitor.trans hm, all hi hnd hd, hq.mono.closed, hq.mono.timer, quiet_log hq⟩
  rcases hm : s.monitor with _ | i
  · have : disable s false kept = removeAll s kept (List.range s.ndev) := by unfold disable; rw [hm]
    rw [this]; exact fin h hm
  · obtain ⟨f, h1, h2, hi⟩ := disable_monitor (kept := kept) h hm
    rw [h1]
    have h3 := (fin h2 rfl).of_dev (s := s) rfl
    refine h3.weaken id id ?_
    rintro t ⟨k1, k2, k3, k4, l, k5, k6, k7⟩
    refine ⟨k1, k2, k3, k4, [.unwatch i] ++ l, ?_, ?_, ?_⟩
    · rw [k5]; simp [unmonitored]
    · rw [handled_append, k6]; rfl
    · rw [calls_append, k7]; rfl

/-- Files that nobody knows. -/
theorem inv_files {s s' : Ctx} (h : Inv s) (hs : s' = { s with files := s'.files, opened := s'.opened }) (hf : s.files ≤ s'.files)
    (ho : ∀ f, f < s.files → s'.opened f = s.opened f) : Inv s' := by
  have op : ∀ f, s.opened f = true ∧ f < s.files → s'.opened f = true ∧ f < s'.files := by
    intro f hx; rw [ho f hx.2]; exact ⟨hx.1, by omega⟩
  have hh : ∀ o, holder s' o = holder s o := by intro o; rw [hs]; cases o <;> rfl
  have e1 : s'.heap = s.heap := by rw [hs]
  have e2 : s'.fresh = s.fresh := by rw [hs]
  have e3 : s'.epoll = s.epoll := by rw [hs]
  have e4 : s'.destroy = s.destroy := by rw [hs]
  have e5 : s'.ndev = s.ndev := by rw [hs]
  have e6 : s'.closed = s.closed := by rw [hs]
  have e7 : s'.log = s.log := by rw [hs]
  have e8 : s'.timer = s.timer := by rw [hs]
  have e9 : s'.dev = s.dev := by rw [hs]
  constructor
  all_goals try simp only [e1, e2, e3, e4, e5, e6, e7, e8, e9, hh]
  · exact h.bound
  · exact h.watch
  · exact h.watched
  · exact h.nodup
  · exact h.dead
  · exact h.destroyNodup
  · exact h.held
  · exact h.holds
  · exact fun i f o hx => op f (h.isOpen i f o hx)
  · exact h.devFd
  · exact fun d f hx => op f (h.devOpen d f hx)
  · exact h.fdDev
  · exact h.fdFd
  · exact h.fileOne
  · exact h.gone
  · exact h.beyond
  · exact h.timerThere
  · exact h.proper
  · exact h.logBound
  · exact h.logWatch
  · exact h.logUnwatch
  · exact h.logDead
  · exact h.logFree
  · exact h.logFreed

theorem creates_spec (devs : List (Bool × Bool)) : ∀ {s}, Inv s →
    Inv (devs.foldl (fun s x => create s x.1 x.2) s) ∧ Quiet s (devs.foldl (fun s x => create s x.1 x.2) s) ∧
      (Sound s → Sound (devs.foldl (fun s x => create s x.1 x.2) s)) ∧
      (NoMt s → (∀ x ∈ devs, x.1 = false) → NoMt (devs.foldl (fun s x => create s x.1 x.2) s)) := by
  induction devs with
  | nil => intro s h; exact ⟨h, .refl _, id, fun x _ => x⟩
  | cons x devs ih =>
    intro s h
    obtain ⟨h1, h2, _, h4, h5⟩ := create_spec (m := x.1) (sh := x.2) h
    obtain ⟨k1, k2, k3, k4⟩ := ih h1
    exact ⟨k1, h2.trans k2, fun a => k3 (h4 a), fun a b => k4 (h5 a (b x List.mem_cons_self)) (fun y hy => b y (List.mem_cons_of_mem _ hy))⟩

theorem enable_false {s devs} (h : Inv s) (hm : s.monitor = none) : enable s false devs =
    { s with files := s.files + 1, opened := fun g => if g = s.files then false else s.opened g } := by
  have he : s.epoll.filter (fun w => w.file ≠ s.files) = s.epoll := by
    rw [List.filter_eq_self]
    intro w hw
    have := (h.isOpen _ _ _ (h.watch w hw)).2
    simp; omega
  unfold enable
  rw [if_neg (by rw [hm]; simp)]
  simp only [addFd, openFile, closeFile]
  simp only [Bool.false_eq_true, if_false, he]
  congr 1
  funext g
  by_cases hg : g = s.files <;> simp [hg]

/-- The state after the monitor was opened. -/
def monitored (s : Ctx) : Ctx :=
  { s with
    heap := fun i => if i = s.fresh then some { fd := some s.files, owner := .monitor } else s.heap i
    fresh := s.fresh + 1
    files := s.files + 1
    opened := fun f => if f = s.files then true else s.opened f
    epoll := s.epoll ++ [{ file := s.files, src := s.fresh, owner := .monitor }]
    log := s.log ++ [.watch s.fresh .monitor]
    monitor := some s.fresh }

theorem enable_true {s devs} (hm : s.monitor = none) : enable s true devs = devs.foldl (fun s x => create s x.1 x.2) (monitored s) := by
  unfold enable
  rw [if_neg (by rw [hm]; simp)]
  simp only [addFd, openFile, if_pos]
  rfl

theorem inv_monitored {s} (h : Inv s) (hm : s.monitor = none) : Inv (monitored s) := by
  refine inv_hold (o := .monitor) h hm rfl rfl rfl rfl rfl rfl ?_ (fun _ _ => ⟨rfl, rfl, rfl⟩) (fun d hd => by simp at hd)
    ⟨Nat.le_refl _, fun d hd => by simp at hd⟩ rfl rfl
  intro o'; cases o' <;> rfl

theorem enable_spec {s ok devs} (h : Inv s) : Inv (enable s ok devs) ∧ (Sound s → Sound (enable s ok devs)) ∧
    (NoMt s → (∀ x ∈ devs, x.1 = false) → NoMt (enable s ok devs)) ∧ (enable s ok devs).closed = s.closed ∧
    ∃ l, (enable s ok devs).log = s.log ++ l ∧ handled l = [] ∧ calls l = [] := by
  rcases hm : s.monitor with _ | i
  · cases ok with
    | false =>
      rw [enable_false h hm]
      refine ⟨inv_files h rfl (Nat.le_succ _) ?_, id, fun x _ => x, rfl, [], by simp, rfl, rfl⟩
      intro f hf
      show (if f = s.files then false else s.opened f) = _
      rw [if_neg (by omega)]
    | true =>
      rw [enable_true hm]
      obtain ⟨k1, k2, k3, k4⟩ := creates_spec devs (inv_monitored h hm)
      obtain ⟨l, l1, l2, l3⟩ := quiet_log k2
      refine ⟨k1, k3, k4, k2.mono.closed, [.watch s.fresh .monitor] ++ l, ?_, ?_, ?_⟩
      · rw [l1]; simp [monitored]
      · rw [handled_append, l2]; rfl
      · rw [calls_append, l3]; rfl
  · have : enable s ok devs = s := by unfold enable; rw [if_pos (by rw [hm]; simp)]
    rw [this]
    exact ⟨h, id, fun x _ => x, rfl, [], by simp, rfl, rfl⟩

/-- The state after the timers' source was removed and its file closed. -/
def untimed (s : Ctx) (i f : Nat) : Ctx :=
  { s with
    opened := fun g => if g = f then false else s.opened g
    epoll := s.epoll.filter (fun w => w.file ≠ f)
    heap := fun j => if j = i then some ⟨none, .timer⟩ else s.heap j
    destroy := i :: s.destroy
    log := s.log ++ [.unwatch i]
    closed := true
    timer := none }

theorem inv_untimed {s i f} (h : Inv s) (hi : s.heap i = some ⟨some f, .timer⟩) : Inv (untimed s i f) := by
  refine inv_unhold (s := s) (o := .timer) h hi rfl rfl rfl ?_ (fun d hd => by simp at hd) rfl rfl ?_ (fun _ => ⟨rfl, rfl, rfl⟩) rfl
    (fun hc => by simp [untimed] at hc) rfl
  · intro g hg; simp [untimed, hg]
  · intro o'; cases o' <;> rfl

theorem destroy_eq {s t shared kept} (hd : disable s shared kept = .ok t) (h : Inv t) (ht : t.timer ≠ none) :
    ∃ i f, t.heap i = some ⟨some f, .timer⟩ ∧ destroy s shared kept = .ok (dropped (untimed t i f)) := by
  obtain ⟨i, hi⟩ : ∃ i, t.timer = some i := by
    rcases hh : t.timer with _ | i
    · exact absurd hh ht
    · exact ⟨i, rfl⟩
  obtain ⟨f, hf⟩ := h.holds .timer i hi
  refine ⟨i, f, hf, ?_⟩
  unfold destroy
  rw [hd]; dsimp only
  rw [hi]; dsimp only
  rw [removeSource_ok h hf (h.isOpen _ _ _ hf).1, hf]
  dsimp only [Option.bind]
  have hinv := inv_untimed h hf
  have e : ∀ u : Ctx, u = closeFile { t with
      epoll := t.epoll.filter (fun w => w.file ≠ f), heap := fun j => if j = i then some ⟨none, .timer⟩ else t.heap j,
      destroy := i :: t.destroy, log := t.log ++ [.unwatch i] } f false → u = { untimed t i f with closed := t.closed, timer := t.timer } := by
    intro u hu
    rw [hu]
    simp [closeFile, untimed, List.filter_filter]
  rw [e _ rfl]
  have hdrop : drop { untimed t i f with closed := t.closed, timer := t.timer } =
      .ok (dropped { untimed t i f with closed := t.closed, timer := t.timer }) := by
    refine drop_eq hinv.destroyNodup ?_
    intro j hj
    obtain ⟨o, hx⟩ := (hinv.dead j).1 hj
    exact ⟨_, hx⟩
  rw [hdrop]
  rfl

theorem destroy_spec {s kept} (h : Inv s) (hc : s.closed = false) :
    Ends id s True True (destroy s false kept)
      (fun t => t.closed = true ∧ (∀ i, t.heap i = none) ∧ t.destroy = [] ∧ t.epoll = []) := by
  have h1 := disable_spec (kept := kept) h
  cases hr : disable s false kept with
  | error e =>
    rw [hr] at h1
    have : destroy s false kept = .error e := by unfold destroy; rw [hr]
    rw [this]; exact h1
  | ok t =>
    rw [hr] at h1
    obtain ⟨hi, hs, hn, h2, h3, h4, h5, _⟩ := h1
    have hi : Inv t := hi
    have ht : t.timer ≠ none := by rw [h5]; exact h.timerThere hc
    obtain ⟨i, f, hf, he⟩ := destroy_eq hr hi ht
    rw [he]
    have hu := inv_untimed hi hf
    have hnone : ∀ o, holder (untimed t i f) o = none := by
      intro o; cases o with
      | timer => rfl
      | monitor => exact h2
      | dev d => exact h3 d
    have hheap : ∀ j, (dropped (untimed t i f)).heap j = none := by
      intro j
      have hd := inv_dropped hu
      rcases hx : (dropped (untimed t i f)).heap j with _ | ⟨fd, o⟩
      · rfl
      · cases fd with
        | none => have := (hd.dead j).2 ⟨o, hx⟩; simp [dropped] at this
        | some g =>
          have := hd.held _ _ _ hx
          have h' : holder (dropped (untimed t i f)) o = holder (untimed t i f) o := by cases o <;> rfl
          rw [h', hnone] at this; simp at this
    refine ⟨inv_dropped hu, fun x y => hs x y, fun x y => hn x y, rfl, hheap, rfl, ?_⟩
    rcases hep : (dropped (untimed t i f)).epoll with _ | ⟨w, ws⟩
    · rfl
    · have := (inv_dropped hu).watch w (by rw [hep]; exact List.mem_cons_self)
      rw [hheap] at this; simp at this

theorem step_spec {conv s op} (h : Inv s) (hf : Fair op) :
    Ends id s (HasRoom op) (AllPlain op) (step conv s op) (fun t => s.closed = true → t = s) := by
  unfold step
  by_cases hc : s.closed = true
  · rw [if_pos hc]; exact ⟨h, fun x _ => x, fun x _ => x, fun _ => rfl⟩
  rw [if_neg hc]
  have hc' : s.closed = false := by simpa using hc
  cases op with
  | dispatch now wait ready =>
    exact (dispatch_spec h hf).weaken (fun x r hr n a ha => x r hr n a ha) (fun x r hr n a ha => x r hr n a ha) (fun _ _ a => absurd a hc)
  | act a => exact (act_spec (a := a) h).weaken id id (fun _ _ a => absurd a hc)
  | disable sh kept =>
    have hsh : sh = false := hf
    subst hsh
    exact (disable_spec (kept := kept) h).weaken id id (fun _ _ a => absurd a hc)
  | enable ok devs =>
    obtain ⟨h1, h2, h3, _⟩ := enable_spec (ok := ok) (devs := devs) h
    exact ⟨h1, fun x _ => h2 x, fun x y => h3 x y, fun a => absurd a hc⟩
  | destroy sh kept =>
    have hsh : sh = false := hf
    subst hsh
    exact (destroy_spec (kept := kept) h hc').weaken id id (fun _ _ a => absurd a hc)

theorem run_spec {conv} (ops : List Op) : ∀ {s}, Inv s → (∀ op ∈ ops, Fair op) →
    Ends id s (∀ op ∈ ops, HasRoom op) (∀ op ∈ ops, AllPlain op) (run conv s ops) (fun _ => True) := by
  induction ops with
  | nil => intro s h _; exact ⟨h, fun x _ => x, fun x _ => x, trivial⟩
  | cons op ops ih =>
    intro s h hf
    unfold run
    refine Ends.bind (st := id) (st' := id) (fun t => run conv t ops)
      ((step_spec (conv := conv) h (hf op List.mem_cons_self)).weaken (R' := ∀ o ∈ op :: ops, HasRoom o) (P' := ∀ o ∈ op :: ops, AllPlain o)
        (fun x => x _ List.mem_cons_self) (fun x => x _ List.mem_cons_self) (fun _ x => x))
      (fun x hx => by rw [hx]) (fun x hx => by rw [hx]) ?_
    intro t ht _
    exact (ih ht (fun o ho => hf o (List.mem_cons_of_mem _ ho))).weaken (fun x o ho => x o (List.mem_cons_of_mem _ ho))
      (fun x o ho => x o (List.mem_cons_of_mem _ ho)) (fun _ x => x)

theorem sound_init : Sound init := by intro d; simp [init, openFile, addFd]
theorem nomt_init : NoMt init := by intro d; simp [init, openFile, addFd]

theorem run_inv {conv ops s} (hf : ∀ op ∈ ops, Fair op) (hr : run conv init ops = .ok s) : Inv s := by
  have := run_spec (conv := conv) ops inv_init hf
  rw [hr] at this; exact this.1

end Libinput.Dispatch
