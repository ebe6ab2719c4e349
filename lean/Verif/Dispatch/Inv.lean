import Verif.Dispatch.Spec
/-
What holds of sources, watches and those who hold them, whatever happens.
-/
namespace Libinput.Dispatch
open Spec

/-- Who holds a source. -/
def holder (s : Ctx) : Owner → Option Nat
  | .timer => s.timer
  | .monitor => s.monitor
  | .dev d => (s.dev d).source

structure Inv (s : Ctx) : Prop where
  bound : ∀ i x, s.heap i = some x → i < s.fresh
  watch : ∀ w ∈ s.epoll, s.heap w.src = some ⟨some w.file, w.owner⟩
  watched : ∀ i f o, s.heap i = some ⟨some f, o⟩ → ⟨f, i, o⟩ ∈ s.epoll
  nodup : (s.epoll.map (·.src)).Nodup
  dead : ∀ i, i ∈ s.destroy ↔ ∃ o, s.heap i = some ⟨none, o⟩
  destroyNodup : s.destroy.Nodup
  held : ∀ i f o, s.heap i = some ⟨some f, o⟩ → holder s o = some i
  holds : ∀ o i, holder s o = some i → ∃ f, s.heap i = some ⟨some f, o⟩
  isOpen : ∀ i f o, s.heap i = some ⟨some f, o⟩ → s.opened f = true ∧ f < s.files
  devFd : ∀ d i f, (s.dev d).source = some i → s.heap i = some ⟨some f, .dev d⟩ → (s.dev d).fd = some f
  devOpen : ∀ d f, (s.dev d).fd = some f → s.opened f = true ∧ f < s.files
  fdDev : ∀ d f i o, (s.dev d).fd = some f → s.heap i = some ⟨some f, o⟩ → o = .dev d
  fdFd : ∀ d e f, (s.dev d).fd = some f → (s.dev e).fd = some f → d = e
  fileOne : ∀ i j f o o', s.heap i = some ⟨some f, o⟩ → s.heap j = some ⟨some f, o'⟩ → i = j
  gone : ∀ d, (s.dev d).removed = true ∨ (s.dev d).alive = false → (s.dev d).source = none ∧ (s.dev d).fd = none
  beyond : ∀ d, s.ndev ≤ d → (s.dev d).alive = false
  timerThere : s.closed = false → s.timer ≠ none
  proper : Proper s.log
  logBound : ∀ i o, Did.watch i o ∈ s.log → i < s.fresh
  logWatch : ∀ i x, s.heap i = some x → Did.watch i x.owner ∈ s.log
  logUnwatch : ∀ i, Did.unwatch i ∈ s.log → i < s.fresh ∧ ∀ f o, s.heap i ≠ some ⟨some f, o⟩
  logDead : ∀ i o, s.heap i = some ⟨none, o⟩ → Did.unwatch i ∈ s.log
  logFree : ∀ i, Did.free i ∈ s.log → i < s.fresh ∧ s.heap i = none
  logFreed : ∀ i, i < s.fresh → s.heap i = none → Did.free i ∈ s.log

theorem proper_nil : Proper [] := by
  intro pre x post h; simp at h

theorem proper_snoc {l x} (h : Proper l) (hx : May l x) : Proper (l ++ [x]) := by
  intro pre y post e
  rcases List.eq_nil_or_concat post with rfl | ⟨p, z, rfl⟩
  · have e' : l ++ [x] = pre ++ [y] := e
    have := List.append_inj' e' rfl
    obtain ⟨rfl, h2⟩ := this
    simp at h2; subst h2; exact hx
  · have e' : l ++ [x] = (pre ++ y :: p) ++ [z] := by simp [e]
    have := List.append_inj' e' rfl
    exact h pre y p this.1

/-- Entries that are about no source. -/
def Idle : Did → Prop
  | .flush _ => True
  | .event _ _ => True
  | .lag _ _ => True
  | .resumed _ _ => True
  | _ => False

/-- Saying something that is about no source, and changing a converter, is of no matter. -/
theorem inv_same {s s' : Ctx} (h : Inv s) (x : List Did) (e1 : s'.heap = s.heap) (e2 : s'.fresh = s.fresh) (e3 : s'.files = s.files)
    (e4 : s'.opened = s.opened) (e5 : s'.epoll = s.epoll) (e6 : s'.destroy = s.destroy) (e7 : s'.timer = s.timer)
    (e8 : s'.monitor = s.monitor) (e9 : s'.ndev = s.ndev) (e10 : s'.closed = s.closed) (e11 : s'.log = s.log ++ x)
    (hx : ∀ y ∈ x, Idle y)
    (ed : ∀ d, (s'.dev d).alive = (s.dev d).alive ∧ (s'.dev d).removed = (s.dev d).removed ∧ (s'.dev d).fd = (s.dev d).fd ∧
      (s'.dev d).source = (s.dev d).source) : Inv s' := by
  have hh : ∀ o, holder s' o = holder s o := by
    intro o; cases o <;> simp [holder, e7, e8, (ed _).2.2.2]
  have hp : ∀ (x : List Did) l, Proper l → (∀ y ∈ x, Idle y) → Proper (l ++ x) := by
    intro x
    induction x with
    | nil => intro l hl _; simpa using hl
    | cons y ys ih =>
      intro l hl hy
      have : Proper (l ++ [y]) := by
        apply proper_snoc hl
        have := hy y List.mem_cons_self
        cases y <;> simp [Idle] at this <;> simp [May]
      have := ih _ this (fun z hz => hy z (List.mem_cons_of_mem _ hz))
      simpa using this
  have nw : ∀ i o, Did.watch i o ∈ s'.log ↔ Did.watch i o ∈ s.log := by
    intro i o; rw [e11, List.mem_append]
    exact ⟨fun h => h.elim id (fun h => (hx _ h).elim), Or.inl⟩
  have nu : ∀ i, Did.unwatch i ∈ s'.log ↔ Did.unwatch i ∈ s.log := by
    intro i; rw [e11, List.mem_append]
    exact ⟨fun h => h.elim id (fun h => (hx _ h).elim), Or.inl⟩
  have nf : ∀ i, Did.free i ∈ s'.log ↔ Did.free i ∈ s.log := by
    intro i; rw [e11, List.mem_append]
    exact ⟨fun h => h.elim id (fun h => (hx _ h).elim), Or.inl⟩
  constructor
  all_goals try simp only [e1, e2, e3, e4, e5, e6, e9, e10, hh, nw, nu, nf, (ed _).1, (ed _).2.1, (ed _).2.2.1, (ed _).2.2.2]
  · exact h.bound
  · exact h.watch
  · exact h.watched
  · exact h.nodup
  · exact h.dead
  · exact h.destroyNodup
  · exact h.held
  · exact h.holds
  · exact h.isOpen
  · exact h.devFd
  · exact h.devOpen
  · exact h.fdDev
  · exact h.fdFd
  · exact h.fileOne
  · exact h.gone
  · exact h.beyond
  · rw [e7]; exact h.timerThere
  · rw [e11]; exact hp x _ h.proper hx
  · exact h.logBound
  · exact h.logWatch
  · exact h.logUnwatch
  · exact h.logDead
  · exact h.logFree
  · exact h.logFreed

/-- A source is added and held. -/
theorem inv_hold {s s' : Ctx} {o : Owner} (h : Inv s) (ho : holder s o = none)
    (e1 : s'.heap = fun j => if j = s.fresh then some ⟨some s.files, o⟩ else s.heap j) (e2 : s'.fresh = s.fresh + 1)
    (e3 : s'.files = s.files + 1) (e4 : s'.opened = fun g => if g = s.files then true else s.opened g)
    (e5 : s'.epoll = s.epoll ++ [⟨s.files, s.fresh, o⟩]) (e6 : s'.destroy = s.destroy)
    (eh : ∀ o', holder s' o' = if o' = o then some s.fresh else holder s o')
    (ed : ∀ d, o ≠ .dev d → (s'.dev d).alive = (s.dev d).alive ∧ (s'.dev d).removed = (s.dev d).removed ∧
      (s'.dev d).fd = (s.dev d).fd)
    (eo : ∀ d, o = .dev d → (s'.dev d).fd = some s.files ∧ (s'.dev d).removed = false ∧ (s'.dev d).alive = true)
    (en : s.ndev ≤ s'.ndev ∧ ∀ d, o = .dev d → d < s'.ndev)
    (ec : s'.closed = s.closed) (el : s'.log = s.log ++ [.watch s.fresh o]) : Inv s' := by
  have hb : ∀ x, s.heap s.fresh ≠ some x := fun x hx => Nat.lt_irrefl _ (h.bound _ _ hx)
  have hf : ∀ i o', s.heap i ≠ some ⟨some s.files, o'⟩ := fun i o' hx => Nat.lt_irrefl _ (h.isOpen _ _ _ hx).2
  have hdf : ∀ d, (s.dev d).fd ≠ some s.files := fun d hx => Nat.lt_irrefl _ (h.devOpen _ _ hx).2
  have hw : ∀ i o', i = s.fresh → Did.watch i o' ∉ s.log := fun i o' hi hx => by
    have := h.logBound _ _ hx; omega
  have heap' : ∀ j x, s'.heap j = some x → (j = s.fresh ∧ x = ⟨some s.files, o⟩) ∨ (j ≠ s.fresh ∧ s.heap j = some x) := by
    intro j x hx; rw [e1] at hx; dsimp only at hx
    split at hx
    · rename_i hj; left; exact ⟨hj, by simpa using hx.symm⟩
    · rename_i hj; right; exact ⟨hj, hx⟩
  have back : ∀ j x, s.heap j = some x → s'.heap j = some x := by
    intro j x hx; rw [e1]; dsimp only
    rw [if_neg]; exact hx
    rintro rfl; exact hb _ hx
  have new : s'.heap s.fresh = some ⟨some s.files, o⟩ := by rw [e1]; simp
  have dfd : ∀ d f, (s'.dev d).fd = some f → (o = .dev d ∧ f = s.files) ∨ (o ≠ .dev d ∧ (s.dev d).fd = some f) := by
    intro d f hf
    by_cases hd : o = .dev d
    · left; rw [(eo d hd).1] at hf; exact ⟨hd, by simpa using hf.symm⟩
    · right; rw [(ed d hd).2.2] at hf; exact ⟨hd, hf⟩
  have mw : ∀ x, x ∈ s'.log ↔ x ∈ s.log ∨ x = .watch s.fresh o := by intro x; rw [el]; simp
  constructor
  · intro i x hx
    rcases heap' i x hx with ⟨rfl, _⟩ | ⟨_, hx⟩
    · rw [e2]; omega
    · have := h.bound _ _ hx; rw [e2]; omega
  · intro w hw'
    rw [e5, List.mem_append] at hw'
    rcases hw' with hw' | hw'
    · exact back _ _ (h.watch w hw')
    · simp at hw'; subst hw'; exact new
  · intro i f o' hx
    rw [e5, List.mem_append]
    rcases heap' _ _ hx with ⟨rfl, hy⟩ | ⟨_, hx⟩
    · cases hy; right; simp
    · left; exact h.watched _ _ _ hx
  · rw [e5, List.map_append]
    rw [List.nodup_append]
    refine ⟨h.nodup, by simp, ?_⟩
    intro a ha b hb'
    simp at hb' ha; subst hb'
    obtain ⟨w, hw1, hw2⟩ := ha
    rintro rfl
    exact hb _ (hw2 ▸ h.watch w hw1)
  · intro i; rw [e6, h.dead]
    constructor
    · rintro ⟨o', hx⟩; exact ⟨o', back _ _ hx⟩
    · rintro ⟨o', hx⟩
      rcases heap' _ _ hx with ⟨_, hx⟩ | ⟨_, hx⟩
      · simp at hx
      · exact ⟨o', hx⟩
  · rw [e6]; exact h.destroyNodup
  · intro i f o' hx
    rw [eh]
    rcases heap' _ _ hx with ⟨rfl, hy⟩ | ⟨_, hx⟩
    · cases hy; simp
    · have := h.held _ _ _ hx
      rw [if_neg]; exact this
      rintro rfl; rw [ho] at this; exact absurd this (by simp)
  · intro o' i hi
    rw [eh] at hi
    split at hi
    · rename_i he; subst he; simp at hi; subst hi; exact ⟨_, new⟩
    · obtain ⟨f, hx⟩ := h.holds _ _ hi; exact ⟨f, back _ _ hx⟩
  · intro i f o' hx
    rw [e4, e3]; dsimp only
    rcases heap' _ _ hx with ⟨rfl, hy⟩ | ⟨_, hx⟩
    · cases hy; simp
    · have := h.isOpen _ _ _ hx
      exact ⟨by split; rfl; exact this.1, by omega⟩
  · intro d i f hs hx
    by_cases hd : o = .dev d
    · have hs' : holder s' (.dev d) = some i := hs
      rw [eh, if_pos hd.symm] at hs'; simp at hs'; subst hs'
      rw [new] at hx; cases hx
      rw [(eo d hd).1]
    · have hs' : holder s' (.dev d) = some i := hs
      rw [eh, if_neg (fun e => hd e.symm)] at hs'
      rcases heap' _ _ hx with ⟨rfl, hy⟩ | ⟨_, hx⟩
      · simp at hy; exact absurd hy.2.symm hd
      · rw [(ed d hd).2.2]; exact h.devFd _ _ _ hs' hx
  · intro d f hfd
    rw [e4, e3]; dsimp only
    rcases dfd d f hfd with ⟨_, rfl⟩ | ⟨_, hfd⟩
    · simp
    · have := h.devOpen _ _ hfd
      exact ⟨by split; rfl; exact this.1, by omega⟩
  · intro d f i o' hfd hx
    rcases dfd d f hfd with ⟨hd, rfl⟩ | ⟨hd, hfd⟩
    · rcases heap' _ _ hx with ⟨_, hx⟩ | ⟨_, hx⟩
      · simp at hx; rw [hx, hd]
      · exact absurd hx (hf _ _)
    · rcases heap' _ _ hx with ⟨_, hx⟩ | ⟨_, hx⟩
      · simp at hx; exact absurd (hx.1 ▸ hfd) (hdf d)
      · exact h.fdDev _ _ _ _ hfd hx
  · intro d e f h1 h2
    rcases dfd d f h1 with ⟨hd, hf1⟩ | ⟨hd, h1⟩ <;> rcases dfd e f h2 with ⟨he, hf2⟩ | ⟨he, h2⟩
    · rw [hd] at he; simpa using he
    · subst hf1; exact absurd h2 (hdf e)
    · subst hf2; exact absurd h1 (hdf d)
    · exact h.fdFd _ _ _ h1 h2
  · intro i j f o1 o2 h1 h2
    rcases heap' _ _ h1 with ⟨hi, h1⟩ | ⟨hi, h1⟩ <;> rcases heap' _ _ h2 with ⟨hj, h2⟩ | ⟨hj, h2⟩
    · rw [hi, hj]
    · simp at h1; rw [h1.1] at h2; exact absurd h2 (hf _ _)
    · simp at h2; rw [h2.1] at h1; exact absurd h1 (hf _ _)
    · exact h.fileOne _ _ _ _ _ h1 h2
  · intro d hd
    by_cases hod : o = .dev d
    · rw [(eo d hod).2.1, (eo d hod).2.2] at hd; simp at hd
    · rw [(ed d hod).1, (ed d hod).2.1] at hd
      have h1 := h.gone d hd
      have : holder s' (.dev d) = holder s (.dev d) := by rw [eh, if_neg (fun e => hod e.symm)]
      refine ⟨?_, ?_⟩
      · show holder s' (.dev d) = none
        rw [this]; exact h1.1
      · rw [(ed d hod).2.2]; exact h1.2
  · intro d hd
    have : o ≠ .dev d := by
      intro e; have := en.2 d e; omega
    rw [(ed d this).1]; exact h.beyond d (by omega)
  · intro hc
    rw [ec] at hc
    have := h.timerThere hc
    intro ht
    have ht' : holder s' .timer = none := ht
    rw [eh] at ht'
    split at ht'
    · simp at ht'
    · exact this ht'
  · rw [el]
    apply proper_snoc h.proper
    intro o'; exact hw _ _ rfl
  · intro i o' hx
    rw [mw] at hx; rw [e2]
    rcases hx with hx | hx
    · have := h.logBound _ _ hx; omega
    · simp at hx; omega
  · intro i x hx
    rw [mw]
    rcases heap' _ _ hx with ⟨rfl, rfl⟩ | ⟨_, hx⟩
    · right; rfl
    · left; exact h.logWatch _ _ hx
  · intro i hx
    rw [mw] at hx; simp at hx
    have := h.logUnwatch i hx
    refine ⟨by rw [e2]; omega, ?_⟩
    intro f o' hx'
    rcases heap' _ _ hx' with ⟨hi, _⟩ | ⟨_, hx'⟩
    · omega
    · exact this.2 _ _ hx'
  · intro i o' hx
    rw [mw]; left
    rcases heap' _ _ hx with ⟨_, hx⟩ | ⟨_, hx⟩
    · simp at hx
    · exact h.logDead _ _ hx
  · intro i hx
    rw [mw] at hx; simp at hx
    have := h.logFree i hx
    refine ⟨by rw [e2]; omega, ?_⟩
    rw [e1]; dsimp only; rw [if_neg (by omega)]; exact this.2
  · intro i hi hx
    rw [mw]; left
    rw [e1] at hx; dsimp only at hx
    split at hx
    · simp at hx
    · exact h.logFreed i (by omega) hx

/-- A source is no longer watched and no longer held. -/
theorem inv_unhold {s s' : Ctx} {o : Owner} {i f : Nat} (h : Inv s) (hi : s.heap i = some ⟨some f, o⟩)
    (e1 : s'.heap = fun j => if j = i then some ⟨none, o⟩ else s.heap j) (e2 : s'.fresh = s.fresh)
    (e3 : s'.files = s.files) (e4 : ∀ g, g ≠ f → s'.opened g = s.opened g)
    (e4' : ∀ d, o = .dev d → s'.opened f = s.opened f)
    (e5 : s'.epoll = s.epoll.filter (fun w => w.file ≠ f)) (e6 : s'.destroy = i :: s.destroy)
    (eh : ∀ o', holder s' o' = if o' = o then none else holder s o')
    (ed : ∀ d, (s'.dev d).alive = (s.dev d).alive ∧ (s'.dev d).removed = (s.dev d).removed ∧ (s'.dev d).fd = (s.dev d).fd)
    (en : s'.ndev = s.ndev) (ec : s'.closed = false → s.closed = false ∧ o ≠ .timer)
    (el : s'.log = s.log ++ [.unwatch i]) : Inv s' := by
  have heap' : ∀ j x, s'.heap j = some x → (j = i ∧ x = ⟨none, o⟩) ∨ (j ≠ i ∧ s.heap j = some x) := by
    intro j x hx; rw [e1] at hx; dsimp only at hx
    split at hx
    · rename_i hj; left; exact ⟨hj, by simpa using hx.symm⟩
    · rename_i hj; right; exact ⟨hj, hx⟩
  have back : ∀ j x, j ≠ i → s.heap j = some x → s'.heap j = some x := by
    intro j x hj hx; rw [e1]; dsimp only
    rw [if_neg hj]; exact hx
  have new : s'.heap i = some ⟨none, o⟩ := by rw [e1]; simp
  have live : ∀ j g o', s'.heap j = some ⟨some g, o'⟩ → j ≠ i ∧ g ≠ f ∧ s.heap j = some ⟨some g, o'⟩ := by
    intro j g o' hx
    rcases heap' _ _ hx with ⟨_, hx⟩ | ⟨hj, hx⟩
    · simp at hx
    · refine ⟨hj, ?_, hx⟩
      rintro rfl; exact hj (h.fileOne _ _ _ _ _ hx hi)
  have mw : ∀ x, x ∈ s'.log ↔ x ∈ s.log ∨ x = .unwatch i := by intro x; rw [el]; simp
  have hio := h.held _ _ _ hi
  have dop : ∀ d g, (s.dev d).fd = some g → s'.opened g = s.opened g := by
    intro d g hg
    by_cases hgf : g = f
    · subst hgf
      exact e4' d (h.fdDev _ _ _ _ hg hi)
    · exact e4 g hgf
  constructor
  · intro j x hx
    rw [e2]
    rcases heap' j x hx with ⟨rfl, _⟩ | ⟨_, hx⟩
    · exact h.bound _ _ hi
    · exact h.bound _ _ hx
  · intro w hw
    rw [e5, List.mem_filter] at hw
    have := h.watch w hw.1
    refine back _ _ ?_ this
    intro hwi
    rw [hwi, hi] at this
    simp at this
    simp at hw
    exact hw.2 this.1.symm
  · intro j g o' hx
    obtain ⟨_, hg, hx⟩ := live _ _ _ hx
    rw [e5, List.mem_filter]
    exact ⟨h.watched _ _ _ hx, by simpa using hg⟩
  · rw [e5]
    exact (List.Sublist.map _ List.filter_sublist).nodup h.nodup
  · intro j; rw [e6, List.mem_cons, h.dead]
    constructor
    · rintro (rfl | ⟨o', hx⟩)
      · exact ⟨_, new⟩
      · refine ⟨o', back _ _ ?_ hx⟩
        rintro rfl; rw [hi] at hx; simp at hx
    · rintro ⟨o', hx⟩
      rcases heap' _ _ hx with ⟨hj, _⟩ | ⟨_, hx⟩
      · left; exact hj
      · right; exact ⟨o', hx⟩
  · rw [e6, List.nodup_cons]
    refine ⟨?_, h.destroyNodup⟩
    rw [h.dead]; rintro ⟨o', hx⟩; rw [hi] at hx; simp at hx
  · intro j g o' hx
    obtain ⟨hj, _, hx⟩ := live _ _ _ hx
    have := h.held _ _ _ hx
    rw [eh, if_neg]; exact this
    rintro rfl; rw [hio] at this; simp at this; exact hj this.symm
  · intro o' j hj
    rw [eh] at hj
    split at hj
    · simp at hj
    · rename_i ho
      obtain ⟨g, hx⟩ := h.holds _ _ hj
      refine ⟨g, back _ _ ?_ hx⟩
      rintro rfl; rw [hi] at hx; simp at hx; exact ho hx.2.symm
  · intro j g o' hx
    obtain ⟨_, hg, hx⟩ := live _ _ _ hx
    rw [e3, e4 g hg]; exact h.isOpen _ _ _ hx
  · intro d j g hs hx
    obtain ⟨_, _, hx⟩ := live _ _ _ hx
    have hs' : holder s' (.dev d) = some j := hs
    rw [eh] at hs'
    split at hs'
    · simp at hs'
    · rw [(ed d).2.2]; exact h.devFd _ _ _ hs' hx
  · intro d g hg
    rw [(ed d).2.2] at hg
    rw [e3, dop d g hg]; exact h.devOpen _ _ hg
  · intro d g j o' hg hx
    rw [(ed d).2.2] at hg
    obtain ⟨_, _, hx⟩ := live _ _ _ hx
    exact h.fdDev _ _ _ _ hg hx
  · intro d e g h1 h2
    rw [(ed _).2.2] at h1 h2
    exact h.fdFd _ _ _ h1 h2
  · intro j k g o1 o2 h1 h2
    obtain ⟨_, _, h1⟩ := live _ _ _ h1
    obtain ⟨_, _, h2⟩ := live _ _ _ h2
    exact h.fileOne _ _ _ _ _ h1 h2
  · intro d hd
    rw [(ed d).1, (ed d).2.1] at hd
    have h1 := h.gone d hd
    refine ⟨?_, by rw [(ed d).2.2]; exact h1.2⟩
    show holder s' (.dev d) = none
    rw [eh]; split
    · rfl
    · exact h1.1
  · intro d hd
    rw [(ed d).1]; exact h.beyond d (by omega)
  · intro hc
    obtain ⟨h1, h2⟩ := ec hc
    have := h.timerThere h1
    intro ht
    have ht' : holder s' .timer = none := ht
    rw [eh, if_neg (fun e => h2 e.symm)] at ht'
    exact this ht'
  · rw [el]
    apply proper_snoc h.proper
    refine ⟨⟨_, h.logWatch _ _ hi⟩, ?_, ?_⟩
    · intro hx; exact (h.logUnwatch _ hx).2 _ _ hi
    · intro hx; have := (h.logFree _ hx).2; rw [hi] at this; simp at this
  · intro j o' hx
    rw [mw] at hx; simp at hx; rw [e2]
    exact h.logBound _ _ hx
  · intro j x hx
    rw [mw]; left
    rcases heap' _ _ hx with ⟨rfl, rfl⟩ | ⟨_, hx⟩
    · have := h.logWatch _ _ hi; exact this
    · exact h.logWatch _ _ hx
  · intro j hx
    rw [mw] at hx; simp at hx; rw [e2]
    rcases hx with hx | rfl
    · have := h.logUnwatch j hx
      refine ⟨this.1, ?_⟩
      intro g o' hx'
      exact this.2 _ _ (live _ _ _ hx').2.2
    · refine ⟨h.bound _ _ hi, ?_⟩
      intro g o' hx'
      exact (live _ _ _ hx').1 rfl
  · intro j o' hx
    rw [mw]
    rcases heap' _ _ hx with ⟨rfl, _⟩ | ⟨_, hx⟩
    · right; rfl
    · left; exact h.logDead _ _ hx
  · intro j hx
    rw [mw] at hx; simp at hx; rw [e2]
    have := h.logFree j hx
    refine ⟨this.1, ?_⟩
    rw [e1]; dsimp only
    rw [if_neg]; exact this.2
    rintro rfl; rw [hi] at this; simp at this
  · intro j hj hx
    rw [mw]; left
    rw [e1] at hx; dsimp only at hx; rw [e2] at hj
    split at hx
    · simp at hx
    · exact h.logFreed j hj hx

/-- A file nobody watches is closed. -/
theorem inv_close {s s' : Ctx} {f : Nat} (d : Nat) (h : Inv s) (hf : (s.dev d).fd = some f) (hs : (s.dev d).source = none)
    (e1 : s'.heap = s.heap) (e2 : s'.fresh = s.fresh) (e3 : s'.files = s.files)
    (e4 : s'.opened = fun g => if g = f then false else s.opened g)
    (e5 : s'.epoll = s.epoll ∨ s'.epoll = s.epoll.filter (fun w => w.file ≠ f)) (e6 : s'.destroy = s.destroy)
    (e7 : s'.timer = s.timer) (e8 : s'.monitor = s.monitor) (e9 : s'.ndev = s.ndev) (e10 : s'.closed = s.closed)
    (e11 : s'.log = s.log)
    (ed : ∀ e, (s'.dev e).alive = (s.dev e).alive ∧ (s'.dev e).removed = (s.dev e).removed ∧
      (s'.dev e).source = (s.dev e).source ∧ (s'.dev e).fd = if e = d then none else (s.dev e).fd) : Inv s' := by
  have hh : ∀ o, holder s' o = holder s o := by
    intro o; cases o <;> simp [holder, e7, e8, (ed _).2.2.1]
  have nof : ∀ i o, s.heap i ≠ some ⟨some f, o⟩ := by
    intro i o hx
    have h1 := h.fdDev _ _ _ _ hf hx
    subst h1
    have h2 := h.held _ _ _ hx
    simp [holder, hs] at h2
  have nw : ∀ w ∈ s.epoll, w.file ≠ f := by
    intro w hw e
    have := h.watch w hw
    rw [e] at this; exact nof _ _ this
  have e5' : s'.epoll = s.epoll := by
    rcases e5 with e | e
    · exact e
    · rw [e, List.filter_eq_self]; intro w hw; simpa using nw w hw
  have hop : ∀ i g o, s.heap i = some ⟨some g, o⟩ → s'.opened g = s.opened g := by
    intro i g o hx; rw [e4]; dsimp only
    rw [if_neg]; rintro rfl; exact nof _ _ hx
  have fd' : ∀ e g, (s'.dev e).fd = some g → e ≠ d ∧ (s.dev e).fd = some g := by
    intro e g hg
    rw [(ed e).2.2.2] at hg
    split at hg
    · simp at hg
    · rename_i he; exact ⟨he, hg⟩
  constructor
  all_goals try simp only [e1, e2, e3, e5', e6, e9, e10, e11, hh, (ed _).1, (ed _).2.1, (ed _).2.2.1]
  · exact h.bound
  · exact h.watch
  · exact h.watched
  · exact h.nodup
  · exact h.dead
  · exact h.destroyNodup
  · exact h.held
  · exact h.holds
  · intro i g o hx; rw [hop _ _ _ hx]; exact h.isOpen _ _ _ hx
  · intro e i g hs' hx
    rw [(ed e).2.2.2, if_neg]
    · exact h.devFd _ _ _ hs' hx
    · rintro rfl; rw [hs] at hs'; simp at hs'
  · intro e g hg
    obtain ⟨he, hg⟩ := fd' _ _ hg
    rw [e4]; dsimp only
    rw [if_neg]
    · exact h.devOpen _ _ hg
    · rintro rfl; exact he (h.fdFd _ _ _ hg hf)
  · intro e g i o hg hx; exact h.fdDev _ _ _ _ (fd' _ _ hg).2 hx
  · intro e e' g h1 h2; exact h.fdFd _ _ _ (fd' _ _ h1).2 (fd' _ _ h2).2
  · exact h.fileOne
  · intro e he
    have := h.gone e he
    refine ⟨this.1, ?_⟩
    rw [(ed e).2.2.2]; split
    · rfl
    · exact this.2
  · exact h.beyond
  · rw [e7]; exact h.timerThere
  · exact h.proper
  · exact h.logBound
  · exact h.logWatch
  · exact h.logUnwatch
  · exact h.logDead
  · exact h.logFree
  · exact h.logFreed

theorem inv_init : Inv init := by
  have : init = { heap := fun i => if i = 0 then some ⟨some 0, .timer⟩ else none, fresh := 1, files := 1,
                  opened := fun f => if f = 0 then true else false, epoll := [⟨0, 0, .timer⟩], timer := some 0,
                  log := [.watch 0 .timer] } := rfl
  rw [this]
  constructor <;> dsimp only
  · intro i x hx; split at hx <;> simp_all
  · intro w hw; simp at hw; subst hw; rfl
  · intro i f o hx; split at hx <;> simp_all
  · simp
  · intro i; simp
  · simp
  · intro i f o hx; split at hx
    · simp at hx; obtain ⟨rfl, rfl⟩ := hx; simp_all [holder]
    · simp at hx
  · intro o i hx
    cases o <;> simp [holder] at hx
    subst hx; exact ⟨0, rfl⟩
  · intro i f o hx; split at hx
    · simp at hx; obtain ⟨rfl, rfl⟩ := hx; simp
    · simp at hx
  · intro d i f hx; simp at hx
  · intro d f hx; simp at hx
  · intro d f i o hx; simp at hx
  · intro d e f hx; simp at hx
  · intro i j f o o' h1 h2
    split at h1 <;> split at h2 <;> simp_all
  · intro d _; simp
  · intro d _; rfl
  · intro _; simp
  · exact proper_snoc (l := []) proper_nil (by intro o; simp)
  · intro i o hx; simp at hx; omega
  · intro i x hx; split at hx
    · simp at hx; subst hx; simp_all
    · simp at hx
  · intro i hx; simp at hx
  · intro i o hx; split at hx <;> simp_all
  · intro i hx; simp at hx
  · intro i hi hx; have : i = 0 := by omega
    subst this; simp at hx

end Libinput.Dispatch
