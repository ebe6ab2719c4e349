import Verif.Timer.Spec
/-
Timers fire exactly once per setting, never early, and the kernel timer is always set to the earliest expiry (C14).
-/
namespace Libinput.Timer
open Spec

/-- Every firing in the history was due. -/
def Good : List Log → Prop
  | [] => True
  | .fire id now :: t => (∃ e, armed t id = some e ∧ e ≤ now) ∧ Good t
  | _ :: t => Good t

theorem good_split {l : List Log} (h : Good l) (post pre : List Log) (id now : Nat) (e : l = post ++ .fire id now :: pre) :
    ∃ e, armed pre id = some e ∧ e ≤ now := by
  induction post generalizing l with
  | nil => subst e; exact h.1
  | cons a post ih =>
    subst e
    apply ih _ rfl
    cases a with
    | fire i n => exact h.2
    | set i e => exact h
    | cancel i => exact h

/-- The time of the kernel timer. -/
def fdOf (e : Nat) : Option (Nat × Nat) :=
  if e = UINT64_MAX then none else if e = 0 then none else some (e / 1000000, (e % 1000000) * 1000)

structure Inv (s : State) : Prop where
  nodup : s.list.Nodup
  mem : ∀ id, id ∈ s.list ↔ s.expire id ≠ 0
  bound : ∀ id, s.expire id < UINT64_MAX
  log : ∀ id, armed s.log id = if s.expire id = 0 then none else some (s.expire id)
  good : Good s.log
  fd : s.fd = fdOf (earliest s)
  next : s.next = earliest s ∨ s.next = 0 ∧ s.list = []

theorem init_inv : Inv init :=
  ⟨List.nodup_nil, fun id => by simp [init], fun id => by simp [init, UINT64_MAX], fun id => by simp [init, armed], trivial,
    by simp [init, earliest, fdOf], Or.inr ⟨rfl, rfl⟩⟩

theorem earliest_le {s : State} : ∀ (l : List Nat) (a : Nat),
    l.foldl (fun e id => if s.expire id < e then s.expire id else e) a ≤ a ∧
    (∀ id ∈ l, l.foldl (fun e id => if s.expire id < e then s.expire id else e) a ≤ s.expire id) ∧
    (l.foldl (fun e id => if s.expire id < e then s.expire id else e) a = a ∨
      ∃ id ∈ l, l.foldl (fun e id => if s.expire id < e then s.expire id else e) a = s.expire id) := by
  intro l
  induction l with
  | nil => intro a; simp
  | cons x l ih =>
    intro a
    simp only [List.foldl_cons]
    by_cases h : s.expire x < a
    · rw [if_pos h]
      obtain ⟨h1, h2, h3⟩ := ih (s.expire x)
      refine ⟨by omega, ?_, ?_⟩
      · intro id hid
        rcases List.mem_cons.mp hid with rfl | hid
        · exact h1
        · exact h2 id hid
      · rcases h3 with h3 | ⟨id, hid, h3⟩
        · exact Or.inr ⟨x, by simp, h3⟩
        · exact Or.inr ⟨id, by simp [hid], h3⟩
    · rw [if_neg h]
      obtain ⟨h1, h2, h3⟩ := ih a
      refine ⟨h1, ?_, ?_⟩
      · intro id hid
        rcases List.mem_cons.mp hid with rfl | hid
        · omega
        · exact h2 id hid
      · rcases h3 with h3 | ⟨id, hid, h3⟩
        · exact Or.inl h3
        · exact Or.inr ⟨id, by simp [hid], h3⟩

theorem fd_armFd (s : State) : (armFd s).fd = fdOf (earliest s) := by
  unfold armFd fdOf
  simp only
  generalize earliest s = e
  by_cases h : e = UINT64_MAX
  · simp [h]
  · rw [if_neg h]
    by_cases h0 : e = 0
    · subst h0; simp
    · simp only [ne_eq, h, not_false_eq_true, if_true, h0, if_false]
      rw [if_neg]
      simp only [Prod.mk.injEq, not_and]
      omega

theorem arm_inv {s : State} (nodup : s.list.Nodup) (mem : ∀ id, id ∈ s.list ↔ s.expire id ≠ 0) (bound : ∀ id, s.expire id < UINT64_MAX)
    (log : ∀ id, armed s.log id = if s.expire id = 0 then none else some (s.expire id)) (good : Good s.log) : Inv (armFd s) :=
  ⟨nodup, mem, bound, log, good, fd_armFd s, Or.inl rfl⟩

theorem set_ok {s : State} (I : Inv s) (id e : Nat) (h0 : 0 < e) (h1 : e < UINT64_MAX) : ∃ s', set s id e = .ok s' ∧ Inv s' ∧
    s'.log = .set id e :: s.log ∧ (∀ i, s'.expire i = if i = id then e else s.expire i) := by
  have logok : ∀ i, armed (.set id e :: s.log) i = if (if i = id then e else s.expire i) = 0 then none
      else some (if i = id then e else s.expire i) := by
    intro i
    unfold armed
    by_cases h : i = id
    · rw [if_pos h.symm]; simp only [if_pos h]; rw [if_neg (by omega)]
    · rw [if_neg (fun x => h x.symm)]; simp only [if_neg h]; exact I.log i
  unfold set
  rw [if_neg (by omega)]
  by_cases hz : s.expire id = 0
  · have hn : id ∉ s.list := by rw [I.mem]; simp [hz]
    rw [if_pos hz, if_neg hn]
    refine ⟨_, rfl, arm_inv ?_ ?_ ?_ logok I.good, rfl, fun i => rfl⟩
    · exact List.nodup_cons.mpr ⟨hn, I.nodup⟩
    · intro i
      simp only [List.mem_cons]
      by_cases h : i = id
      · simp only [if_pos h]; constructor
        · intro _; omega
        · intro _; exact Or.inl h
      · simp only [if_neg h, h, false_or]; exact I.mem i
    · intro i; simp only; split
      · exact h1
      · exact I.bound i
  · rw [if_neg hz]
    refine ⟨_, rfl, arm_inv I.nodup ?_ ?_ logok I.good, rfl, fun i => rfl⟩
    · intro i
      simp only
      by_cases h : i = id
      · simp only [if_pos h]; constructor
        · intro _; omega
        · intro _; rw [h, I.mem]; exact hz
      · simp only [if_neg h]; exact I.mem i
    · intro i; simp only; split
      · exact h1
      · exact I.bound i

/-- Cancelling, with the entry `e` for the history. -/
theorem cancelRaw_ok {s : State} (I : Inv s) (id : Nat) (e : Log) (he : ∀ i, armed (e :: s.log) i = if id = i then none else armed s.log i)
    (hg : Good (e :: s.log)) : ∃ s', cancelRaw { s with log := e :: s.log } id = .ok s' ∧ Inv s' ∧
    s'.log = e :: s.log ∧ (∀ i, s'.expire i = if i = id then 0 else s.expire i) := by
  unfold cancelRaw
  simp only
  by_cases hz : s.expire id = 0
  · rw [if_pos hz]
    refine ⟨_, rfl, ⟨I.nodup, I.mem, I.bound, ?_, hg, I.fd, I.next⟩, rfl, ?_⟩
    · intro i
      simp only
      rw [he i, I.log i]
      by_cases h : id = i
      · subst h; simp [hz]
      · rw [if_neg h]
    · intro i; by_cases h : i = id
      · rw [if_pos h, h]; exact hz
      · rw [if_neg h]
  · have hm : id ∈ s.list := by rw [I.mem]; exact hz
    rw [if_neg hz, if_pos hm]
    refine ⟨_, rfl, arm_inv ?_ ?_ ?_ ?_ hg, rfl, fun i => rfl⟩
    · exact I.nodup.erase id
    · intro i
      simp only
      rw [I.nodup.mem_erase_iff]
      by_cases h : i = id
      · simp [h]
      · simp only [if_neg h]; rw [I.mem]; simp [h]
    · intro i; simp only; split
      · simp [UINT64_MAX]
      · exact I.bound i
    · intro i
      simp only
      rw [he i, I.log i]
      by_cases h : id = i
      · rw [if_pos h]; simp [h]
      · rw [if_neg h]; simp only [if_neg (fun x : i = id => h x.symm)]

theorem act_ok {s : State} (I : Inv s) (a : Act) (h : Act.Valid a) : ∃ s', act s a = .ok s' ∧ Inv s' := by
  cases a with
  | set id e => obtain ⟨s', h1, h2, _⟩ := set_ok I id e h.1 h.2; exact ⟨s', h1, h2⟩
  | cancel id =>
    obtain ⟨s', h1, h2, _⟩ := cancelRaw_ok I id (.cancel id) (fun i => rfl) I.good
    exact ⟨s', h1, h2⟩

theorem acts_ok {s : State} (I : Inv s) (as : List Act) (h : ∀ a ∈ as, Act.Valid a) : ∃ s', acts s as = .ok s' ∧ Inv s' := by
  induction as generalizing s with
  | nil => exact ⟨s, rfl, I⟩
  | cons a as ih =>
    obtain ⟨s', h1, h2⟩ := act_ok I a (h a (by simp))
    simp only [acts, h1]
    exact ih h2 (fun b hb => h b (by simp [hb]))

theorem due_some {s : State} {now id : Nat} (h : due s now = some id) : id ∈ s.list ∧ s.expire id ≠ 0 ∧ s.expire id ≤ now := by
  unfold due at h
  have h1 := List.mem_of_find?_eq_some h
  have h2 := List.find?_some h
  simp only [ne_eq, decide_not, Bool.and_eq_true, Bool.not_eq_true', decide_eq_false_iff_not, decide_eq_true_eq] at h2
  exact ⟨h1, h2⟩

theorem due_none {s : State} (I : Inv s) {now : Nat} (h : due s now = none) (id : Nat) (hz : s.expire id ≠ 0) : now < s.expire id := by
  unfold due at h
  have := List.find?_eq_none.mp h id ((I.mem id).mpr hz)
  simp only [ne_eq, decide_not, Bool.and_eq_true, Bool.not_eq_true', decide_eq_false_iff_not, decide_eq_true_eq, not_and] at this
  have := this hz
  omega

/-- One round up to the callback. -/
theorem fire_ok {s : State} (I : Inv s) {id now : Nat} (h : due s now = some id) :
    ∃ s', cancelRaw { s with log := .fire id now :: s.log } id = .ok s' ∧ Inv s' ∧ s'.log = .fire id now :: s.log ∧
      (∀ i, s'.expire i = if i = id then 0 else s.expire i) := by
  obtain ⟨h1, h2, h3⟩ := due_some h
  apply cancelRaw_ok I id (.fire id now) (fun i => rfl)
  refine ⟨⟨s.expire id, ?_, h3⟩, I.good⟩
  rw [I.log id, if_neg h2]

theorem handler_inv {cb : Callbacks} (hcb : Valid cb) (now : Nat) (hnow : now < 2 ^ 63) : ∀ rounds (s : State), Inv s →
    (∃ s', handler cb now rounds s = .ok s' ∧ Inv s' ∧ due s' now = none) ∨ handler cb now rounds s = .error .rounds := by
  intro rounds
  induction rounds with
  | zero => intro s _; exact Or.inr rfl
  | succ rounds ih =>
    intro s I
    cases hd : due s now with
    | none => exact Or.inl ⟨s, by simp [handler, hd], I, hd⟩
    | some id =>
      obtain ⟨s1, h1, I1, _, _⟩ := fire_ok I hd
      obtain ⟨s2, h2, I2⟩ := acts_ok I1 (cb id now s1.log) (hcb id now s1.log hnow)
      have : handler cb now (rounds + 1) s = handler cb now rounds s2 := by
        simp only [handler, hd, h1, h2]
      rw [this]
      exact ih s2 I2

theorem step_inv {cb : Callbacks} (hcb : Valid cb) (rounds : Nat) {s : State} (I : Inv s) (op : Op) (hv : Op.Valid op) :
    (∃ s', step cb rounds s op = .ok s' ∧ Inv s') ∨ step cb rounds s op = .error .rounds := by
  cases op with
  | act a => exact Or.inl (act_ok I a hv)
  | flush now =>
    simp only [step, flush]
    split
    · exact Or.inl ⟨s, rfl, I⟩
    · rcases handler_inv hcb now hv rounds s I with ⟨s', h1, h2, _⟩ | h
      · exact Or.inl ⟨s', h1, h2⟩
      · exact Or.inr h
  | dispatch now =>
    simp only [step, dispatch]
    split
    · exact Or.inl ⟨s, rfl, I⟩
    · rcases handler_inv hcb now hv rounds s I with ⟨s', h1, h2, _⟩ | h
      · exact Or.inl ⟨s', h1, h2⟩
      · exact Or.inr h

theorem run_inv {cb : Callbacks} (hcb : Valid cb) (rounds : Nat) (ops : List Op) {s : State} (I : Inv s) (hv : ∀ op ∈ ops, Op.Valid op) :
    (∃ s', run cb rounds s ops = .ok s' ∧ Inv s') ∨ run cb rounds s ops = .error .rounds := by
  induction ops generalizing s with
  | nil => exact Or.inl ⟨s, rfl, I⟩
  | cons op ops ih =>
    rcases step_inv hcb rounds I op (hv op (by simp)) with ⟨s', h1, h2⟩ | h
    · simp only [run, h1]
      exact ih h2 (fun o ho => hv o (by simp [ho]))
    · exact Or.inr (by simp [run, h])

theorem run_ok_inv {cb : Callbacks} (hcb : Valid cb) {rounds : Nat} {ops : List Op} {s s' : State} (I : Inv s)
    (hv : ∀ op ∈ ops, Op.Valid op) (h : run cb rounds s ops = .ok s') : Inv s' := by
  rcases run_inv hcb rounds ops I hv with ⟨s'', h1, h2⟩ | h1
  · rw [h] at h1; cases h1; exact h2
  · rw [h] at h1; cases h1

/-- **C14, firing.**  Whatever the callbacks do, a timer fires only if it was set, not cancelled and not fired since, and its time
has come.  (So it fires at most once per setting, never early and never after being cancelled.) -/
theorem timer_fires_only_when_due (cb : Callbacks) (hcb : Valid cb) (rounds : Nat) (ops : List Op) (hv : ∀ op ∈ ops, Op.Valid op)
    (s : State) (h : run cb rounds init ops = .ok s) (post pre : List Log) (id now : Nat) (hl : s.log = post ++ .fire id now :: pre) :
    ∃ e, armed pre id = some e ∧ e ≤ now :=
  good_split (run_ok_inv hcb init_inv hv h).good post pre id now hl

/-- **C14, wakeup.**  At any time the kernel timer is set to exactly the earliest expiry (in seconds and nanoseconds), and is off
if no timer is set. -/
theorem kernel_timer_is_earliest (cb : Callbacks) (hcb : Valid cb) (rounds : Nat) (ops : List Op) (hv : ∀ op ∈ ops, Op.Valid op)
    (s : State) (h : run cb rounds init ops = .ok s) :
    match s.fd with
    | none => ∀ id, armed s.log id = none
    | some (sec, nsec) => nsec < 1000000000 ∧ ∃ e, sec * 1000000000 + nsec = e * 1000 ∧ (∃ id, armed s.log id = some e) ∧
        ∀ id e', armed s.log id = some e' → e ≤ e' := by
  have I := run_ok_inv hcb init_inv hv h
  have hle := @earliest_le s s.list UINT64_MAX
  change earliest s ≤ _ ∧ (∀ id ∈ s.list, earliest s ≤ _) ∧ (earliest s = _ ∨ ∃ id ∈ s.list, earliest s = _) at hle
  obtain ⟨_, h2, h3⟩ := hle
  have none_of : earliest s = UINT64_MAX → ∀ id, armed s.log id = none := by
    intro hm id
    rw [I.log id]
    by_cases hz : s.expire id = 0
    · rw [if_pos hz]
    · have := h2 id ((I.mem id).mpr hz)
      have := I.bound id
      omega
  have hfd := I.fd
  unfold fdOf at hfd
  by_cases hm : earliest s = UINT64_MAX
  · rw [if_pos hm] at hfd; rw [hfd]; exact none_of hm
  · rcases h3 with h3 | ⟨id, hid, h3⟩
    · exact absurd h3 hm
    have hz := (I.mem id).mp hid
    rw [if_neg hm, if_neg (by omega)] at hfd
    rw [hfd]
    refine ⟨by omega, earliest s, by omega, ⟨id, ?_⟩, ?_⟩
    · rw [I.log id, if_neg hz, h3]
    · intro i e' he
      rw [I.log i] at he
      by_cases hi : s.expire i = 0
      · rw [if_pos hi] at he; cases he
      · rw [if_neg hi] at he; cases he
        exact h2 i ((I.mem i).mpr hi)

/-- **C14, nothing left over.**  When a flush up to `now` or a wakeup at `now` is done, no timer with a time up to `now` is left:
each has fired, or was cancelled or set again by a callback. -/
theorem nothing_due_after_flush (cb : Callbacks) (hcb : Valid cb) (rounds : Nat) (ops : List Op) (hv : ∀ op ∈ ops, Op.Valid op)
    (s s' : State) (h : run cb rounds init ops = .ok s) (now : Nat) (hnow : 0 < now) (hnow2 : now < 2 ^ 63)
    (h' : step cb rounds s (.flush now) = .ok s' ∨ step cb rounds s (.dispatch now) = .ok s') (id e : Nat)
    (he : armed s'.log id = some e) : now < e := by
  have I := run_ok_inv hcb init_inv hv h
  have fin : Inv s' ∧ due s' now = none → now < e := by
    rintro ⟨I', hd⟩
    rw [I'.log id] at he
    by_cases hz : s'.expire id = 0
    · rw [if_pos hz] at he; cases he
    · rw [if_neg hz] at he; cases he; exact due_none I' hd id hz
  have hnd : ∀ s', handler cb now rounds s = .ok s' → Inv s' ∧ due s' now = none := by
    intro s' hs
    rcases handler_inv hcb now hnow2 rounds s I with ⟨s'', h1, h2⟩ | h1
    · rw [hs] at h1; cases h1; exact h2
    · rw [hs] at h1; cases h1
  rcases h' with h' | h'
  · simp only [step, flush] at h'
    split at h'
    · rename_i hc
      cases h'
      rw [I.log id] at he
      by_cases hz : s.expire id = 0
      · rw [if_pos hz] at he; cases he
      · rw [if_neg hz] at he; cases he
        have hm := (I.mem id).mpr hz
        have hle := (@earliest_le s s.list UINT64_MAX).2.1 id hm
        change earliest s ≤ _ at hle
        rcases I.next with hn | ⟨_, hn⟩
        · rcases hc with hc | hc
          · -- the earliest expiry is not zero
            have h3 := (@earliest_le s s.list UINT64_MAX).2.2
            change earliest s = _ ∨ ∃ id ∈ s.list, earliest s = _ at h3
            rcases h3 with h3 | ⟨i, hi, h3⟩
            · rw [hn, h3] at hc; simp [UINT64_MAX] at hc
            · exact absurd (by omega) ((I.mem i).mp hi)
          · omega
        · rw [hn] at hm; simp at hm
    · exact fin (hnd s' h')
  · simp only [step, dispatch] at h'
    rw [if_neg (by omega)] at h'
    exact fin (hnd s' h')

/-- **C14, no abort.**  The list assertions cannot fail: with valid expiries, timers can be set and cancelled in any order, also
from callbacks. -/
theorem timers_never_abort (cb : Callbacks) (hcb : Valid cb) (rounds : Nat) (ops : List Op) (hv : ∀ op ∈ ops, Op.Valid op) :
    run cb rounds init ops ≠ .error .abort := by
  intro h
  rcases run_inv hcb rounds ops init_inv hv with ⟨s, h1, _⟩ | h1 <;> rw [h] at h1 <;> cases h1

/-! ### Termination -/

/-- The number of timers due. -/
def dueCount (s : State) (now : Nat) : Nat := (s.list.filter (fun id => s.expire id ≤ now)).length

theorem filter_length_mono {α : Type} (p q : α → Bool) (l : List α) (h : ∀ x ∈ l, p x = true → q x = true) :
    (l.filter p).length ≤ (l.filter q).length := by
  induction l with
  | nil => simp
  | cons a l ih =>
    have := ih (fun x hx => h x (by simp [hx]))
    simp only [List.filter_cons]
    split
    · rename_i hp
      rw [if_pos (h a (by simp) hp)]
      simp only [List.length_cons]; omega
    · split
      · simp only [List.length_cons]; omega
      · exact this

theorem count_set {s s' : State} {id e now : Nat} (I : Inv s) (he : now < e) (h0 : 0 < e) (h : set s id e = .ok s') :
    dueCount s' now ≤ dueCount s now := by
  unfold set at h
  rw [if_neg (by omega)] at h
  have key : ∀ x, decide ((if x = id then e else s.expire x) ≤ now) = true → decide (s.expire x ≤ now) = true := by
    intro x hx
    by_cases hxi : x = id
    · rw [if_pos hxi] at hx; simp only [decide_eq_true_eq] at hx; omega
    · rw [if_neg hxi] at hx; exact hx
  by_cases hz : s.expire id = 0
  · rw [if_pos hz] at h
    split at h
    · cases h
    · cases h
      unfold dueCount
      show (List.filter _ (id :: s.list)).length ≤ _
      rw [List.filter_cons_of_neg (by simp [armFd]; omega)]
      exact filter_length_mono _ _ _ (fun x _ hx => key x hx)
  · rw [if_neg hz] at h
    cases h
    exact filter_length_mono _ _ _ (fun x _ hx => key x hx)

theorem count_cancel {s s' : State} {id now : Nat} {e : Log} (I : Inv s) (h : cancelRaw { s with log := e :: s.log } id = .ok s') :
    dueCount s' now ≤ dueCount s now ∧ (s.expire id ≠ 0 → s.expire id ≤ now → dueCount s' now < dueCount s now) := by
  unfold cancelRaw at h
  simp only at h
  by_cases hz : s.expire id = 0
  · rw [if_pos hz] at h; cases h
    exact ⟨Nat.le_refl _, fun h => absurd hz h⟩
  · rw [if_neg hz] at h
    have hm := (I.mem id).mpr hz
    rw [if_pos hm] at h
    cases h
    have e1 : dueCount (armFd { s with expire := fun i => if i = id then 0 else s.expire i, list := s.list.erase id, log := e :: s.log }) now =
        ((s.list.erase id).filter (fun i => decide (s.expire i ≤ now))).length := by
      unfold dueCount armFd
      simp only
      congr 1
      apply List.filter_congr
      intro x hx
      have : x ≠ id := (I.nodup.mem_erase_iff.mp hx).1
      show decide ((if x = id then 0 else s.expire x) ≤ now) = _
      rw [if_neg this]
    rw [e1]
    obtain ⟨l1, l2, _, h2, h3⟩ := List.exists_erase_eq hm
    have e2 : dueCount s now = (s.list.filter (fun i => decide (s.expire i ≤ now))).length := rfl
    rw [e2, h3, h2]
    simp only [List.filter_append, List.length_append]
    refine ⟨?_, ?_⟩
    · simp only [List.filter_cons]; split
      · simp only [List.length_cons]; omega
      · omega
    · intro _ hle
      rw [List.filter_cons_of_pos (by simp [hle])]
      simp only [List.length_cons]; omega

theorem count_acts {s s' : State} {now : Nat} (I : Inv s) (as : List Act) (hv : ∀ a ∈ as, Act.Valid a)
    (hf : ∀ i e, Act.set i e ∈ as → now < e) (h : acts s as = .ok s') : dueCount s' now ≤ dueCount s now := by
  induction as generalizing s with
  | nil => cases h; exact Nat.le_refl _
  | cons a as ih =>
    simp only [acts] at h
    obtain ⟨s1, h1, I1⟩ := act_ok I a (hv a (by simp))
    rw [h1] at h
    have := ih I1 (fun b hb => hv b (by simp [hb])) (fun i e he => hf i e (by simp [he])) h
    have h3 : dueCount s1 now ≤ dueCount s now := by
      cases a with
      | set i e =>
        exact count_set I (hf i e (by simp)) (hv (.set i e) (by simp)).1 h1
      | cancel i => exact (count_cancel I h1).1
    omega

theorem handler_terminates {cb : Callbacks} (hcb : Valid cb) (hf : Future cb) (now : Nat) (hnow : now < 2 ^ 63) : ∀ rounds (s : State), Inv s →
    dueCount s now < rounds → ∃ s', handler cb now rounds s = .ok s' := by
  intro rounds
  induction rounds with
  | zero => intro s _ h; omega
  | succ rounds ih =>
    intro s I hlt
    cases hd : due s now with
    | none => exact ⟨s, by simp [handler, hd]⟩
    | some id =>
      obtain ⟨s1, h1, I1, _, _⟩ := fire_ok I hd
      obtain ⟨s2, h2, I2⟩ := acts_ok I1 (cb id now s1.log) (hcb id now s1.log hnow)
      have : handler cb now (rounds + 1) s = handler cb now rounds s2 := by
        simp only [handler, hd, h1, h2]
      rw [this]
      apply ih s2 I2
      have c1 := (count_cancel I h1).2 (due_some hd).2.1 (due_some hd).2.2
      have c2 := count_acts I1 _ (hcb id now s1.log hnow) (fun i e he => hf id now s1.log i e he) h2
      omega

/-- **C14, progress.**  If callbacks only set timers for later times, a flush or wakeup comes to its end: it takes no more rounds
than there are timers that are due, plus one. -/
theorem flush_terminates (cb : Callbacks) (hcb : Valid cb) (hf : Future cb) (rounds : Nat) (ops : List Op) (hv : ∀ op ∈ ops, Op.Valid op)
    (s : State) (h : run cb rounds init ops = .ok s) (now : Nat) (hnow : now < 2 ^ 63) :
    (∃ s', step cb (s.list.length + 1) s (.flush now) = .ok s') ∧ (∃ s', step cb (s.list.length + 1) s (.dispatch now) = .ok s') := by
  have I := run_ok_inv hcb init_inv hv h
  have hlt : dueCount s now < s.list.length + 1 := by
    have := List.length_filter_le (fun id => decide (s.expire id ≤ now)) s.list
    unfold dueCount; omega
  have ht := handler_terminates hcb hf now hnow _ s I hlt
  simp only [step, flush, dispatch]
  constructor
  · split
    · exact ⟨s, rfl⟩
    · exact ht
  · split
    · exact ⟨s, rfl⟩
    · exact ht

/-- The number of list entries is the number of timers set, so the bound above is about timers. -/
theorem list_is_armed (cb : Callbacks) (hcb : Valid cb) (rounds : Nat) (ops : List Op) (hv : ∀ op ∈ ops, Op.Valid op)
    (s : State) (h : run cb rounds init ops = .ok s) : s.list.Nodup ∧ ∀ id, id ∈ s.list ↔ (armed s.log id).isSome = true := by
  have I := run_ok_inv hcb init_inv hv h
  refine ⟨I.nodup, ?_⟩
  intro id
  rw [I.mem, I.log]
  by_cases hz : s.expire id = 0 <;> simp [hz]

/-- A callback that sets its own timer to a time that is not later is called for ever: no number of rounds is enough. -/
theorem rearming_never_ends : ∀ rounds, run (fun id now _ => [.set id now]) rounds init [.act (.set 0 5), .flush 7] = .error .rounds := by
  let cb : Callbacks := fun id now _ => [.set id now]
  have hcb : ∀ (h : List Log), ∀ a ∈ cb 0 7 h, Act.Valid a := by
    intro h a ha
    simp only [cb, List.mem_singleton] at ha
    subst ha
    exact ⟨by decide, by decide⟩
  have key : ∀ rounds (s : State), Inv s → s.list = [0] → 0 < s.expire 0 → s.expire 0 ≤ 7 → handler cb 7 rounds s = .error .rounds := by
    intro rounds
    induction rounds with
    | zero => intros; rfl
    | succ rounds ih =>
      intro s I hl h0 h7
      have hd : due s 7 = some 0 := by
        unfold due; rw [hl]; simp only [List.find?_cons]
        simp only [ne_eq, decide_not, h7, decide_true, Bool.and_true]
        rw [show (decide (s.expire 0 = 0)) = false by simp; omega]
        rfl
      obtain ⟨s1, h1, I1, l1, e1⟩ := fire_ok I hd
      obtain ⟨s2, h2, I2, l2, e2⟩ := set_ok I1 0 7 (by decide) (by decide)
      have : handler cb 7 (rounds + 1) s = handler cb 7 rounds s2 := by
        simp only [handler, hd, h1]
        have : acts s1 (cb 0 7 s1.log) = .ok s2 := by
          simp only [cb, acts, act, h2]
        rw [this]
      rw [this]
      have hx : ∀ i, s2.expire i = if i = 0 then 7 else 0 := by
        intro i
        rw [e2 i, e1 i]
        by_cases hi : i = 0
        · simp [hi]
        · simp only [if_neg hi]
          have : i ∉ s.list := by rw [hl]; simp [hi]
          rw [I.mem] at this
          simpa using this
      apply ih s2 I2
      · have m : ∀ i, i ∈ s2.list ↔ i = 0 := by
          intro i; rw [I2.mem, hx i]; by_cases hi : i = 0 <;> simp [hi]
        have nd := I2.nodup
        cases hl2 : s2.list with
        | nil => have := (m 0).mpr rfl; rw [hl2] at this; simp at this
        | cons a t =>
          rw [hl2] at m nd
          have ha := (m a).mp (by simp)
          cases t with
          | nil => rw [ha]
          | cons b t =>
            have hb := (m b).mp (by simp)
            simp [ha, hb] at nd
      · rw [hx 0]; decide
      · rw [hx 0]; decide
  intro rounds
  obtain ⟨s1, h1, I1, l1, e1⟩ := set_ok init_inv 0 5 (by decide) (by decide)
  simp only [run, step, act, h1, flush]
  have hs : s1.list = [0] ∧ s1.next = 5 ∧ s1.expire 0 = 5 := by
    have : s1 = armFd { init with list := [0], expire := fun i => if i = 0 then 5 else 0, log := [.set 0 5] } := by
      have h1' := h1
      unfold set at h1'
      simp only [init, if_true] at h1'
      simp at h1'
      rw [← h1']; rfl
    rw [this]; decide
  rw [if_neg (by rw [hs.2.1]; decide)]
  have := key rounds s1 I1 hs.1 (by rw [hs.2.2]; decide) (by rw [hs.2.2]; decide)
  simp only [cb] at this
  rw [this]

/-- A sample set of callbacks: timer 1 cancels timer 2, timer 3 sets itself again for later. -/
def sample : Callbacks := fun id now _ => if id = 1 then [.cancel 2] else if id = 3 then [.set 3 (now + 100)] else []

/-- Non-vacuity: three timers are due at 50; timer 1 is first in the list and cancels timer 2. -/
example : (run sample 10 init [.act (.set 2 40), .act (.set 3 30), .act (.set 1 20), .flush 10, .flush 50]).toOption.map (·.log) =
    some [.set 3 150, .fire 3 50, .cancel 2, .fire 1 50, .set 1 20, .set 3 30, .set 2 40] := by decide
example : (run sample 10 init [.act (.set 2 40), .act (.set 3 30), .act (.set 1 20)]).toOption.map (·.fd) =
    some (some (0, 20000)) := by decide
example : Future sample := by
  intro id now h i e he
  unfold sample at he
  split at he
  · simp at he
  · split at he
    · simp only [List.mem_singleton, Act.set.injEq] at he; omega
    · simp at he
example : Valid sample := by
  intro id now h hn a ha
  unfold sample at ha
  split at ha
  · simp only [List.mem_singleton] at ha; subst ha; trivial
  · split at ha
    · simp only [List.mem_singleton] at ha; subst ha
      exact ⟨by omega, by unfold UINT64_MAX; omega⟩
    · simp at ha

end Libinput.Timer
