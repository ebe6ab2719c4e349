import Verif.Switch.Spec
set_option linter.unusedSimpArgs false
namespace Libinput.Switch
open Libinput.Spec Libinput.Alt Libinput.Switch.Spec

/-! ## Property theorems: switches (C19) -/

/-- The state the caller knows of. -/
def known (d : Dev) : Sw → Bool
  | .lid => d.client
  | .tabletMode => d.tablet ≠ 0

/-- Kernel values of switches are 0 and 1. -/
def Bits (ops : List Op) : Prop := ∀ t v, .tablet t v ∈ ops → v = 0 ∨ v = 1

theorem toggles_append (a b : List Out) : toggles (a ++ b) = toggles a ++ toggles b := by
  simp [toggles]

/-- One step sends a well-formed stream. -/
def Sends (d d' : Dev) (os : List Out) : Prop :=
  Valid (known d) (toggles os) ∧ Alt.after (known d) (toggles os) = known d'

theorem sends_trans {d d' d'' : Dev} {a b : List Out} (h : Sends d d' a) (h' : Sends d' d'' b) :
    Sends d d'' (a ++ b) := by
  obtain ⟨h1, h2⟩ := h
  obtain ⟨h3, h4⟩ := h'
  refine ⟨?_, ?_⟩
  · rw [toggles_append, valid_append]; exact ⟨h1, by rw [h2]; exact h3⟩
  · rw [toggles_append, after_append, h2, h4]

theorem sends_refl {d d' : Dev} {os : List Out} (ho : toggles os = []) (hk : known d = known d') : Sends d d' os := by
  refine ⟨?_, ?_⟩ <;> rw [ho]
  · trivial
  · exact hk

theorem lidNotify_sends (d : Dev) (t : Nat) (c : Bool) :
    Sends d (lidNotify { d with isClosed := c } t).1 (lidNotify { d with isClosed := c } t).2 := by
  unfold lidNotify
  cases hc : c <;> cases hd : d.client <;>
    simp only [hd, Bool.xor_false, Bool.xor_true, Bool.not_true, Bool.not_false, if_true, if_false, Bool.false_eq_true]
  · exact sends_refl rfl (by funext s; cases s <;> simp [known, hd])
  · refine ⟨⟨by simp [known, hd], trivial⟩, ?_⟩
    funext s; cases s <;> simp [Alt.after, toggles, known, hd]
  · refine ⟨⟨by simp [known, hd], trivial⟩, ?_⟩
    funext s; cases s <;> simp [Alt.after, toggles, known, hd]
  · exact sends_refl rfl (by funext s; cases s <;> simp [known, hd])

theorem lidNotify_tablet (d : Dev) (t : Nat) : (lidNotify d t).1.tablet = d.tablet := by
  unfold lidNotify; split <;> rfl

theorem lidEvent_sends (d : Dev) (t : Nat) (v : Int) : Sends d (lidEvent d t v).1 (lidEvent d t v).2 := by
  unfold lidEvent
  simp only
  split
  · exact sends_refl rfl (by funext s; cases s <;> rfl)
  · have := lidNotify_sends (toggleListeners d (v != 0)) t (v != 0)
    have hk : known (toggleListeners d (v != 0)) = known d := by funext s; cases s <;> rfl
    unfold Sends at this ⊢
    rw [hk] at this
    exact this

theorem lidEvent_tablet (d : Dev) (t : Nat) (v : Int) : (lidEvent d t v).1.tablet = d.tablet := by
  unfold lidEvent
  simp only
  split
  · rfl
  · rw [lidNotify_tablet]; rfl

theorem lidKeyboard_sends (d : Dev) (t : Nat) (k : Bool) : Sends d (lidKeyboardEvent d t k).1 (lidKeyboardEvent d t k).2 := by
  unfold lidKeyboardEvent
  split
  · exact sends_refl rfl rfl
  · split
    · exact sends_refl rfl rfl
    · have h : Sends d d (if d.reliability = .writeOpen then [Out.writeOpen] else []) :=
        sends_refl (by split <;> rfl) rfl
      exact sends_trans h (lidNotify_sends d t false)

theorem lidKeyboard_tablet (d : Dev) (t : Nat) (k : Bool) : (lidKeyboardEvent d t k).1.tablet = d.tablet := by
  unfold lidKeyboardEvent
  split
  · rfl
  · split
    · rfl
    · simp only [lidNotify_tablet]

theorem call_sends (t id : Nat) (k : Bool) (ks : List Kbd) (d : Dev) :
    Sends d (callListeners t id k ks d).1 (callListeners t id k ks d).2 ∧
    (callListeners t id k ks d).1.tablet = d.tablet := by
  induction ks generalizing d with
  | nil => exact ⟨sends_refl rfl rfl, rfl⟩
  | cons kb ks ih =>
    unfold callListeners
    split
    · refine ⟨sends_trans (lidKeyboard_sends d t k) (ih _).1, ?_⟩
      simp only
      rw [(ih _).2, lidKeyboard_tablet]
    · exact ih d

theorem step_sends (d : Dev) (op : Op) (hd : d.tablet = 0 ∨ d.tablet = 1) (hb : Bits [op]) :
    Sends d (step d op).1 (step d op).2 ∧ ((step d op).1.tablet = 0 ∨ (step d op).1.tablet = 1) := by
  cases op with
  | lid t v => exact ⟨lidEvent_sends d t v, by simp only [step, lidEvent_tablet]; exact hd⟩
  | tablet t v =>
    have hv := hb t v (by simp)
    simp only [step, tabletEvent]
    split
    · exact ⟨sends_refl rfl rfl, hd⟩
    · rename_i hne
      refine ⟨⟨⟨?_, trivial⟩, ?_⟩, hv⟩
      · rcases hd with h | h <;> rcases hv with h' | h' <;> simp [known, h, h'] <;> simp_all
      · funext s; cases s <;> simp [Alt.after, toggles, known, bne, BEq.beq, decide_not]
  | kbd t id k =>
    have h := call_sends t id k d.kbds d
    refine ⟨?_, by simp only [step, kbdEvent, h.2]; exact hd⟩
    exact sends_trans h.1 (sends_refl rfl rfl)
  | addKbd id =>
    simp only [step, pair]
    split
    · exact ⟨sends_refl rfl (by funext s; cases s <;> rfl), hd⟩
    · exact ⟨sends_refl rfl rfl, hd⟩
  | removeKbd id => exact ⟨sends_refl rfl (by funext s; cases s <;> rfl), hd⟩

theorem run_sends (ops : List Op) (d : Dev) (hd : d.tablet = 0 ∨ d.tablet = 1) (hb : Bits ops) :
    Sends d (run d ops).1 (run d ops).2 ∧ ((run d ops).1.tablet = 0 ∨ (run d ops).1.tablet = 1) := by
  induction ops generalizing d with
  | nil => exact ⟨sends_refl rfl rfl, hd⟩
  | cons op ops ih =>
    have h1 := step_sends d op hd (by intro t v h; simp at h; exact hb t v (by simp [h]))
    have h2 := ih (step d op).1 h1.2 (fun t v h => hb t v (by simp [h]))
    exact ⟨sends_trans h1.1 h2.1, h2.2⟩

/-! ### The invariant tying the device to the world -/

structure Inv (d : Dev) (w : World) : Prop where
  lid : (d.isClosed, d.client) = match w.lid with
    | .open => (false, false)
    | .closed => (true, true)
    | .doubted => (true, false)
  paired : ∀ k, d.kbds.any (fun x => x.id == k) = w.paired k
  wakes : ∀ k, d.kbds.any (fun x => x.id == k && x.listening) = w.wakes k
  tablet : decide (d.tablet ≠ 0) = w.tablet
  has : d.hasLid = true

theorem inv_lid {d : Dev} {w : World} (h : Inv d w) (t : Nat) (v : Int) : Inv (lidEvent d t v).1 (next w (.lid t v)) := by
  have hpair : ∀ b k, (d.kbds.map fun k => { k with listening := b }).any (fun x => x.id == k) = w.paired k := by
    intro b k; rw [← h.paired k, List.any_map]; rfl
  have hon : ∀ k, (d.kbds.map fun k => { k with listening := true }).any (fun x => x.id == k && x.listening) = w.paired k := by
    intro k; rw [← h.paired k, List.any_map]; simp [Function.comp_def]
  have hoff : ∀ k, (d.kbds.map fun k => { k with listening := false }).any (fun x => x.id == k && x.listening) = false := by
    intro k; rw [List.any_map]; simp [Function.comp_def]
  have hl := h.lid
  by_cases hv : v = 0
  · subst hv
    simp only [lidEvent, toggleListeners, next, if_true, bne_self_eq_false]
    cases hw : w.lid <;> rw [hw] at hl <;> simp only [Prod.mk.injEq] at hl <;> obtain ⟨h1, h2⟩ := hl <;>
      simp [lidNotify, h1, h2] <;>
      exact ⟨by simp [h1, h2], hpair _, hoff, h.tablet, h.has⟩
  · have hv' : (v != 0) = true := by simp [hv]
    simp only [lidEvent, toggleListeners, next, hv, if_false, hv']
    cases hw : w.lid <;> rw [hw] at hl <;> simp only [Prod.mk.injEq] at hl <;> obtain ⟨h1, h2⟩ := hl <;>
      simp [lidNotify, h1, h2] <;>
      exact ⟨by simp [h1, h2], hpair _, hon, h.tablet, h.has⟩

theorem open_silent {d : Dev} (h : d.isClosed = false) (t : Nat) (k : Bool) : lidKeyboardEvent d t k = (d, []) := by
  simp [lidKeyboardEvent, h]

theorem call_open {d : Dev} (h : d.isClosed = false) (t id : Nat) (k : Bool) (ks : List Kbd) :
    callListeners t id k ks d = (d, []) := by
  induction ks with
  | nil => rfl
  | cons kb ks ih =>
    unfold callListeners
    split
    · simp [open_silent h, ih]
    · exact ih

theorem call_notKey (d : Dev) (t id : Nat) (ks : List Kbd) : callListeners t id false ks d = (d, []) := by
  induction ks with
  | nil => rfl
  | cons kb ks ih =>
    unfold callListeners
    have : lidKeyboardEvent d t false = (d, []) := by unfold lidKeyboardEvent; split <;> simp
    split
    · simp [this, ih]
    · exact ih

theorem call_asleep (d : Dev) (t id : Nat) (k : Bool) (ks : List Kbd)
    (h : ks.any (fun x => x.id == id && x.listening) = false) : callListeners t id k ks d = (d, []) := by
  induction ks with
  | nil => rfl
  | cons kb ks ih =>
    simp only [List.any_cons, Bool.or_eq_false_iff] at h
    unfold callListeners
    rw [if_neg]
    · exact ih h.2
    · intro ⟨h1, h2⟩; simp [h1, h2] at h

theorem lidNotify_open (d : Dev) (t : Nat) : (lidNotify { d with isClosed := false } t).1 =
    { d with isClosed := false, client := false } := by
  unfold lidNotify
  cases hc : d.client <;> simp [hc]

theorem call_awake (d : Dev) (t id : Nat) (ks : List Kbd) (hcl : d.isClosed = true)
    (h : ks.any (fun x => x.id == id && x.listening) = true) :
    callListeners t id true ks d =
      ({ d with isClosed := false, client := false },
        (if d.reliability = .writeOpen then [.writeOpen] else []) ++
          (if d.client = true then [.toggle t .lid false] else [])) := by
  induction ks with
  | nil => simp at h
  | cons kb ks ih =>
    unfold callListeners
    by_cases hk : kb.id = id ∧ kb.listening = true
    · rw [if_pos hk]
      have he : lidKeyboardEvent d t true = ({ d with isClosed := false, client := false },
        (if d.reliability = .writeOpen then [.writeOpen] else []) ++
          (if d.client = true then [.toggle t .lid false] else [])) := by
        unfold lidKeyboardEvent
        simp only [hcl, Bool.not_true, Bool.false_eq_true, if_false]
        rw [lidNotify_open]
        unfold lidNotify
        cases d.client <;> simp
      simp only [he]
      rw [call_open rfl]
      simp
    · rw [if_neg hk]
      apply ih
      simp only [List.any_cons, Bool.or_eq_true] at h
      rcases h with h | h
      · simp at h; exact absurd h hk
      · exact h

theorem inv_kbd {d : Dev} {w : World} (h : Inv d w) (t id : Nat) (isKey : Bool) :
    Inv (kbdEvent d t id isKey).1 (next w (.kbd t id isKey)) ∧
    (kbdEvent d t id isKey).2 =
      (if isKey = true ∧ w.wakes id = true ∧ w.lid ≠ .open ∧ d.reliability = .writeOpen then [.writeOpen] else []) ++
      (if isKey = true ∧ w.wakes id = true ∧ w.lid = .closed then [.toggle t .lid false] else []) ++ [.key t id] := by
  have hl := h.lid
  have hwk := h.wakes id
  cases isKey with
  | false =>
    simp only [kbdEvent, call_notKey, next]
    simp only [Bool.false_eq_true, false_and, if_false, List.nil_append, and_true]
    exact h
  | true =>
    cases hw : w.wakes id with
    | false =>
      rw [hw] at hwk
      simp only [kbdEvent, call_asleep d t id true d.kbds hwk, next, hw]
      simp only [Bool.false_eq_true, false_and, and_false, if_false, List.nil_append, and_true]
      exact h
    | true =>
      rw [hw] at hwk
      by_cases hc : d.isClosed = true
      · simp only [kbdEvent, call_awake d t id d.kbds hc hwk, next, hw, and_self, if_true, true_and]
        refine ⟨⟨rfl, h.paired, h.wakes, h.tablet, h.has⟩, ?_⟩
        cases hwl : w.lid <;> rw [hwl] at hl <;> simp only [Prod.mk.injEq] at hl <;> obtain ⟨h1, h2⟩ := hl
        · rw [hc] at h1; cases h1
        · simp [h2]
        · simp [h2]
      · have hc' : d.isClosed = false := by simpa using hc
        simp only [kbdEvent, call_open hc', next, hw, and_self, if_true, true_and]
        cases hwl : w.lid <;> rw [hwl] at hl <;> simp only [Prod.mk.injEq] at hl <;> obtain ⟨h1, h2⟩ := hl
        · refine ⟨⟨by simp [h1, h2], h.paired, h.wakes, h.tablet, h.has⟩, by simp⟩
        · exact absurd h1 hc
        · exact absurd h1 hc

theorem inv_step {d : Dev} {w : World} (h : Inv d w) (op : Op) : Inv (step d op).1 (next w op) := by
  cases op with
  | lid t v => exact inv_lid h t v
  | tablet t v =>
    simp only [step, tabletEvent, next]
    split
    · rename_i he
      exact ⟨h.lid, h.paired, h.wakes, by rw [← he], h.has⟩
    · exact ⟨h.lid, h.paired, h.wakes, rfl, h.has⟩
  | kbd t id isKey => exact (inv_kbd h t id isKey).1
  | addKbd id =>
    have hl := h.lid
    have hcl : d.isClosed = (w.lid != .open) := by
      cases hw : w.lid <;> rw [hw] at hl <;> simp only [Prod.mk.injEq] at hl <;> rw [hl.1] <;> rfl
    simp only [step, pair, h.has, if_true, next]
    refine ⟨h.lid, fun k => ?_, fun k => ?_, h.tablet, rfl⟩
    · simp only [List.any_cons, h.paired k]
      by_cases hk : id = k
      · subst hk; simp
      · have : ¬ k = id := fun e => hk e.symm
        simp [hk, this]
    · simp only [List.any_cons, h.wakes k, hcl]
      by_cases hk : id = k
      · subst hk; simp
      · have : ¬ k = id := fun e => hk e.symm
        simp [hk, this]
  | removeKbd id =>
    simp only [step, unpair, next]
    have key : ∀ (p : Kbd → Bool) (k : Nat), (d.kbds.filter fun x => x.id != id).any (fun x => x.id == k && p x) =
        (k != id && d.kbds.any (fun x => x.id == k && p x)) := by
      intro p k
      generalize d.kbds = l
      induction l with
      | nil => simp
      | cons a l ih =>
        simp only [List.filter_cons]
        by_cases ha : a.id = id
        · simp only [ha, bne_self_eq_false, Bool.false_eq_true, if_false, ih, List.any_cons]
          by_cases hk : k = id
          · subst hk; simp
          · have h3 : ¬ id = k := fun e => hk e.symm
            have h4 : (id == k) = false := by simp [h3]
            rw [h4]; simp
        · have : (a.id != id) = true := by simp [ha]
          simp only [this, if_true, List.any_cons, ih]
          by_cases hk : k = id
          · subst hk; simp [ha]
          · have h2 : (k != id) = true := by simp [hk]
            simp [h2]
    refine ⟨h.lid, fun k => ?_, fun k => ?_, h.tablet, h.has⟩
    · have := key (fun _ => true) k
      simp only [Bool.and_true] at this
      rw [this, h.paired]
    · rw [key, h.wakes]

theorem inv_run (ops : List Op) {d : Dev} {w : World} (h : Inv d w) : Inv (run d ops).1 (ops.foldl next w) := by
  induction ops generalizing d w with
  | nil => exact h
  | cons op ops ih => exact ih (inv_step h op)

theorem pair_fold (kbds : List Nat) (d : Dev) (hh : d.hasLid = true) (hc : d.isClosed = false) :
    ∃ l : List Kbd, kbds.foldl pair d = { d with kbds := l } ∧
      (∀ k, l.any (fun x => x.id == k) = (kbds.contains k || d.kbds.any (fun x => x.id == k))) ∧
      (∀ k, l.any (fun x => x.id == k && x.listening) = d.kbds.any (fun x => x.id == k && x.listening)) := by
  induction kbds generalizing d with
  | nil => exact ⟨d.kbds, rfl, fun k => by simp, fun k => rfl⟩
  | cons a ks ih =>
    have hp : pair d a = { d with kbds := ⟨a, false⟩ :: d.kbds } := by simp [pair, hh, hc]
    obtain ⟨l, h1, h2, h3⟩ := ih (pair d a) (by rw [hp]; exact hh) (by rw [hp]; exact hc)
    refine ⟨l, ?_, fun k => ?_, fun k => ?_⟩
    · rw [List.foldl_cons, h1, hp]
    · rw [h2, hp]
      simp only [List.any_cons, List.contains_cons]
      by_cases hk : a = k
      · subst hk; simp
      · have : ¬ k = a := fun e => hk e.symm
        have h4 : (a == k) = false := by simp [hk]
        have h5 : (k == a) = false := by simp [this]
        rw [h4, h5]; simp
    · rw [h3, hp]; simp

/-- The world of a new device. -/
theorem inv_start (rel : Reliability) (lidVal tabletVal : Int) (kbds : List Nat) (t : Nat) :
    Inv (start true rel lidVal tabletVal kbds t).1 (initial rel lidVal tabletVal kbds) := by
  obtain ⟨l, h1, h2, h3⟩ := pair_fold kbds (create true rel tabletVal) rfl rfl
  have h2' : ∀ k, l.any (fun x => x.id == k) = kbds.contains k := by intro k; rw [h2]; simp [create]
  have h3' : ∀ k, l.any (fun x => x.id == k && x.listening) = false := by intro k; rw [h3]; simp [create]
  unfold start
  rw [h1]
  by_cases hv : lidVal = 0
  · subst hv
    simp [sync, create]
    exact ⟨by simp [initial], h2', h3', by simp [initial], rfl⟩
  · have hv' : (lidVal != 0) = true := by simp [hv]
    cases rel <;> simp [sync, create, hv', lidNotify] <;>
      exact ⟨by simp [initial, hv], h2', h3', by simp [initial], rfl⟩

theorem start_sends (hasLid : Bool) (rel : Reliability) (lidVal tabletVal : Int) (kbds : List Nat) (t : Nat) :
    (start hasLid rel lidVal tabletVal kbds t).1.tablet = tabletVal ∧
    Valid (fun _ => false) (toggles (start hasLid rel lidVal tabletVal kbds t).2) ∧
    Alt.after (fun _ => false) (toggles (start hasLid rel lidVal tabletVal kbds t).2) =
      known (start hasLid rel lidVal tabletVal kbds t).1 := by
  have hp : ∀ (ks : List Nat) (d : Dev), ∃ l, ks.foldl pair d = { d with kbds := l } := by
    intro ks
    induction ks with
    | nil => intro d; exact ⟨d.kbds, rfl⟩
    | cons a ks ih =>
      intro d
      obtain ⟨l, h⟩ := ih (pair d a)
      refine ⟨l, ?_⟩
      rw [List.foldl_cons, h]
      unfold pair; split <;> rfl
  obtain ⟨l, h⟩ := hp kbds (create hasLid rel tabletVal)
  unfold start
  rw [h]
  by_cases ht : tabletVal = 0 <;> cases hasLid <;> cases rel <;> cases hv : (lidVal != 0) <;>
    simp [sync, create, hv, ht, lidNotify, toggles, known, Valid, Alt.after] <;>
    (try (funext s; cases s <;> simp [known, ht]))

/-- What the history did, in terms of the device. -/
theorem history_sends (hasLid : Bool) (rel : Reliability) (lidVal tabletVal : Int) (kbds : List Nat) (t : Nat)
    (ops : List Op) (h0 : tabletVal = 0 ∨ tabletVal = 1) (hb : Bits ops) :
    Valid (fun _ => false) (toggles (history hasLid rel lidVal tabletVal kbds t ops).2) ∧
    Alt.after (fun _ => false) (toggles (history hasLid rel lidVal tabletVal kbds t ops).2) =
      known (history hasLid rel lidVal tabletVal kbds t ops).1 := by
  obtain ⟨h1, h2, h3⟩ := start_sends hasLid rel lidVal tabletVal kbds t
  have h4 := (run_sends ops (start hasLid rel lidVal tabletVal kbds t).1 (by rw [h1]; exact h0) hb).1
  simp only [history, toggles_append]
  refine ⟨?_, ?_⟩
  · rw [valid_append]; exact ⟨h2, by rw [h3]; exact h4.1⟩
  · rw [after_append, h3]; exact h4.2

/-- **C19, alternation.**  Whatever the initial state, the reliability of the lid, the keyboards and the
history: the events of each switch alternate on, off, on, …, starting with on. -/
theorem switch_events_alternate (hasLid : Bool) (rel : Reliability) (lidVal tabletVal : Int) (kbds : List Nat)
    (t : Nat) (ops : List Op) (h0 : tabletVal = 0 ∨ tabletVal = 1) (hb : Bits ops) :
    Alternating (toggles (history hasLid rel lidVal tabletVal kbds t ops).2) := by
  rw [alternating_iff_valid]
  exact (history_sends hasLid rel lidVal tabletVal kbds t ops h0 hb).1

/-- **C19, faithful.**  The last event of the tablet-mode switch, and of the lid switch, says what the
state is; a lid that claims to be closed from the start is only believed if it is reliable, and typing on an
internal keyboard opens the lid. -/
theorem switch_state_reported (rel : Reliability) (lidVal tabletVal : Int) (kbds : List Nat)
    (t : Nat) (ops : List Op) (h0 : tabletVal = 0 ∨ tabletVal = 1) (hb : Bits ops) :
    heldAfter (toggles (history true rel lidVal tabletVal kbds t ops).2) .tabletMode =
      (world rel lidVal tabletVal kbds ops).tablet ∧
    (heldAfter (toggles (history true rel lidVal tabletVal kbds t ops).2) .lid = true ↔
      (world rel lidVal tabletVal kbds ops).lid = .closed) := by
  have h := (history_sends true rel lidVal tabletVal kbds t ops h0 hb).2
  rw [← heldAfter_eq_after] at h
  have hi : Inv (history true rel lidVal tabletVal kbds t ops).1 (world rel lidVal tabletVal kbds ops) :=
    inv_run ops (inv_start rel lidVal tabletVal kbds t)
  have hl := hi.lid
  rw [h]
  refine ⟨hi.tablet, ?_⟩
  simp only [known]
  cases hw : (world rel lidVal tabletVal kbds ops).lid <;> rw [hw] at hl <;> simp only [Prod.mk.injEq] at hl <;>
    simp [hl.2]

theorem run_append (a b : List Op) (d : Dev) :
    run d (a ++ b) = ((run (run d a).1 b).1, (run d a).2 ++ (run (run d a).1 b).2) := by
  induction a generalizing d with
  | nil => simp [run]
  | cons op a ih => simp [run, ih]

theorem wakes_mid (mid : List Op) (w : World) (id : Nat) (hw : w.wakes id = true)
    (h1 : ∀ t v, .lid t v ∉ mid) (h2 : .removeKbd id ∉ mid) : (mid.foldl next w).wakes id = true := by
  induction mid generalizing w with
  | nil => exact hw
  | cons op mid ih =>
    apply ih
    · cases op with
      | lid t v => exact absurd (by simp) (h1 t v)
      | tablet t v => exact hw
      | kbd t i k => simp only [next]; split <;> exact hw
      | addKbd i => simp [next, hw]
      | removeKbd i =>
        have : ¬ id = i := by intro e; subst e; exact h2 (by simp)
        simp [next, hw, this]
    · intro t v h; exact h1 t v (by simp [h])
    · intro h; exact h2 (by simp [h])

theorem rel_fixed (hasLid : Bool) (rel : Reliability) (lidVal tabletVal : Int) (kbds : List Nat) (t : Nat) (ops : List Op) :
    (history hasLid rel lidVal tabletVal kbds t ops).1.reliability = rel := by
  have hn : ∀ d t, (lidNotify d t).1.reliability = d.reliability := by
    intro d t; unfold lidNotify; split <;> rfl
  have hk : ∀ d t k, (lidKeyboardEvent d t k).1.reliability = d.reliability := by
    intro d t k; unfold lidKeyboardEvent; split
    · rfl
    · split
      · rfl
      · simp only [hn]
  have hc : ∀ t id k ks d, (callListeners t id k ks d).1.reliability = d.reliability := by
    intro t id k ks
    induction ks with
    | nil => intro d; rfl
    | cons a ks ih => intro d; unfold callListeners; split <;> simp [ih, hk]
  have hs : ∀ d op, (step d op).1.reliability = d.reliability := by
    intro d op
    cases op with
    | lid t v => simp only [step, lidEvent]; split <;> simp [hn, toggleListeners]
    | tablet t v => simp only [step, tabletEvent]; split <;> rfl
    | kbd t id k => simp [step, kbdEvent, hc]
    | addKbd id => simp only [step, pair]; split <;> rfl
    | removeKbd id => rfl
  have hr : ∀ ops d, (run d ops).1.reliability = d.reliability := by
    intro ops
    induction ops with
    | nil => intro d; rfl
    | cons op ops ih => intro d; simp only [run, ih, hs]
  have hp : ∀ (ks : List Nat) (d : Dev), (ks.foldl pair d).reliability = d.reliability := by
    intro ks
    induction ks with
    | nil => intro d; rfl
    | cons a ks ih => intro d; rw [List.foldl_cons, ih]; unfold pair; split <;> rfl
  simp only [history, hr, start, sync]
  split
  · split
    · rw [hn]; exact hp _ _
    · exact hp _ _
  · exact hp _ _

/-- **C19, typing.**  The lid closed (any kernel event saying so) while the internal keyboard `id` was
connected, and since then there was no lid event and the keyboard was not removed.  Then a key of that
keyboard is passed on to the caller after exactly one "lid open" event if the lid was still reported closed,
and alone if it was not (it was reopened already); in both cases the lid is reported open afterwards.  A
switch that wants it gets its state written back. -/
theorem typing_reopens_once (rel : Reliability) (lidVal tabletVal : Int) (kbds : List Nat) (t0 : Nat)
    (ops mid : List Op) (t1 t : Nat) (v : Int) (id : Nat) (hv : v ≠ 0)
    (hpair : (world rel lidVal tabletVal kbds ops).paired id = true)
    (h1 : ∀ t v, .lid t v ∉ mid) (h2 : .removeKbd id ∉ mid) :
    let before := ops ++ .lid t1 v :: mid
    let w := world rel lidVal tabletVal kbds before
    (history true rel lidVal tabletVal kbds t0 (before ++ [.kbd t id true])).2 =
      (history true rel lidVal tabletVal kbds t0 before).2 ++
        ((if w.lid ≠ .open ∧ rel = .writeOpen then [.writeOpen] else []) ++
         (if w.lid = .closed then [.toggle t .lid false] else []) ++ [.key t id]) ∧
    (world rel lidVal tabletVal kbds (before ++ [.kbd t id true])).lid = .open := by
  intro before w
  have hi : Inv (history true rel lidVal tabletVal kbds t0 before).1 w :=
    inv_run before (inv_start rel lidVal tabletVal kbds t0)
  have hwk : w.wakes id = true := by
    show (world rel lidVal tabletVal kbds (ops ++ .lid t1 v :: mid)).wakes id = true
    unfold world
    rw [List.foldl_append, List.foldl_cons]
    refine wakes_mid mid _ id ?_ h1 h2
    simp only [next, hv, if_false]
    exact hpair
  have hk := (inv_kbd hi t id true).2
  rw [rel_fixed] at hk
  refine ⟨?_, ?_⟩
  · simp only [hwk, true_and] at hk
    have he : (history true rel lidVal tabletVal kbds t0 (before ++ [.kbd t id true])).2 =
        (history true rel lidVal tabletVal kbds t0 before).2 ++
          (kbdEvent (history true rel lidVal tabletVal kbds t0 before).1 t id true).2 := by
      simp [history, run_append, run, step]
    rw [he, hk]
  · unfold world
    rw [List.foldl_append]
    show (next w (.kbd t id true)).lid = .open
    simp [next, hwk]

/-- A lid that closes, is reopened by typing, and closes again. -/
example :
    (history true .unknown 1 0 [7] 0
      [.lid 1 0, .lid 2 1, .kbd 3 7 true, .kbd 4 7 true, .lid 5 0, .lid 6 1]).2 =
    [.toggle 2 .lid true, .toggle 3 .lid false, .key 3 7, .key 4 7, .toggle 6 .lid true] := by decide

example : (world .unknown 1 0 [7] [.lid 1 0]).paired 7 = true ∧ Bits [.lid 1 0, .tablet 2 1] := by
  refine ⟨by decide, ?_⟩
  intro t v h; simp at h; exact Or.inr h.2

/-- Tablet mode on from the start is reported. -/
example : (history false .unknown 0 1 [] 0 [.tablet 1 0, .tablet 2 0, .tablet 3 1]).2 =
    [.toggle 0 .tabletMode true, .toggle 1 .tabletMode false, .toggle 3 .tabletMode true] := by decide

/-- A reliable lid found closed is reported closed, but a keyboard connected before does not reopen it:
the lid only listens to it after a closing event. -/
theorem found_closed_not_reopened (t : Nat) :
    toggles (history true .reliable 1 0 [7] 0 [.kbd t 7 true]).2 = [⟨.lid, true⟩] := by
  simp [history, start, sync, create, pair, run, step, kbdEvent, callListeners, lidNotify, toggles]

/-- A switch value other than 0 and 1 would be reported as on again. -/
theorem odd_value_repeats :
    ¬ Alternating (toggles (history false .unknown 0 0 [] 0 [.tablet 1 1, .tablet 2 2]).2) := by
  intro h
  have := h .tabletMode
  revert this
  simp [history, start, sync, create, run, step, tabletEvent, toggles, historyOf, AltFrom]

end Libinput.Switch
