import Verif.Pairing.Others
/-!
C63: devices that belong together find each other, and lose each other in time, whatever the order in which they are added,
removed, disabled and enabled, and whatever their switches do.
-/
namespace Libinput.Pairing
open Spec

instance (x : Info) : Decidable (Real x) := by unfold Real; infer_instance
instance (x : Info) : Decidable (Folds x) := by unfold Folds; infer_instance
instance (x : Info) : Decidable (Both x) := by unfold Both; infer_instance
instance (o x : Info) : Decidable (Twin o x) := by unfold Twin; infer_instance
instance (b : Bond) (o x : Info) : Decidable (Bel b o x) := by cases b <;> unfold Bel <;> infer_instance
instance (A : List Info) (b : Bond) (o : Info) : Decidable (Alone A b o) := by unfold Alone; infer_instance

/-! ## A laptop -/

/-- A touchpad. -/
def pad1 : Info := { id := 1, kind := .touchpad }
/-- The keyboard of the laptop. -/
def keys2 : Info := { id := 2, keyboard := true, internalKbd := true }
/-- Its lid. -/
def lid3 : Info := { id := 3, lidSw := true, reliable := true }
/-- Its tablet-mode switch. -/
def fold4 : Info := { id := 4, tabletSw := true }
/-- Its trackpoint. -/
def stick5 : Info := { id := 5, trackpoint := true, pointerCap := true }
/-- A keyboard on a cable. -/
def cable6 : Info := { id := 6, keyboard := true, externalKbd := true }
/-- A keyboard that is a tablet-mode switch as well. -/
def both (i : Nat) : Info := { id := i, keyboard := true, internalKbd := true, tabletSw := true }

def laptop : List Op := [.add pad1, .add keys2, .add lid3, .add fold4, .add stick5, .add cable6]
/-- The same in another order, with things happening in between. -/
def busy : List Op :=
  [.add keys2, .add fold4, .tablet 4 true, .add pad1, .add lid3, .mode 2 true, .add stick5, .tablet 4 false, .mode 2 false, .remove 3,
   .add cable6, .key 2, .pointer 5, .add lid3]

theorem laptop_machine : Machine (adds laptop) := ⟨by decide +kernel, by decide +kernel⟩
theorem busy_machine : Machine (adds busy) := ⟨by decide +kernel, by decide +kernel⟩

/-! ## Nothing goes wrong -/

/-- C63: no assertion fails and no memory is used that was given back, and the devices are those that were added and not removed. -/
theorem never_crashes {ops : List Op} (M : Machine (adds ops)) : (run {} ops).crashed = false ∧ (run {} ops).devs = here ops :=
  ⟨(history M).1.safe.fine, (history M).2⟩

example : (run {} busy).crashed = false ∧ (here busy).map Info.id = [2, 4, 1, 5, 6, 3] :=
  ⟨(never_crashes busy_machine).1, by decide +kernel⟩

/-- With two keyboards that are tablet-mode switches too, an assertion can fail. -/
theorem two_switches_crash :
    (run {} [.add (both 2), .add pad1, .add (both 3), .tablet 3 true, .mode 2 true, .mode 2 false, .tablet 2 true, .tablet 2 false]).crashed = true := by decide +kernel

/-- What a device holds on to is another device that is there, and belongs to it. -/
theorem partners_present {ops : List Op} (M : Machine (adds ops)) {o : Info} {b : Bond} {x : Nat} (ho : o ∈ here ops)
    (hp : Partner ((run {} ops).mem o.id) o b x) : ∃ X ∈ here ops, X.id = x ∧ X.id ≠ o.id ∧ Bel b o X := by
  obtain ⟨h, e⟩ := history M
  rw [← e] at ho ⊢
  exact (h.safe.at_ o ho).bel b x hp

example : Partner ((run {} busy).mem 1) pad1 .stick 5 := ⟨rfl, by decide +kernel⟩

/-- Everybody who listens is there, listens to another device that is there, and listens for what that is to it. -/
theorem listeners_present {ops : List Op} (M : Machine (adds ops)) {l : Listener} (hl : l ∈ (run {} ops).lst) :
    ∃ o ∈ here ops, o.id = l.owner ∧ ∃ x ∈ here ops, x.id = l.src ∧ x.id ≠ o.id ∧ Bel (bond l.role) o x := by
  obtain ⟨h, e⟩ := history M
  obtain ⟨o, ho, eo, _, he⟩ := listener_find h.safe hl
  refine ⟨o, e ▸ ho, eo, ?_⟩
  have hp : Partner ((run {} ops).mem o.id) o (bond l.role) l.src := by
    unfold Entry at he
    split at he <;> rename_i er <;> rw [er]
    · exact ⟨he.1, _, he.2⟩
    · exact ⟨he.1, _, he.2⟩
    · exact ⟨he.1, he.2.1⟩
    · exact ⟨he.1, he.2.1⟩
    · exact ⟨he.1, he.2.1⟩
  exact partners_present M (e ▸ ho) hp

example : (run {} laptop).lst.length = 6 := by decide +kernel

/-! ## Typing and trackpoints -/

theorem event_run {s : St} (h : Safe s) {x : Info} (hx : x ∈ s.devs) (k : x.kind = .fallback) (on : (s.mem x.id).suspended = false)
    {ok : Info → Bool} (hok : ok x = true) (f : St → St) : event s x.id ok f = f s := by
  unfold event
  rw [find_of h hx]
  dsimp only
  rw [if_pos ⟨k, on, hok⟩]

/-- C63: a touchpad hears of every key of a keyboard that belongs to it and is on. -/
theorem typing_heard {ops : List Op} (M : Machine (adds ops)) {t k : Info} (ht : t ∈ here ops) (hk : k ∈ here ops)
    (hb : Bel .typing t k) (on : ((run {} ops).mem k.id).suspended = false) :
    .typing t.id k.id ∈ (step (run {} ops) (.key k.id)).log := by
  obtain ⟨h, e⟩ := history M
  rw [← e] at ht hk
  have kk := bel_fallback (b := .typing) rfl hb (h.safe.real k hk)
  have n : k.id ≠ t.id := by
    intro c; rw [h.safe.inj hk ht c, hb.1] at kk; cases kk
  have p := h.full .typing t k rfl ht hk n hb (Or.inl rfl) on
  unfold step
  rw [if_neg (by rw [h.safe.fine]; simp)]
  dsimp only
  rw [event_run (s := { run {} ops with log := [] }) (h.log []).safe hk kk on rfl]
  exact post_key M (h.log []) ht hb.1 p

example : (step (run {} busy) (.key 2)).log = [.typing 1 2] ∧ (step (run {} busy) (.key 6)).log = [] := by decide +kernel

theorem adds_append (a b : List Op) : adds (a ++ b) = adds a ++ adds b := by
  induction a with
  | nil => rfl
  | cons op a ih => cases op <;> simp [adds, ih]

theorem adds_snoc {ops : List Op} {op : Op} (x : Info) (e : op = .add x) : x ∈ adds (ops ++ [op]) := by
  subst e; simp [adds_append, adds]

theorem history_snoc {ops : List Op} {op : Op} (M : Machine (adds (ops ++ [op]))) :
    Inv (adds (ops ++ [op])) (run {} ops) ∧ (run {} ops).devs = here ops :=
  run_inv M ops {} (init_inv _) (fun x hx => by rw [adds_append]; exact List.mem_append_left _ hx)

/-- C63: a touchpad hears only of keys of keyboards that belong to it, and that are there and on. -/
theorem typing_only {ops : List Op} {op : Op} (M : Machine (adds (ops ++ [op]))) {t k : Nat}
    (he : .typing t k ∈ (step (run {} ops) op).log) :
    op = .key k ∧ ∃ T ∈ here ops, ∃ K ∈ here ops, T.id = t ∧ K.id = k ∧ Bel .typing T K ∧ ((run {} ops).mem k).suspended = false := by
  obtain ⟨h, e⟩ := history_snoc M
  rcases step_log M h adds_snoc _ he with ⟨_, _, c⟩ | ⟨T, hT, K, hK, eo, on, hb, c⟩ | ⟨_, _, _, _, _, _, _, _, c⟩
  · cases c
  · cases c
    exact ⟨eo, T, e ▸ hT, K, e ▸ hK, rfl, rfl, hb, on⟩
  · cases c

/-- C63: a touchpad that minds trackpoints hears of all events of the one that belongs to it. -/
theorem stick_heard {ops : List Op} (M : Machine (adds ops)) {t p : Info} (ht : t ∈ here ops) (hp : p ∈ here ops)
    (hb : Bel .stick t p) (hm : t.monitor = true) (ha : Alone (adds ops) .stick t) (on : ((run {} ops).mem p.id).suspended = false) :
    .stick t.id p.id ∈ (step (run {} ops) (.pointer p.id)).log := by
  obtain ⟨h, e⟩ := history M
  rw [← e] at ht hp
  have kk := bel_fallback (b := .stick) rfl hb (h.safe.real p hp)
  have n : p.id ≠ t.id := by
    intro c; rw [h.safe.inj hp ht c, hb.1] at kk; cases kk
  have q := h.full .stick t p rfl ht hp n hb (Or.inr (Or.inr ha)) on
  unfold step
  rw [if_neg (by rw [h.safe.fine]; simp)]
  dsimp only
  rw [event_run (s := { run {} ops with log := [] }) (h.log []).safe hp kk on rfl]
  exact post_pointer M (h.log []) ht hb.1 hm q

example : Alone (adds busy) .stick pad1 ∧ Bel .stick pad1 stick5 ∧ (step (run {} busy) (.pointer 5)).log = [.stick 1 5] := by decide +kernel

/-- C63: a touchpad hears only of trackpoints that belong to it, if it minds them. -/
theorem stick_only {ops : List Op} {op : Op} (M : Machine (adds (ops ++ [op]))) {t p : Nat}
    (he : .stick t p ∈ (step (run {} ops) op).log) :
    op = .pointer p ∧ ∃ T ∈ here ops, ∃ P ∈ here ops, T.id = t ∧ P.id = p ∧ Bel .stick T P ∧ T.monitor = true ∧
      ((run {} ops).mem p).suspended = false := by
  obtain ⟨h, e⟩ := history_snoc M
  rcases step_log M h adds_snoc _ he with ⟨_, _, c⟩ | ⟨_, _, _, _, _, _, _, c⟩ | ⟨T, hT, K, hK, eo, on, hb, hm, c⟩
  · cases c
  · cases c
  · cases c
    exact ⟨eo, T, e ▸ hT, K, e ▸ hK, rfl, rfl, hb, hm, on⟩

/-- A second trackpoint is not used, even when the first one is gone. -/
theorem second_stick_unused :
    let two : List Op := [.add pad1, .add stick5, .add { stick5 with id := 7 }, .remove 5]
    (step (run {} two) (.pointer 7)).log = [] ∧ Bel .stick pad1 { stick5 with id := 7 } := by decide +kernel

/-- A keyboard can be heard twice: one that is added while tablet mode is on is turned off before the touchpad is told of it, is paired all
the same, and again when it is turned on. -/
theorem typing_twice :
    (step (run {} [.add { fold4 with on0 := true }, .add pad1, .add keys2, .tablet 4 false]) (.key 2)).log = [.typing 1 2, .typing 1 2] := by
  decide +kernel

/-- The record of a keyboard is lost when the touchpad goes first. -/
theorem records_lost : (run {} [.add pad1, .add keys2, .remove 1]).heap.length = 1 ∧ (run {} [.add pad1, .add keys2, .remove 2]).heap = [] := by
  decide +kernel

/-! ## Touchpads and their switches -/

/-- C63: a touchpad is off just when the client disabled it, the tablet-mode switch that it follows is on, or its lid was closed;
the last only while its lid is reported closed. -/
theorem touchpad_off {ops : List Op} (M : Machine (adds ops)) {t : Info} (ht : t ∈ here ops) (kt : t.kind = .touchpad) :
    let s := run {} ops
    ((s.mem t.id).suspended = true ↔ (s.mem t.id).disabled = true ∨ (s.mem t.id).forLid = true ∨
      ∃ x ∈ here ops, (s.mem t.id).tablet = some x.id ∧ Bel .tablet t x ∧ (s.mem x.id).on = true) ∧
    ((s.mem t.id).forLid = true → ∃ x ∈ here ops, (s.mem t.id).lid = some x.id ∧ Bel .lid t x ∧ (s.mem x.id).client = true) := by
  obtain ⟨h, e⟩ := history M
  dsimp only
  have ht' := e ▸ ht
  obtain ⟨R, T, L⟩ := history_fine M t ht' kt
  refine ⟨?_, ?_⟩
  · rw [R.sus, R.mode]
    constructor
    · intro c
      cases c1 : ((run {} ops).mem t.id).disabled
      · cases c2 : ((run {} ops).mem t.id).forLid
        · simp only [c1, c2, Bool.false_or, Bool.or_false] at c
          right; right
          cases c3 : ((run {} ops).mem t.id).tablet with
          | none => rw [R.tab c3] at c; cases c
          | some x =>
            obtain ⟨X, hX, eX, _, bX⟩ := (h.safe.at_ t ht').bel .tablet x ⟨Or.inl kt, c3⟩
            subst eX
            exact ⟨X, e ▸ hX, rfl, bX, by rw [← T X.id (by simp) c3]; exact c⟩
        · exact Or.inr (Or.inl rfl)
      · exact Or.inl rfl
    · rintro (c | c | ⟨x, _, c, _, d⟩)
      · simp [c]
      · simp [c]
      · rw [T x.id (by simp) c, d]; simp
  · intro c
    cases c3 : ((run {} ops).mem t.id).lid with
    | none => exact absurd c3 (R.lid c)
    | some x =>
      obtain ⟨X, hX, eX, _, bX⟩ := (h.safe.at_ t ht').bel .lid x ⟨kt, c3⟩
      subst eX
      exact ⟨X, e ▸ hX, rfl, bX, L X.id (by simp) c3 c⟩

example : ((run {} (busy ++ [.lid 3 true])).mem 1).suspended = true ∧ ((run {} (busy ++ [.lid 3 true])).mem 1).forLid = true ∧
    ((run {} busy).mem 1).suspended = false := by decide +kernel

/-- C63: a touchpad works if it is not disabled, all tablet-mode switches of the machine are off, and all its lids reported open. -/
theorem touchpad_on {ops : List Op} (M : Machine (adds ops)) {t : Info} (ht : t ∈ here ops) (kt : t.kind = .touchpad)
    (hm : ((run {} ops).mem t.id).disabled = false)
    (hs : ∀ x ∈ here ops, Bel .tablet t x → ((run {} ops).mem x.id).on = false)
    (hl : ∀ x ∈ here ops, Bel .lid t x → ((run {} ops).mem x.id).client = false) :
    ((run {} ops).mem t.id).suspended = false := by
  obtain ⟨a, b⟩ := touchpad_off M ht kt
  cases c : ((run {} ops).mem t.id).suspended
  · rfl
  · rcases a.mp c with d | d | ⟨x, hx, _, bx, ox⟩
    · rw [hm] at d; cases d
    · obtain ⟨x, hx, _, bx, ox⟩ := b d
      rw [hl x hx bx] at ox; cases ox
    · rw [hs x hx bx] at ox; cases ox

example : ((run {} busy).mem 1).disabled = false ∧ (∀ x ∈ here busy, Bel .tablet pad1 x → ((run {} busy).mem x.id).on = false) ∧
    (∀ x ∈ here busy, Bel .lid pad1 x → ((run {} busy).mem x.id).client = false) ∧ Bel .tablet pad1 fold4 ∧ Bel .lid pad1 lid3 := by
  decide +kernel

/-- C63: a touchpad is off while the tablet-mode switch of its machine is there and on. -/
theorem touchpad_tablet {ops : List Op} (M : Machine (adds ops)) {t x : Info} (ht : t ∈ here ops) (kt : t.kind = .touchpad)
    (hx : x ∈ here ops) (hb : Bel .tablet t x) (ha : Alone (adds ops) .tablet t) (hon : ((run {} ops).mem x.id).suspended = false)
    (on : ((run {} ops).mem x.id).on = true) : ((run {} ops).mem t.id).suspended = true := by
  obtain ⟨h, e⟩ := history M
  have hx' := e ▸ hx
  have ht' := e ▸ ht
  have kx := bel_fallback (b := .tablet) rfl hb (h.safe.real x hx')
  have n : x.id ≠ t.id := by
    intro c; rw [h.safe.inj hx' ht' c, kt] at kx; cases kx
  have p := h.full .tablet t x rfl ht' hx' n hb (Or.inr (Or.inr ha)) hon
  exact (touchpad_off M ht kt).1.mpr (Or.inr (Or.inr ⟨x, hx, p.2, hb, on⟩))

example : Alone (adds busy) .tablet pad1 ∧
    (let s := run {} (busy ++ [.remove 1, .tablet 4 true, .add pad1]); (s.mem 4).on = true ∧ (s.mem 1).suspended = true) := by decide +kernel

/-- C63: when a lid is reported to close or to open, the touchpad of the machine is turned off, or no longer off for the lid. -/
theorem lid_followed {ops : List Op} (M : Machine (adds ops)) {t x : Info} (ht : t ∈ here ops) (kt : t.kind = .touchpad)
    (hx : x ∈ here ops) (hb : Bel .lid t x) (ha : Alone (adds ops) .lid t) (hon : ((run {} ops).mem x.id).suspended = false) {c : Bool}
    (hc : ((run {} ops).mem x.id).closed ≠ c) (hr : ((run {} ops).mem x.id).client ≠ c) :
    let s := step (run {} ops) (.lid x.id c)
    .lid x.id c ∈ s.log ∧ (s.mem t.id).forLid = c ∧ (c = true → (s.mem t.id).suspended = true) := by
  obtain ⟨h, e⟩ := history M
  have hx' := e ▸ hx
  have ht' := e ▸ ht
  have F := history_fine M
  have kx := bel_fallback (b := .lid) rfl hb (h.safe.real x hx')
  have n : x.id ≠ t.id := by
    intro c; rw [h.safe.inj hx' ht' c, kt] at kx; cases kx
  have p := h.full .lid t x rfl ht' hx' n hb (Or.inr (Or.inr ha)) hon
  have F' : Fine (step (run {} ops) (.lid x.id c)) := step_fine M h F (fun _ c => by cases c)
  have I' := step_inv M (op := .lid x.id c) h (fun _ c => by cases c)
  have key : .lid x.id c ∈ (step (run {} ops) (.lid x.id c)).log ∧ ((step (run {} ops) (.lid x.id c)).mem t.id).forLid = c ∧
      t ∈ (step (run {} ops) (.lid x.id c)).devs := by
    unfold step
    rw [if_neg (by rw [h.safe.fine]; simp)]
    dsimp only
    rw [event_run (s := { run {} ops with log := [] }) (h.log []).safe hx' kx hon hb.2.2]
    have h0 := h.log []
    have F0 : Fine ({ run {} ops with log := [] } : St) := F
    have hx0 : x ∈ ({ run {} ops with log := [] } : St).devs := hx'
    have ht0 : t ∈ ({ run {} ops with log := [] } : St).devs := ht'
    have p0 : (({ run {} ops with log := [] } : St).mem t.id).lid = some x.id := p.2
    have c0 : (({ run {} ops with log := [] } : St).mem x.id).closed ≠ c := hc
    have r0 : (({ run {} ops with log := [] } : St).mem x.id).client ≠ c := hr
    revert h0 F0 hx0 ht0 p0 c0 r0
    generalize ({ run {} ops with log := [] } : St) = s0
    intro h0 F0 hx0 ht0 p0 c0 r0
    unfold lidEvent
    have a := toggleKeys_inv h0 hx0 kx c
    revert a
    generalize toggleKeys s0 x.id c = s1
    intro ⟨a1, a2, a3⟩
    dsimp only
    rw [if_neg (by rw [a3]; exact c0)]
    have f1 : Fine s1 := F0.fair a2 (fun t _ _ => Fair.of_mem a2 a3)
    have fl : Inv (adds ops) (s1.upd x.id fun m => { m with closed := c }) :=
      a1.flag (a2 ▸ hx0) (fun _ => rfl) (fun _ => rfl) (fun _ => rfl) (fun _ => rfl) (fun _ => rfl) (fun _ => rfl) (fun _ => rfl)
        (fun _ => rfl)
    have f2 : Fine (s1.upd x.id fun m => { m with closed := c }) :=
      FineX.upd f1 (not_tp a1.safe (a2 ▸ hx0) (by rw [kx]; simp)) (fun _ => rfl) (fun _ => rfl)
    have ne : ((s1.upd x.id fun m => { m with closed := c }).mem x.id).closed ≠
        ((s1.upd x.id fun m => { m with closed := c }).mem x.id).client := by
      rw [upd_self, a3]; exact fun q => r0 q.symm
    have nl := (notifyLid_fine fl f2 (x := x) (a2 ▸ hx0) kx).2 ne t (a2 ▸ ht0) kt (by rw [upd_ne _ _ (fun q => n q.symm), a3]; exact p0)
    refine ⟨?_, ?_, ?_⟩
    · unfold notifyLid
      rw [if_pos (by simpa using ne)]
      simp [upd_log, upd_self]
    · rw [nl, upd_self]
    · rw [(notifyLid_inv (x := x) fl (a2 ▸ hx0)).2.1]
      exact a2 ▸ ht0
  refine ⟨key.1, key.2.1, fun ec => ?_⟩
  obtain ⟨R, _, _⟩ := F' t key.2.2 kt
  rw [R.sus, key.2.1, ec]; simp

example : Alone (adds busy) .lid pad1 ∧ ((run {} busy).mem 3).closed = false ∧ ((run {} busy).mem 3).client = false ∧
    ((run {} busy).mem 3).suspended = false ∧ (step (run {} busy) (.lid 3 true)).log = [.lid 3 true] := by decide +kernel

/-- C63: once a closed lid was reported, a key of the keyboard of the laptop is taken to mean that the lid is open. -/
theorem typing_opens {ops : List Op} (M : Machine (adds ops)) {x k : Info} (hx : x ∈ here ops) (hk : k ∈ here ops) (n : k.id ≠ x.id)
    (hb : Bel .lidKey x k) (hon : ((run {} ops).mem x.id).suspended = false) (kon : ((run {} ops).mem k.id).suspended = false)
    (hr : ((step (run {} ops) (.lid x.id true)).mem x.id).client = true) :
    .lid x.id false ∈ (step (step (run {} ops) (.lid x.id true)) (.key k.id)).log := by
  obtain ⟨h, e⟩ := history M
  have hx' := e ▸ hx
  have hk' := e ▸ hk
  have kk := bel_fallback (b := .lidKey) rfl hb (h.safe.real k hk')
  have p := h.full .lidKey x k rfl hx' hk' n hb (Or.inr (Or.inl rfl)) kon
  have I1 := (step_inv M (op := .lid x.id true) h (fun _ c => by cases c)).1
  have key : (∃ m, ({ src := k.id, owner := x.id, role := .lidKey, ser := m } : Listener) ∈ (step (run {} ops) (.lid x.id true)).lst) ∧
      ((step (run {} ops) (.lid x.id true)).mem x.id).closed = true ∧
      ((step (run {} ops) (.lid x.id true)).mem k.id).suspended = false ∧ k ∈ (step (run {} ops) (.lid x.id true)).devs := by
    unfold step
    rw [if_neg (by rw [h.safe.fine]; simp)]
    dsimp only
    rw [event_run (s := { run {} ops with log := [] }) (h.log []).safe hx' hb.1 hon hb.2.1]
    obtain ⟨a, b, c⟩ := lidEvent_listens (h.log []) hx' hb.1 p
    refine ⟨a, b, ?_, ?_⟩
    · rw [c k.id (h.safe.nt hk' (by rw [kk]; simp))]; exact kon
    · rw [(lidEvent_inv (h.log []) hx' hb.1 true).2]; exact hk'
  revert I1 key hr
  generalize step (run {} ops) (.lid x.id true) = s1
  intro hr I1 ⟨⟨m, hl⟩, c1, c2, c3⟩
  unfold step
  rw [if_neg (by rw [I1.safe.fine]; simp)]
  dsimp only
  rw [event_run (s := { s1 with log := [] }) (I1.log []).safe c3 kk c2 rfl]
  exact post_opens M (I1.log []) hl c1 hr

example : (step (step (run {} busy) (.lid 3 true)) (.key 2)).log = [.lid 3 false, .typing 1 2] ∨
    (step (step (run {} busy) (.lid 3 true)) (.key 2)).log = [.typing 1 2, .lid 3 false] := by decide +kernel

/-- A lid that is found closed is not opened by typing. -/
theorem found_closed_stays :
    (step (run {} [.add keys2, .add { lid3 with closed0 := true }]) (.key 2)).log = [] ∧
    ((run {} [.add keys2, .add { lid3 with closed0 := true }]).mem 3).client = true := by decide +kernel

/-- A touchpad that is added while the lid is closed works. -/
theorem late_touchpad_works :
    let s := run {} [.add lid3, .lid 3 true, .add pad1]
    (s.mem 3).client = true ∧ (s.mem 1).suspended = false ∧ (s.mem 1).lid = some 3 := by decide +kernel

/-! ## Keyboards and trackpoints that fold away -/

/-- C63: when the tablet-mode switch of the machine turns on or off, its keyboard and trackpoint are turned off and on with it; they are
not turned on if they are disabled. -/
theorem tablet_followed {ops : List Op} (M : Machine (adds ops)) {d x : Info} (hd : d ∈ here ops) (hx : x ∈ here ops) (n : x.id ≠ d.id)
    (k : d.kind = .fallback) (hb : Bel .tablet d x) (ha : Alone (adds ops) .tablet d) (hon : ((run {} ops).mem x.id).suspended = false)
    {v : Bool} (hv : ((run {} ops).mem x.id).on ≠ v) (hm : v = false → ((run {} ops).mem d.id).disabled = false) :
    ((step (run {} ops) (.tablet x.id v)).mem d.id).suspended = v := by
  obtain ⟨h, e⟩ := history M
  have hx' := e ▸ hx
  have hd' := e ▸ hd
  have kx := bel_fallback (b := .tablet) rfl hb (h.safe.real x hx')
  have p := h.full .tablet d x rfl hd' hx' n hb (Or.inr (Or.inr ha)) hon
  unfold step
  rw [if_neg (by rw [h.safe.fine]; simp)]
  dsimp only
  rw [event_run (s := { run {} ops with log := [] }) (h.log []).safe hx' kx hon hb.1]
  unfold tabletEvent
  rw [if_neg hv]
  have nd : d.id ≠ x.id := fun c => n c.symm
  refine post_follow M (s := ({ run {} ops with log := [] } : St).upd x.id fun m => { m with on := v }) v ?_ hd' hx' n k hb ha ?_ ?_
  · exact (h.log []).flag hx' (fun _ => rfl) (fun _ => rfl) (fun _ => rfl) (fun _ => rfl) (fun _ => rfl) (fun _ => rfl)
      (fun _ => rfl) (fun _ => rfl)
  · rw [upd_ne _ _ nd]; exact p
  · rw [upd_ne _ _ nd]; exact hm

example : Alone (adds busy) .tablet keys2 ∧ Bel .tablet keys2 fold4 ∧ Bel .tablet stick5 fold4 ∧ ¬Bel .tablet cable6 fold4 ∧
    (let s := step (run {} busy) (.tablet 4 true)
     (s.mem 2).suspended = true ∧ (s.mem 5).suspended = true ∧ (s.mem 6).suspended = false) ∧
    (let s := step (step (run {} busy) (.tablet 4 true)) (.tablet 4 false)
     (s.mem 2).suspended = false ∧ (s.mem 5).suspended = false) := by decide +kernel

/-- C63: a device that the client disabled is off, whatever the switches do. -/
theorem disabled_stays_off {ops : List Op} (M : Machine (adds ops)) {d : Info} (hd : d ∈ here ops)
    (k : d.kind = .fallback ∨ d.kind = .touchpad) (hm : ((run {} ops).mem d.id).disabled = true) :
    ((run {} ops).mem d.id).suspended = true := by
  rcases k with k | k
  · exact history_off M d ((history M).2 ▸ hd) k hm
  · exact (touchpad_off M hd k).1.mpr (Or.inl hm)

example : let s := run {} (busy ++ [.mode 2 true, .mode 1 true, .tablet 4 true, .tablet 4 false])
    (s.mem 2).disabled = true ∧ (s.mem 1).disabled = true ∧ (s.mem 5).suspended = false := by decide +kernel

/-- The keyboard stays off when the switch that turned it off is removed, where the touchpad works again. -/
theorem keyboard_left_off :
    let s := run {} [.add fold4, .add keys2, .add pad1, .tablet 4 true, .remove 4]
    (s.mem 2).suspended = true ∧ (s.mem 2).disabled = false ∧ (s.mem 1).suspended = false := by decide +kernel

/-- Disabling and enabling a keyboard turns it on although tablet mode is on. -/
theorem keyboard_back_on :
    let s := run {} [.add fold4, .add keys2, .tablet 4 true, .mode 2 true, .mode 2 false]
    (s.mem 2).suspended = false ∧ (s.mem 4).on = true := by decide +kernel

/-- When the switch goes off, a keyboard that was turned on before is not announced again: its keys are heard once. -/
theorem on_not_announced :
    (step (run {} [.add fold4, .add pad1, .add keys2, .tablet 4 true, .mode 2 true, .mode 2 false, .tablet 4 false]) (.key 2)).log =
      [.typing 1 2] := by decide +kernel

/-- Two keyboards that are tablet-mode switches too, both found on, turn each other off for good. -/
theorem two_switches_off :
    let s := run {} [.add { both 2 with on0 := true }, .add pad1, .add { both 3 with on0 := true }]
    (s.mem 2).suspended = true ∧ (s.mem 3).suspended = true := by decide +kernel

/-! ## Tablets and what lies under them -/

/-- A tablet. -/
def pen11 : Info := { id := 11, kind := .tablet, group := 9 }
/-- The touch screen under it. -/
def glass12 : Info := { id := 12, touchCap := true, group := 9 }
/-- A touchpad that is turned around with its tablet. -/
def turn13 : Info := { id := 13, kind := .touchpad, group := 8, pointerCap := true, extTouchpad := true, mustRotate := true }
/-- The tablet of that. -/
def pen14 : Info := { id := 14, kind := .tablet, group := 8 }

/-- Two tablets with what is under them, that come and go. -/
def desk : List Op :=
  [.add glass12, .add pen11, .add pen14, .add turn13, .remove 12, .mode 14 true, .remove 13, .add turn13, .mode 14 false, .add glass12]

theorem desk_machine : Machine (adds desk) := ⟨by decide +kernel, by decide +kernel⟩

/-- C63: a tablet knows the one touch device under it, whichever came first. -/
theorem tablet_finds_touch {ops : List Op} (M : Machine (adds ops)) {o x : Info} (ho : o ∈ here ops) (hx : x ∈ here ops)
    (n : x.id ≠ o.id) (hb : Bel .touch o x) (ha : Alone (adds ops) .touch o) : ((run {} ops).mem o.id).touch = some x.id := by
  have e := (history M).2
  rw [← e] at ho hx
  exact (history_g M o ho x hx n trivial (by simp)).1 hb ha

example : Alone (adds desk) .touch pen11 ∧ Bel .touch pen11 glass12 ∧ ((run {} desk).mem 11).touch = some 12 ∧
    ((run {} desk).mem 14).touch = some 13 ∧ ((run {} (desk ++ [.remove 12])).mem 11).touch = none := by decide +kernel

/-- C63: a tablet knows the one external touchpad that is turned around with it. -/
theorem tablet_finds_turned {ops : List Op} (M : Machine (adds ops)) {o x : Info} (ho : o ∈ here ops) (hx : x ∈ here ops)
    (n : x.id ≠ o.id) (hb : Bel .turned o x) (ha : Alone (adds ops) .turned o) : ((run {} ops).mem o.id).turned = some x.id := by
  have e := (history M).2
  rw [← e] at ho hx
  exact (history_g M o ho x hx n trivial (by simp)).2.1 hb ha

example : Alone (adds desk) .turned pen14 ∧ Bel .turned pen14 turn13 ∧ ((run {} desk).mem 14).turned = some 13 ∧
    ((run {} desk).mem 11).turned = none := by decide +kernel

/-- C63: a touchpad that is turned around with a tablet knows its tablet while that is on. -/
theorem touchpad_finds_tablet {ops : List Op} (M : Machine (adds ops)) {o x : Info} (ho : o ∈ here ops) (hx : x ∈ here ops)
    (n : x.id ≠ o.id) (hb : Bel .pen o x) (ha : Alone (adds ops) .pen o) (on : ((run {} ops).mem x.id).suspended = false) :
    ((run {} ops).mem o.id).pen = some x.id := by
  have e := (history M).2
  rw [← e] at ho hx
  exact (history_g M o ho x hx n trivial (by simp)).2.2 hb ha on

example : Alone (adds desk) .pen turn13 ∧ Bel .pen turn13 pen14 ∧ ((run {} desk).mem 13).pen = some 14 ∧
    ((run {} (desk ++ [.remove 14])).mem 13).pen = none := by decide +kernel

end Libinput.Pairing
