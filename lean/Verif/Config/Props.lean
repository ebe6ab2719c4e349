import Verif.Config.Fresh
/-
Every configuration option of every device: a setter succeeds exactly for the values that are documented and
supported, a failing call changes nothing, and a getter returns what was last set (C29).
-/
namespace Libinput.Config
open Spec

/-! ### Runs -/

/-- What is known after a history. -/
structure After (hw : Hw) (ops : List Op) (first : Setting → Value) (wanted shown : Value) (d : Dev) : Prop where
  inv : Inv hw d
  reads : ∀ s, s ≠ .scrollButtonLock → ¬ forgetsSpeed hw s → get d s = some (lastSet hw s ops (first s))
  lock : scrolls hw = some .button → .num (bit d.lockState) = lockShown hw ops wanted shown
  noLock : scrolls hw ≠ some .button → d.lockState = false

theorem lastSet_append (hw : Hw) (s : Setting) (ops : List Op) (o : Op) (v : Value) :
    lastSet hw s (ops ++ [o]) v = lastSet hw s [o] (lastSet hw s ops v) := by
  induction ops generalizing v with
  | nil => rfl
  | cons p ops ih => cases p <;> exact ih _

theorem changeToLeftHanded_fields (a : Bool) (d : Dev) :
    ∃ b, changeToLeftHanded a d = { d with leftEnabled := b } := by
  unfold changeToLeftHanded
  split
  · exact ⟨d.leftEnabled, rfl⟩
  · split
    · exact ⟨d.leftEnabled, rfl⟩
    · exact ⟨d.leftWant, rfl⟩

theorem leftEnabled_inv {hw : Hw} {d : Dev} (h : Inv hw d) (b : Bool) : Inv hw { d with leftEnabled := b } :=
  ⟨h.1, h.2, h.3, h.4, h.5, h.6, h.7, h.8, h.9, h.10, h.11, h.12, h.13, h.14, h.15, h.16⟩

theorem get_leftEnabled (d : Dev) (b : Bool) (s : Setting) : get { d with leftEnabled := b } s = get d s := by
  cases s <;> rfl

theorem getDefault_leftEnabled (d : Dev) (b : Bool) (s : Setting) :
    getDefault { d with leftEnabled := b } s = getDefault d s := by
  cases s <;> rfl

theorem changed_scroll {hw : Hw} {d : Dev} (h : Inv hw d) (down : Bool) :
    Inv hw (changeScrollMethod down d) ∧ (∀ s, s ≠ .scrollButtonLock → get (changeScrollMethod down d) s = get d s) ∧
      (∀ s, getDefault (changeScrollMethod down d) s = getDefault d s) ∧
      (changeScrollMethod down d).scrollWantLock = d.scrollWantLock ∧
      (changeScrollMethod down d).lockState = if down then d.lockState else d.scrollWantLock := by
  unfold changeScrollMethod
  split
  · rename_i e
    refine ⟨h, fun _ _ => rfl, fun _ => rfl, rfl, ?_⟩
    cases down with
    | true => rfl
    | false => rw [h.lock]; exact e.2.2.symm
  · split
    · rename_i e
      exact ⟨h, fun _ _ => rfl, fun _ => rfl, rfl, rfl⟩
    · rename_i e
      refine ⟨?_, ?_, ?_, rfl, rfl⟩
      · exact ⟨h.1, h.2, h.3, h.4, h.5, h.6, h.7, h.8, h.9, h.10, h.11, h.12, h.13, rfl, h.15, h.16⟩
      · intro s hs
        cases s
        case scrollButtonLock => exact absurd rfl hs
        all_goals rfl
      · intro s
        cases s <;> rfl

/-- What the release of a button does. -/
theorem released_does {hw : Hw} {d : Dev} (h : Inv hw d) (down : Bool) :
    ∃ d', step d (.released down) = some d' ∧ Inv hw d' ∧ (∀ s, s ≠ .scrollButtonLock → get d' s = get d s) ∧
      (∀ s, getDefault d' s = getDefault d s) ∧ d'.scrollWantLock = d.scrollWantLock ∧
      (scrolls hw = some .button → d'.lockState = if down then d.lockState else d.scrollWantLock) ∧
      (scrolls hw ≠ some .button → d'.lockState = d.lockState) := by
  simp only [step]
  obtain ⟨b, hb⟩ := changeToLeftHanded_fields down d
  have hb' : ∃ b, (if d.leftHook = true then changeToLeftHanded down d else d) = { d with leftEnabled := b } := by
    split
    · exact ⟨b, hb⟩
    · exact ⟨d.leftEnabled, rfl⟩
  obtain ⟨b, hb⟩ := hb'
  rw [hb]
  have hi := leftEnabled_inv h b
  refine ⟨_, rfl, ?_⟩
  by_cases hs : scrolls hw = some .button
  · have : ({ d with leftEnabled := b } : Dev).scrollHook = some .button := by
      show d.scrollHook = _
      rw [h.scroll, hs]
    rw [if_pos this]
    obtain ⟨g1, g2, g3, g4, g5⟩ := changed_scroll hi down
    exact ⟨g1, fun s e => by rw [g2 s e, get_leftEnabled], fun s => by rw [g3 s, getDefault_leftEnabled], g4,
      fun _ => g5, fun e => absurd hs e⟩
  · have : ¬ ({ d with leftEnabled := b } : Dev).scrollHook = some .button := by
      show ¬ d.scrollHook = _
      rw [h.scroll]
      exact hs
    rw [if_neg this]
    exact ⟨hi, fun s _ => get_leftEnabled d b s, fun s => getDefault_leftEnabled d b s, rfl,
      fun e => absurd e hs, fun _ => rfl⟩

open Classical in
theorem run_after (hw : Hw) (ops : List Op) (d : Dev) (h : Inv hw d)
    (first : Setting → Value) (hr : ∀ s, s ≠ .scrollButtonLock → ¬ forgetsSpeed hw s → get d s = some (first s))
    (hn : scrolls hw ≠ some .button → d.lockState = false) :
    ∃ d', ops.foldlM step d = some d' ∧
      After hw ops first (.num (bit d.scrollWantLock)) (.num (bit d.lockState)) d' ∧
      ∀ s, getDefault d' s = getDefault d s := by
  induction ops generalizing d first with
  | nil => exact ⟨d, rfl, ⟨h, hr, fun _ => rfl, hn⟩, fun _ => rfl⟩
  | cons o ops ih =>
    cases o with
    | call down c =>
      obtain ⟨st, d1, hset, hdo⟩ := set_does h down c
      have hstep : step d (.call down c) = some d1 := by simp [step, hset]
      have hr1 : ∀ s, s ≠ .scrollButtonLock → ¬ forgetsSpeed hw s →
          get d1 s = some (lastSet hw s [.call down c] (first s)) := by
        intro s h1 h2
        simp only [lastSet]
        by_cases hs : st = .success
        · rw [hdo.reads hs s h1 h2, hr s h1 h2]
          by_cases e : s = about c
          · rw [if_pos e, if_pos ⟨e.symm, hdo.ok.1 hs⟩]
          · rw [if_neg e, if_neg (fun x => e x.1.symm)]
        · rw [hdo.fails hs, if_neg (fun x => hs (hdo.ok.2 x.2))]
          exact hr s h1 h2
      have hn1 : scrolls hw ≠ some .button → d1.lockState = false := by
        intro e
        by_cases hl : aboutScroll c ∧ st = .success ∧ down = false
        · -- on such a device a call about scrolling leaves the lock alone
          rw [← hn e]
          cases c <;> try exact False.elim hl.1
          case scrollMethod v =>
            rw [show set down (.scrollMethod v) d = setScrollMethod down v d from rfl] at hset
            unfold setScrollMethod at hset
            rw [h.scroll] at hset
            split at hset
            · cases hset; rfl
            · split at hset
              · cases hset; rfl
              · match hsc : scrolls hw with
                | none => rw [hsc] at hset; cases hset; rfl
                | some .button => exact absurd hsc e
                | some .touchpad =>
                  rw [hsc] at hset
                  simp only [] at hset
                  split at hset <;> (cases hset; rfl)
          case scrollButton v =>
            exact absurd (scrolls_button.2 (hdo.ok.1 hl.2.1).2) e
          case scrollButtonLock v =>
            exact absurd (scrolls_button.2 (hdo.ok.1 hl.2.1).2) e
        · rw [hdo.lockKept hl, hn e]
      obtain ⟨d2, hrun, haft, hdef⟩ := ih d1 hdo.inv (fun s => lastSet hw s [.call down c] (first s)) hr1 hn1
      refine ⟨d2, by rw [List.foldlM_cons, hstep]; exact hrun, ⟨haft.inv, ?_, ?_, haft.noLock⟩, fun s => by rw [hdef s, hdo.defaults s]⟩
      · intro s h1 h2
        rw [haft.reads s h1 h2]
        rfl
      · intro hs
        rw [haft.lock hs]
        simp only [lockShown]
        have hw1 : (if about c = .scrollButtonLock ∧ acceptable hw c then asRead c else Value.num (bit d.scrollWantLock)) =
            Value.num (bit d1.scrollWantLock) := by
          by_cases e : about c = .scrollButtonLock
          · by_cases ha : acceptable hw c
            · rw [if_pos ⟨e, ha⟩, hdo.wish (hdo.ok.2 ha) e]
            · rw [if_neg (fun x => ha x.2), hdo.fails (fun x => ha (hdo.ok.1 x))]
          · rw [if_neg (fun x => e x.1), hdo.wishKept e]
        rw [hw1]
        congr 1
        by_cases hl : aboutScroll c ∧ st = .success ∧ down = false
        · rw [if_pos ⟨hl.1, hdo.ok.1 hl.2.1, by simp [hl.2.2]⟩, hdo.lock hs hl.1 hl.2.1 hl.2.2]
        · rw [if_neg (fun x => hl ⟨x.1, hdo.ok.2 x.2.1, by simpa using x.2.2⟩), hdo.lockKept hl]
    | released down =>
      obtain ⟨d1, hstep, h1, hg, hgd, hwl, hl1, hl2⟩ := released_does h down
      obtain ⟨d2, hrun, haft, hdef⟩ := ih d1 h1 first
        (fun s a b => by rw [hg s a, hr s a b]) (fun e => by rw [hl2 e, hn e])
      refine ⟨d2, by rw [List.foldlM_cons, hstep]; exact hrun, ⟨haft.inv, ?_, ?_, haft.noLock⟩, fun s => by rw [hdef s, hgd s]⟩
      · intro s h1 h2
        rw [haft.reads s h1 h2]
        rfl
      · intro hs
        rw [haft.lock hs]
        simp only [lockShown]
        rw [hwl, hl1 hs]
        cases down <;> rfl

/-- A history never fails, and what is known after it. -/
theorem run_spec (hw : Hw) (ops : List Op) : ∃ d, run hw ops = some d ∧
    After hw ops (atFirst hw) (.num 0) (.num 0) d ∧ ∀ s, getDefault d s = some (atFirst hw s) := by
  obtain ⟨d0, hc, hi, hw0, hl0, hg, hgd⟩ := create_values hw
  obtain ⟨d, hr, ha, hd⟩ := run_after hw ops d0 hi (atFirst hw) (fun s _ _ => hg s) (fun _ => hl0)
  rw [hw0, hl0] at ha
  exact ⟨d, by simp only [run, hc]; exact hr, ha, fun s => by rw [hd s, hgd s]⟩

theorem run_inv {hw : Hw} {ops : List Op} {d : Dev} (h : run hw ops = some d) : Inv hw d := by
  obtain ⟨d', h', ha, _⟩ := run_spec hw ops
  rw [h] at h'
  cases h'
  exact ha.inv

/-! ### The property -/

/-- No history of calls makes the library call a missing function or fail an assertion: every call and every
getter works afterwards. -/
theorem calls_never_crash (hw : Hw) (ops : List Op) : ∃ d, run hw ops = some d ∧
    (∀ down c, ∃ st d', set down c d = some (st, d')) ∧ (∀ s, ∃ v, get d s = some v) ∧
    (∀ s, ∃ v, getDefault d s = some v) := by
  obtain ⟨d, h, ha, hd⟩ := run_spec hw ops
  refine ⟨d, h, ?_, ?_, fun s => ⟨_, hd s⟩⟩
  · intro down c
    obtain ⟨st, d', e, _⟩ := set_does ha.inv down c
    exact ⟨st, d', e⟩
  · intro s
    by_cases h1 : s = .scrollButtonLock
    · subst h1
      simp only [get]
      by_cases hs : scrollsOnButton hw
      · rw [if_neg (fun e => (button_bit ha.inv).1 e hs), ha.inv.scroll, scrolls_button.2 hs]
        exact ⟨_, rfl⟩
      · rw [if_pos ((button_bit ha.inv).2 hs)]
        exact ⟨_, rfl⟩
    · by_cases h2 : forgetsSpeed hw s
      · obtain ⟨rfl, hk⟩ := h2
        have hA : accels hw = true := by rcases hk with e | e <;> simp [accels, e]
        obtain ⟨f, hf, _⟩ := ha.inv.filt hA
        have : accelAvailable d = true := by unfold accelAvailable; rw [ha.inv.accel, hA]
        exact ⟨.real f.speed, by simp only [get, this, if_true, hf]⟩
      · exact ⟨_, ha.reads s h1 h2⟩

/-- After any history, a call succeeds exactly if its value is documented and supported; "invalid" is only
returned for a value that is not documented and "unsupported" only for one that is not supported. -/
theorem call_succeeds_iff {hw : Hw} {ops : List Op} {d : Dev} (h : run hw ops = some d) {down : Bool} {c : Call}
    {st : Status} {d' : Dev} (hs : set down c d = some (st, d')) :
    (st = .success ↔ documented hw c ∧ supported hw c) ∧ (st = .invalid → ¬ documented hw c) ∧
      (st = .unsupported → ¬ supported hw c) := by
  obtain ⟨st1, d1, e, hd⟩ := set_does (run_inv h) down c
  rw [hs] at e
  cases e
  exact ⟨hd.ok, hd.invalid, hd.unsupported⟩

/-- A call that does not succeed changes nothing at all. -/
theorem failed_call_changes_nothing {hw : Hw} {ops : List Op} {d : Dev} (h : run hw ops = some d) {down : Bool}
    {c : Call} {st : Status} {d' : Dev} (hs : set down c d = some (st, d')) (hf : st ≠ .success) : d' = d := by
  obtain ⟨st1, d1, e, hd⟩ := set_does (run_inv h) down c
  rw [hs] at e
  cases e
  exact hd.fails hf

/-- After any history every getter returns the value most recently set by a call that ought to succeed, or
else the first value: calls about other options, failing calls and button releases do not disturb it.
Exceptions: the button lock (next theorem) and the speed of tablets and totems (`tablet_speed_is_zero`). -/
theorem getter_follows_history {hw : Hw} {ops : List Op} {d : Dev} (h : run hw ops = some d) (s : Setting)
    (h1 : s ≠ .scrollButtonLock) (h2 : ¬ forgetsSpeed hw s) :
    get d s = some (lastSet hw s ops (atFirst hw s)) := by
  obtain ⟨d', h', ha, _⟩ := run_spec hw ops
  rw [h] at h'
  cases h'
  exact ha.reads s h1 h2

/-- The button lock: the getter shows the value most recently set, but only from the first moment on at
which the code looked and no button was down. -/
theorem lock_follows_history {hw : Hw} {ops : List Op} {d : Dev} (h : run hw ops = some d) :
    (scrollsOnButton hw → get d .scrollButtonLock = some (lockShown hw ops (.num 0) (.num 0))) ∧
      (¬ scrollsOnButton hw → get d .scrollButtonLock = some (.num 0)) := by
  obtain ⟨d', h', ha, _⟩ := run_spec hw ops
  rw [h] at h'
  cases h'
  simp only [get]
  constructor
  · intro hs
    rw [if_neg (fun e => (button_bit ha.inv).1 e hs), ha.inv.scroll, scrolls_button.2 hs,
      ← ha.lock (scrolls_button.2 hs)]
  · intro hs
    rw [if_pos ((button_bit ha.inv).2 hs)]

/-- After a call that succeeds while no button is down, the getter of its option returns the value set, at
once, and no other getter changes, apart from the button lock, which may follow an earlier wish. -/
theorem set_then_get {hw : Hw} {ops : List Op} {d : Dev} (h : run hw ops = some d) {c : Call} {d' : Dev}
    (hs : set false c d = some (.success, d')) (hf : ¬ forgetsSpeed hw (about c)) :
    get d' (about c) = some (asRead c) ∧
      ∀ s, s ≠ about c → s ≠ .scrollButtonLock → get d' s = get d s := by
  obtain ⟨st1, d1, e, hd⟩ := set_does (run_inv h) false c
  rw [hs] at e
  cases e
  constructor
  · by_cases hl : about c = .scrollButtonLock
    · rw [hl]
      have hon : scrollsOnButton hw := by
        cases c <;> simp [about] at hl
        exact (hd.ok.1 rfl).2
      have hac : aboutScroll c := by
        cases c <;> simp [about] at hl
        trivial
      have hi := hd.inv
      simp only [get]
      rw [if_neg (fun e => (button_bit hi).1 e hon), hi.scroll, scrolls_button.2 hon,
        hd.lock (scrolls_button.2 hon) hac rfl rfl]
      simp only []
      rw [hd.wish rfl hl]
    · rw [hd.reads rfl _ hl hf, if_pos rfl]
  · intro s h1 h2
    by_cases h3 : forgetsSpeed hw s
    · obtain ⟨rfl, hk⟩ := h3
      have hA : accels hw = true := by rcases hk with e | e <;> simp [accels, e]
      have hT : isTabletKind hw.kind = true := by rcases hk with e | e <;> simp [isTabletKind, e]
      have key : ∀ x : Dev, Inv hw x → get x .speed = some (.real (.fin 0)) := by
        intro x hx
        obtain ⟨f, hf, _, _, h0⟩ := hx.filt hA
        have : accelAvailable x = true := by unfold accelAvailable; rw [hx.accel, hA]
        simp only [get, this, if_true, hf, h0 hT]
      rw [key _ hd.inv, key _ (run_inv h)]
    · rw [hd.reads rfl s h2 h3, if_neg h1]

/-- The default of an option never changes: it is what the option was at first. -/
theorem default_is_first_value {hw : Hw} {ops : List Op} {d : Dev} (h : run hw ops = some d) (s : Setting) :
    getDefault d s = some (atFirst hw s) := by
  obtain ⟨d', h', _, hd⟩ := run_spec hw ops
  rw [h] at h'
  cases h'
  exact hd s

/-- What the caller is told about the device is what its setters then accept. -/
theorem queries_agree {hw : Hw} {ops : List Op} {d : Dev} (h : run hw ops = some d) :
    tapFingerCount d = (if hw.kind = .touchpad then min hw.ntouches 3 else 0) ∧
      (hasMatrix d = true ↔ offers hw .calibration) ∧
      (∀ v, sendModes d &&& v = v ↔ supported hw (.sendEvents v)) ∧
      (accelAvailable d = true ↔ offers hw .speed) ∧
      (∀ v, v = 1 ∨ v = 2 → (profiles d &&& v = v ↔ supported hw (.profile v))) ∧
      (∀ v, v = 0 ∨ v = 1 ∨ v = 2 → (getClickMethods d &&& v = v ↔ supported hw (.clickMethod v))) ∧
      (middleAvailable d = true ↔ offers hw .middleEmulation) ∧
      (∀ v, v = 0 ∨ v = 1 ∨ v = 2 ∨ v = 4 → (getScrollMethods d &&& v = v ↔ supported hw (.scrollMethod v))) ∧
      (d.naturalHook = true ↔ offers hw .natural) ∧ (d.leftHook = true ↔ offers hw .leftHanded) ∧
      (d.dwtHook = true ↔ offers hw .dwt) ∧ (d.rotationHook = true ↔ offers hw .rotation) := by
  have hi := run_inv h
  have viaStatus : ∀ (c : Call) (p : Prop), documented hw c →
      ((∃ d', set false c d = some (.success, d')) ↔ p) → (p ↔ supported hw c) := by
    intro c p hdoc hp
    obtain ⟨st, d', e, hd⟩ := set_does hi false c
    rw [← hp]
    constructor
    · rintro ⟨d1, e1⟩
      rw [e] at e1
      cases e1
      exact (hd.ok.1 rfl).2
    · intro hs
      have := hd.ok.2 ⟨hdoc, hs⟩
      subst this
      exact ⟨d', e⟩
  refine ⟨?_, hasMatrix_iff hi, ?_, ?_, ?_, ?_, middle_iff hi, ?_, ?_, ?_, ?_, ?_⟩
  · unfold tapFingerCount
    rw [hi.tap, hi.same]
    by_cases e : hw.kind = .touchpad <;> simp [e]
  · intro v
    rw [sendModes_eq hi]
    unfold supported
    split
    · rename_i e
      rw [and_three_eq]
      simp [e]
    · rename_i e
      rw [and_one_eq]
      constructor
      · rintro (e1 | e1)
        · exact .inl e1
        · exact .inr (.inl e1)
      · rintro (e1 | e1 | e1)
        · exact .inl e1
        · exact .inr e1
        · exact absurd e1.2 e
  · unfold accelAvailable
    rw [hi.accel]
    exact accelHook_iff
  · intro v hv
    rw [show supported hw (.profile v) = offers hw .profile from rfl, ← profile_offers]
    unfold profiles accelAvailable
    rw [hi.accel]
    cases ha : accels hw with
    | false => rcases hv with rfl | rfl <;> simp
    | true =>
      obtain ⟨f, hf, _⟩ := hi.filt ha
      rw [hi.prof ha, hf]
      cases hp : profHook hw.kind <;> rcases hv with rfl | rfl <;> simp <;> decide
  · intro v hv
    refine viaStatus (.clickMethod v) _ hv ?_
    simp only [set, setClick]
    rw [if_neg (by rcases hv with rfl | rfl | rfl <;> simp)]
    by_cases e : getClickMethods d &&& v = v
    · rw [if_neg (by simp [e])]
      simp only [e, iff_true]
      split <;> exact ⟨_, rfl⟩
    · rw [if_pos e]
      simp [e]
  · intro v hv
    refine viaStatus (.scrollMethod v) _ hv ?_
    simp only [set, setScrollMethod]
    rw [if_neg (by rcases hv with rfl | rfl | rfl | rfl <;> simp)]
    by_cases e : getScrollMethods d &&& v = v
    · rw [if_neg (by simp [e])]
      simp only [e, iff_true]
      split
      · exact ⟨_, rfl⟩
      · exact ⟨_, rfl⟩
      · split <;> exact ⟨_, rfl⟩
    · rw [if_pos e]
      simp [e]
  · rw [hi.nat]; simp [offers, wheelKb]
  · rw [hi.left]; cases hk : hw.kind <;> simp [offers, lefts, hk]
  · rw [hi.dwtH]; simp [offers]
  · rw [hi.rot]; simp [offers]

/-! ### Where the getter does not return the value set -/

/-- The speed of a tablet or totem: the call succeeds for every documented value, and the getter goes on
returning 0. -/
theorem tablet_speed_is_zero {hw : Hw} {ops : List Op} {d : Dev} (h : run hw ops = some d)
    (hk : hw.kind = .tablet ∨ hw.kind = .totem) : get d .speed = some (.real (.fin 0)) ∧
      ∀ down (q : Rat), -1 ≤ q → q ≤ 1 → set down (.speed (.fin q)) d = some (.success, d) := by
  have hi := run_inv h
  have hA : accels hw = true := by rcases hk with e | e <;> simp [accels, e]
  have hT : isTabletKind hw.kind = true := by rcases hk with e | e <;> simp [isTabletKind, e]
  obtain ⟨f, hf, _, hf2, h0⟩ := hi.filt hA
  have hav : accelAvailable d = true := by unfold accelAvailable; rw [hi.accel, hA]
  constructor
  · simp only [get, hav, if_true, hf, h0 hT]
  · intro down q h1 h2
    have hr : inRange (.fin q) = true := (inRange_iff _).2 ⟨q, rfl, h1, h2⟩
    simp only [set, setSpeed, hr, hav, accelSetSpeed, hf, setSpeed_tablet (hf2.2 hT) hr]
    have hself : { d with filter := some f } = d := by rw [← hf]
    rw [hself]
    rfl

/-- A mouse with three buttons and a wheel. -/
def aMouse : Hw :=
  { kind := .fallback, key := fun c => decide (c = 0x110 ∨ c = 0x111 ∨ c = 0x112),
    rel := fun c => decide (c = 0 ∨ c = 1 ∨ c = 8), absXY := false, udevMatrix := none, reversible := false,
    direct := false, mouseTag := true, keyboardTag := false, trackpoint := false, trackball := false,
    lowDpi := false, ntouches := 0, hasMt := false, clickpad := false, internal := false, tpkbBelow := false,
    onebutton := false, clickfingerQuirk := false, apple := false, noTwoFinger := false, alps := false,
    x230 := false }

/-- A clickpad built into a laptop. -/
def aClickpad : Hw :=
  { aMouse with kind := .touchpad, key := fun c => decide (c = 0x110), rel := fun _ => false, mouseTag := false, ntouches := 5, hasMt := true, clickpad := true, internal := true }

/-- A graphics tablet. -/
def aTablet : Hw := { aMouse with kind := .tablet, absXY := true, reversible := true, direct := true, mouseTag := false }

/-- What happens on a device, as the caller sees it: status and getter of each call. -/
def trace (hw : Hw) (ops : List Op) (s : Setting) : Option Value :=
  match run hw ops with
  | none => none
  | some d => get d s

/-- The button lock set while a button is down: the getter returns the old value until the button is
released. -/
theorem lock_getter_lags :
    trace aMouse [.call true (.scrollButtonLock 1)] .scrollButtonLock = some (.num 0) ∧
      trace aMouse [.call true (.scrollButtonLock 1), .released false] .scrollButtonLock = some (.num 1) := by
  constructor <;> decide

/-- A touchpad of a model for which clickfinger is the default but which has physical buttons: the default is
a method the setter refuses. -/
theorem default_not_supported :
    ∃ hw d, run hw [] = some d ∧ getDefault d .clickMethod = some (.num 2) ∧
      ∃ d', set false (.clickMethod 2) d = some (.unsupported, d') := by
  obtain ⟨d, h, _⟩ := run_spec { aClickpad with clickpad := false, clickfingerQuirk := true } []
  refine ⟨_, d, h, ?_, ?_⟩
  · rw [default_is_first_value h]
    simp [atFirst, aClickpad]
  · obtain ⟨st, d', e, hd⟩ := set_does (run_inv h) false (.clickMethod 2)
    refine ⟨d', ?_⟩
    rw [e]
    cases st with
    | unsupported => rfl
    | success => exact absurd (hd.ok.1 rfl).2 (by simp [supported, aClickpad, aMouse])
    | invalid => exact absurd (.inr (.inr rfl)) (hd.invalid rfl)

/-! ### The hypotheses are met -/

/-- A mouse takes a speed, refuses one out of range, one that is not a number and tapping, and the getters
follow. -/
example : trace aMouse [.call false (.speed (.fin (1/2))), .call false (.speed (.fin 2)), .call true (.speed .nan),
    .call false (.profile 1)] .speed = some (.real (.fin (1/2))) := by decide +kernel

example : trace aMouse [.call false (.profile 1)] .profile = some (.num 1) := by decide +kernel

example : trace aMouse [.call false (.tapEnabled 1)] .tapEnabled = some (.num 0) := by decide +kernel

example : trace aMouse [.call false (.scrollMethod 4), .call false (.scrollButton 0x111), .call false (.scrollButton 0x115)]
    .scrollButton = some (.num 0x111) := by decide +kernel

example : trace aClickpad [.call false (.clickMethod 2), .call false (.clickMethod 3)] .clickMethod = some (.num 2) := by
  decide +kernel

example : trace aClickpad [.call false (.sendEvents 3)] .sendEvents = some (.num 1) := by decide +kernel

example : trace aTablet [.call false (.calibration ⟨.fin 2, .fin 0, .fin 0, .fin 0, .fin 1, .fin 0⟩)] .calibration =
    some (.matrix (some ⟨.fin 2, .fin 0, .fin 0, .fin 0, .fin 1, .fin 0⟩) true) := by decide +kernel

example : trace aTablet [.call false (.speed (.fin 1))] .speed = some (.real (.fin 0)) := by decide +kernel

example : forgetsSpeed aTablet .speed ∧ ¬ forgetsSpeed aMouse .speed ∧ ¬ forgetsSpeed aTablet .leftHanded := by
  simp [forgetsSpeed, aTablet, aMouse]

example : acceptable aMouse (.scrollButtonLock 1) ∧ ¬ acceptable aMouse (.scrollMethod 1) := by
  simp [acceptable, documented, supported, offers, scrollsOnButton, aMouse]

end Libinput.Config
