import Verif.Config.Lemmas
/-
What one call does.
-/
namespace Libinput.Config
open Spec

/-- What a call ought to do: the status is right, the hooks stay, only the setting of the call changes, and
only if it succeeds; the button lock may also follow an earlier wish. -/
structure Does (hw : Hw) (down : Bool) (c : Call) (d : Dev) (st : Status) (d' : Dev) : Prop where
  inv : Inv hw d'
  ok : st = .success ↔ acceptable hw c
  invalid : st = .invalid → ¬ documented hw c
  unsupported : st = .unsupported → ¬ supported hw c
  fails : st ≠ .success → d' = d
  reads : st = .success → ∀ s, s ≠ .scrollButtonLock → ¬ forgetsSpeed hw s →
    get d' s = if s = about c then some (asRead c) else get d s
  wish : st = .success → about c = .scrollButtonLock → .num (bit d'.scrollWantLock) = asRead c
  wishKept : about c ≠ .scrollButtonLock → d'.scrollWantLock = d.scrollWantLock
  lock : scrolls hw = some .button → aboutScroll c → st = .success → down = false →
    d'.lockState = d'.scrollWantLock
  lockKept : ¬ (aboutScroll c ∧ st = .success ∧ down = false) → d'.lockState = d.lockState
  defaults : ∀ s, getDefault d' s = getDefault d s

/-- A call that fails. -/
theorem Does.failed {hw : Hw} {down : Bool} {c : Call} {d : Dev} {st : Status} (h : Inv hw d)
    (hs : st ≠ .success) (hn : ¬ acceptable hw c) (hi : st = .invalid → ¬ documented hw c)
    (hu : st = .unsupported → ¬ supported hw c) : Does hw down c d st d where
  inv := h
  ok := ⟨fun e => absurd e hs, fun e => absurd e hn⟩
  invalid := hi
  unsupported := hu
  fails := fun _ => rfl
  reads := fun e => absurd e hs
  wish := fun e => absurd e hs
  wishKept := fun _ => rfl
  lock := fun _ _ e => absurd e hs
  lockKept := fun _ => rfl
  defaults := fun _ => rfl

/-- A call that is not about scrolling and succeeds. -/
theorem Does.done {hw : Hw} {down : Bool} {c : Call} {d d' : Dev} (hi : Inv hw d') (ha : acceptable hw c)
    (hr : ∀ s, s ≠ .scrollButtonLock → ¬ forgetsSpeed hw s →
      get d' s = if s = about c then some (asRead c) else get d s)
    (hc : ¬ aboutScroll c) (hw1 : d'.scrollWantLock = d.scrollWantLock) (hl : d'.lockState = d.lockState)
    (hd : ∀ s, getDefault d' s = getDefault d s) : Does hw down c d .success d' where
  inv := hi
  ok := by simp [ha]
  invalid := by simp
  unsupported := by simp
  fails := by simp
  reads := fun _ => hr
  wish := fun _ e => by
    cases c <;> simp [about] at e
    exact absurd trivial hc
  wishKept := fun _ => hw1
  lock := fun _ e => absurd e hc
  lockKept := fun _ => hl
  defaults := hd

theorem tapFingerCount_zero {hw : Hw} {d : Dev} (h : Inv hw d) :
    tapFingerCount d = 0 ↔ ¬ (hw.kind = .touchpad ∧ hw.ntouches > 0) := by
  unfold tapFingerCount
  rw [h.tap, h.same]
  by_cases hk : hw.kind = .touchpad
  · simp [hk]
  · simp [hk]

theorem setTapEnabled_does {hw : Hw} {d : Dev} (h : Inv hw d) (down : Bool) (v : Nat) :
    ∃ st d', setTapEnabled v d = some (st, d') ∧ Does hw down (.tapEnabled v) d st d' := by
  have hz := tapFingerCount_zero h
  unfold setTapEnabled
  by_cases hv : v ≠ ENABLED ∧ v ≠ DISABLED
  · rw [if_pos hv]
    have hv' : ¬ (v = 0 ∨ v = 1) := fun e => e.elim (fun e => hv.2 e) (fun e => hv.1 e)
    exact ⟨_, _, rfl, Does.failed h (by simp) (fun e => hv' e.1) (fun _ e => hv' e) (by simp)⟩
  have hv' : v = 0 ∨ v = 1 := by
    by_cases h0 : v = 0
    · exact .inl h0
    · exact .inr (Classical.byContradiction fun h1 => hv ⟨h1, h0⟩)
  rw [if_neg hv]
  by_cases ht : tapFingerCount d = 0
  · rw [if_pos ht]
    have ho := hz.1 ht
    by_cases h0 : v = 0
    · subst h0
      refine ⟨_, _, rfl, Does.done h ⟨.inl rfl, .inl rfl⟩ ?_ (by simp [aboutScroll]) rfl rfl (fun _ => rfl)⟩
      intro s _ _
      cases s <;> simp [get, about, asRead, ht]
    · rw [if_pos h0]
      exact ⟨_, _, rfl, Does.failed h (by simp) (fun e => e.2.elim h0 ho) (by simp) (fun _ e => e.elim h0 ho)⟩
  · rw [if_neg ht]
    have ho : hw.kind = .touchpad ∧ hw.ntouches > 0 := Classical.byContradiction fun e => ht (hz.2 e)
    have hh : d.tapHook = true := by rw [h.tap]; simp [ho.1]
    rw [if_pos hh]
    refine ⟨_, _, rfl, Does.done ?_ ?_ ?_ (by simp [aboutScroll]) rfl rfl (fun s => by cases s <;> rfl)⟩
    · exact ⟨h.1, h.2, h.3, h.4, h.5, h.6, h.7, h.8, h.9, h.10, h.11, h.12, h.13, h.14, h.15, h.16⟩
    · exact ⟨hv', .inr ho⟩
    · intro s _ _
      cases s
      case tapEnabled =>
        rcases hv' with rfl | rfl <;> simp_all [get, about, asRead, tapFingerCount, bit]
      all_goals rfl

theorem setTapMap_does {hw : Hw} {d : Dev} (h : Inv hw d) (down : Bool) (v : Nat) :
    ∃ st d', setTapMap v d = some (st, d') ∧ Does hw down (.tapMap v) d st d' := by
  have hz := tapFingerCount_zero h
  unfold setTapMap
  by_cases hv : v ≠ TAP_MAP_LRM ∧ v ≠ TAP_MAP_LMR
  · rw [if_pos hv]
    have hv' : ¬ (v = 0 ∨ v = 1) := fun e => e.elim (fun e => hv.1 e) (fun e => hv.2 e)
    exact ⟨_, _, rfl, Does.failed h (by simp) (fun e => hv' e.1) (fun _ e => hv' e) (by simp)⟩
  have hv' : v = 0 ∨ v = 1 := by
    by_cases h0 : v = 0
    · exact .inl h0
    · exact .inr (Classical.byContradiction fun h1 => hv ⟨h0, h1⟩)
  rw [if_neg hv]
  by_cases ht : tapFingerCount d = 0
  · rw [if_pos ht]
    have ho := hz.1 ht
    exact ⟨_, _, rfl, Does.failed h (by simp) (fun e => ho e.2) (by simp) (fun _ e => ho e)⟩
  · rw [if_neg ht]
    have ho : hw.kind = .touchpad ∧ hw.ntouches > 0 := Classical.byContradiction fun e => ht (hz.2 e)
    have hh : d.tapHook = true := by rw [h.tap]; simp [ho.1]
    rw [if_pos hh]
    refine ⟨_, _, rfl, Does.done ?_ ?_ ?_ (by simp [aboutScroll]) rfl rfl (fun s => by cases s <;> rfl)⟩
    · exact ⟨h.1, h.2, h.3, h.4, h.5, h.6, h.7, h.8, h.9, h.10, h.11, h.12, h.13, h.14, h.15, h.16⟩
    · exact ⟨hv', ho⟩
    · intro s _ _
      cases s
      case tapMap =>
        rcases hv' with rfl | rfl <;> simp_all [get, about, asRead, tapFingerCount, bit]
      all_goals rfl

theorem setTapDrag_does {hw : Hw} {d : Dev} (h : Inv hw d) (down : Bool) (v : Nat) :
    ∃ st d', setTapDrag v d = some (st, d') ∧ Does hw down (.tapDrag v) d st d' := by
  have hz := tapFingerCount_zero h
  unfold setTapDrag
  by_cases hv : v ≠ ENABLED ∧ v ≠ DISABLED
  · rw [if_pos hv]
    have hv' : ¬ (v = 0 ∨ v = 1) := fun e => e.elim (fun e => hv.2 e) (fun e => hv.1 e)
    exact ⟨_, _, rfl, Does.failed h (by simp) (fun e => hv' e.1) (fun _ e => hv' e) (by simp)⟩
  have hv' : v = 0 ∨ v = 1 := by
    by_cases h0 : v = 0
    · exact .inl h0
    · exact .inr (Classical.byContradiction fun h1 => hv ⟨h1, h0⟩)
  rw [if_neg hv]
  by_cases ht : tapFingerCount d = 0
  · rw [if_pos ht]
    have ho := hz.1 ht
    by_cases h0 : v = 0
    · subst h0
      refine ⟨_, _, rfl, Does.done h ⟨.inl rfl, .inl rfl⟩ ?_ (by simp [aboutScroll]) rfl rfl (fun _ => rfl)⟩
      intro s _ _
      cases s <;> simp [get, about, asRead, ht]
    · rw [if_pos h0]
      exact ⟨_, _, rfl, Does.failed h (by simp) (fun e => e.2.elim h0 ho) (by simp) (fun _ e => e.elim h0 ho)⟩
  · rw [if_neg ht]
    have ho : hw.kind = .touchpad ∧ hw.ntouches > 0 := Classical.byContradiction fun e => ht (hz.2 e)
    have hh : d.tapHook = true := by rw [h.tap]; simp [ho.1]
    rw [if_pos hh]
    refine ⟨_, _, rfl, Does.done ?_ ?_ ?_ (by simp [aboutScroll]) rfl rfl (fun s => by cases s <;> rfl)⟩
    · exact ⟨h.1, h.2, h.3, h.4, h.5, h.6, h.7, h.8, h.9, h.10, h.11, h.12, h.13, h.14, h.15, h.16⟩
    · exact ⟨hv', .inr ho⟩
    · intro s _ _
      cases s
      case tapDrag =>
        rcases hv' with rfl | rfl <;> simp_all [get, about, asRead, tapFingerCount, bit]
      all_goals rfl

theorem setTapDragLock_does {hw : Hw} {d : Dev} (h : Inv hw d) (down : Bool) (v : Nat) :
    ∃ st d', setTapDragLock v d = some (st, d') ∧ Does hw down (.tapDragLock v) d st d' := by
  have hz := tapFingerCount_zero h
  unfold setTapDragLock
  by_cases hv : v ≠ ENABLED ∧ v ≠ DISABLED
  · rw [if_pos hv]
    have hv' : ¬ (v = 0 ∨ v = 1) := fun e => e.elim (fun e => hv.2 e) (fun e => hv.1 e)
    exact ⟨_, _, rfl, Does.failed h (by simp) (fun e => hv' e.1) (fun _ e => hv' e) (by simp)⟩
  have hv' : v = 0 ∨ v = 1 := by
    by_cases h0 : v = 0
    · exact .inl h0
    · exact .inr (Classical.byContradiction fun h1 => hv ⟨h1, h0⟩)
  rw [if_neg hv]
  by_cases ht : tapFingerCount d = 0
  · rw [if_pos ht]
    have ho := hz.1 ht
    by_cases h0 : v = 0
    · subst h0
      refine ⟨_, _, rfl, Does.done h ⟨.inl rfl, .inl rfl⟩ ?_ (by simp [aboutScroll]) rfl rfl (fun _ => rfl)⟩
      intro s _ _
      cases s <;> simp [get, about, asRead, ht]
    · rw [if_pos h0]
      exact ⟨_, _, rfl, Does.failed h (by simp) (fun e => e.2.elim h0 ho) (by simp) (fun _ e => e.elim h0 ho)⟩
  · rw [if_neg ht]
    have ho : hw.kind = .touchpad ∧ hw.ntouches > 0 := Classical.byContradiction fun e => ht (hz.2 e)
    have hh : d.tapHook = true := by rw [h.tap]; simp [ho.1]
    rw [if_pos hh]
    refine ⟨_, _, rfl, Does.done ?_ ?_ ?_ (by simp [aboutScroll]) rfl rfl (fun s => by cases s <;> rfl)⟩
    · exact ⟨h.1, h.2, h.3, h.4, h.5, h.6, h.7, h.8, h.9, h.10, h.11, h.12, h.13, h.14, h.15, h.16⟩
    · exact ⟨hv', .inr ho⟩
    · intro s _ _
      cases s
      case tapDragLock =>
        rcases hv' with rfl | rfl <;> simp_all [get, about, asRead, tapFingerCount, bit]
      all_goals rfl

theorem hasMatrix_iff {hw : Hw} {d : Dev} (h : Inv hw d) : hasMatrix d = true ↔ offers hw .calibration := by
  unfold hasMatrix
  rw [h.cal, h.same]
  simp only [offers, Bool.and_eq_true, Bool.or_eq_true, decide_eq_true_eq]
  exact ⟨fun e => ⟨e.2, e.1⟩, fun e => ⟨e.2, e.1⟩⟩

theorem toSix_ofSix (m : Six) : (Matrix.ofSix m).toSix = m := rfl

theorem is_iff (a : Num) (n : Int) : a.is n = true ↔ a = .fin n := by simp [Num.is]

theorem isIdentity_iff (m : Six) : (Matrix.ofSix m).isIdentity = true ↔ m = identity := by
  obtain ⟨a, b, c, d, e, f⟩ := m
  simp only [Matrix.isIdentity, Matrix.ofSix, Matrix.identity, Bool.and_eq_true, is_iff, identity, Six.mk.injEq]
  simp [and_assoc]

theorem isIdentity_ofSix (m : Six) : (!(Matrix.ofSix m).isIdentity) = decide (m ≠ identity) := by
  by_cases h : m = identity
  · rw [(isIdentity_iff m).2 h]; simp [h]
  · have : (Matrix.ofSix m).isIdentity = false := by
      cases e : (Matrix.ofSix m).isIdentity with
      | false => rfl
      | true => exact absurd ((isIdentity_iff m).1 e) h
    simp [this, h]

theorem setCalibration_does {hw : Hw} {d : Dev} (h : Inv hw d) (down : Bool) (m : Six) :
    ∃ st d', setCalibration m d = some (st, d') ∧ Does hw down (.calibration m) d st d' := by
  have hz := hasMatrix_iff h
  unfold setCalibration
  cases hm : hasMatrix d with
  | false =>
    have hn : ¬ offers hw .calibration := fun e => by rw [hz.2 e] at hm; simp at hm
    exact ⟨_, _, rfl, Does.failed h (by simp) (fun e => hn e.2) (by simp) (fun _ e => hn e)⟩
  | true =>
    have hc : d.calibrationHook = true := by
      unfold hasMatrix at hm
      simp only [Bool.and_eq_true] at hm
      exact hm.1
    rw [if_neg (by simp), if_pos hc]
    refine ⟨_, _, rfl, Does.done ?_ ⟨trivial, hz.1 hm⟩ ?_ (by simp [aboutScroll]) rfl rfl
      (fun s => by cases s <;> rfl)⟩
    · exact ⟨h.1, h.2, h.3, h.4, h.5, h.6, h.7, h.8, h.9, h.10, h.11, h.12, h.13, h.14, h.15, h.16⟩
    · intro s _ _
      cases s
      case calibration =>
        simp only [get, about, if_true]
        rw [if_pos (show hasMatrix (calibrate d m) = true from hm)]
        simp only [calibrate, toSix_ofSix, isIdentity_ofSix, asRead]
      all_goals rfl

theorem sendModes_eq {hw : Hw} {d : Dev} (h : Inv hw d) :
    sendModes d = if hw.kind = .touchpad ∧ hw.internal = true then 3 else 1 := by
  unfold sendModes
  rw [h.send, h.same]
  cases hw.kind <;> cases hw.internal <;> rfl

theorem and_one_eq (v : Nat) : 1 &&& v = v ↔ v = 0 ∨ v = 1 := by
  constructor
  · intro e
    have := Nat.and_le_left (n := 1) (m := v)
    omega
  · rintro (rfl | rfl) <;> rfl

theorem and_three_eq (v : Nat) : 3 &&& v = v ↔ v = 0 ∨ v = 1 ∨ v = 2 ∨ v = 3 := by
  constructor
  · intro e
    have := Nat.and_le_left (n := 3) (m := v)
    omega
  · rintro (rfl | rfl | rfl | rfl) <;> rfl

theorem setSendEvents_does {hw : Hw} {d : Dev} (h : Inv hw d) (down : Bool) (v : Nat) :
    ∃ st d', setSendEvents v d = some (st, d') ∧ Does hw down (.sendEvents v) d st d' := by
  have hm := sendModes_eq h
  have key : (sendModes d &&& v = v) ↔ supported hw (.sendEvents v) := by
    rw [hm]
    unfold supported
    split
    · rename_i e
      rw [and_three_eq]
      simp [e]
    · rename_i e
      rw [and_one_eq]
      constructor
      · rintro (e1 | e1)
        · exact .inl e1
        · exact .inr (.inl e1)
      · rintro (e1 | e1 | e1)
        · exact .inl e1
        · exact .inr e1
        · exact absurd e1.2 e
  unfold setSendEvents
  by_cases hv : sendModes d &&& v ≠ v
  · rw [if_pos hv]
    have hn : ¬ supported hw (.sendEvents v) := fun e => hv (key.2 e)
    exact ⟨_, _, rfl, Does.failed h (by simp) (fun e => hn e.2) (by simp) (fun _ e => hn e)⟩
  rw [if_neg hv, h.send]
  have hs : supported hw (.sendEvents v) := key.1 (Classical.byContradiction hv)
  have hd : documented hw (.sendEvents v) := by
    show v ≤ 3
    rcases hs with e | e | ⟨e | e, _⟩ <;> omega
  have same : ∀ w : Nat, w = d.sendMode → asRead (.sendEvents v) = .num w →
      Does hw down (.sendEvents v) d .success d := by
    intro w hw1 e
    refine Does.done h ⟨hd, hs⟩ ?_ (by simp [aboutScroll]) rfl rfl (fun _ => rfl)
    intro s _ _
    cases s
    case sendEvents => simp [get, about, e, h.send, hw1]
    all_goals rfl
  have change : ∀ w : Nat, asRead (.sendEvents v) = .num w →
      Does hw down (.sendEvents v) d .success { d with sendMode := w } := by
    intro w e
    refine Does.done ?_ ⟨hd, hs⟩ ?_ (by simp [aboutScroll]) rfl rfl (fun s => by cases s <;> rfl)
    · exact ⟨h.1, h.2, h.3, h.4, h.5, h.6, h.7, h.8, h.9, h.10, h.11, h.12, h.13, h.14, h.15, h.16⟩
    intro s _ _
    cases s
    case sendEvents => simp [get, about, e, h.send]
    all_goals rfl
  have evdev : hw.kind ≠ .touchpad → ∃ st d', some (evdevSetMode v d) = some (st, d') ∧
      Does hw down (.sendEvents v) d st d' := by
    intro hk
    have hv2 : v = 0 ∨ v = 1 := by
      rcases hs with e | e | ⟨_, e, _⟩
      · exact .inl e
      · exact .inr e
      · exact absurd e hk
    have hr : asRead (.sendEvents v) = .num v := by rcases hv2 with rfl | rfl <;> rfl
    unfold evdevSetMode
    by_cases e : v = d.sendMode
    · rw [if_pos e]; exact ⟨_, _, rfl, same v e hr⟩
    · rw [if_neg e, if_pos hv2]; exact ⟨_, _, rfl, change v hr⟩
  cases hk : hw.kind with
  | touchpad =>
    have hv3 : v = 0 ∨ v = 1 ∨ v = 2 ∨ v = 3 := by
      have : v ≤ 3 := hd
      omega
    have hr : asRead (.sendEvents v) = .num (foldMode v) := by rcases hv3 with rfl | rfl | rfl | rfl <;> rfl
    have hf : foldMode v = 0 ∨ foldMode v = 1 ∨ foldMode v = 2 := by
      rcases hv3 with rfl | rfl | rfl | rfl <;> decide
    simp only [sendHookOf, tpSetMode]
    by_cases e : foldMode v = d.sendMode
    · rw [if_pos e]; exact ⟨_, _, rfl, same _ e hr⟩
    · rw [if_neg e, if_pos hf]; exact ⟨_, _, rfl, change _ hr⟩
  | _ => exact evdev (by simp [hk])

theorem accelHook_iff {hw : Hw} : accels hw = true ↔ offers hw .speed := by
  cases hk : hw.kind <;> simp [accels, offers, hk, moves, movesPointer, wheelKb, and_assoc]

theorem get_filter {d : Dev} {f g : Filter} (hf : d.filter = some f) (hg : g.kind = f.kind) (s : Setting)
    (hs : s ≠ .speed) : get { d with filter := some g } s = get d s := by
  cases s
  case speed => exact absurd rfl hs
  case profile =>
    simp only [get, accelAvailable, hf, hg]
  all_goals rfl

theorem getDefault_filter {d : Dev} {f g : Filter} (hf : d.filter = some f) (s : Setting) :
    getDefault { d with filter := some g } s = getDefault d s := by
  cases s
  case profile =>
    simp only [getDefault, accelAvailable, hf]
    cases d.accelHook <;> cases d.profileHook <;> rfl
  all_goals rfl

theorem setSpeed_tablet {f : Filter} {v : Num} (hk : f.kind = .tablet) (hr : inRange v = true) :
    f.setSpeed v = some f := by
  simp [Filter.setSpeed, hk, hr]

theorem setSpeed_other {f : Filter} {v : Num} (hk : f.kind ≠ .tablet) (hr : inRange v = true) :
    f.setSpeed v = some ⟨f.kind, v⟩ := by
  obtain ⟨k, w⟩ := f
  cases k <;> simp_all [Filter.setSpeed]

theorem setSpeed_does {hw : Hw} {d : Dev} (h : Inv hw d) (down : Bool) (v : Num) :
    ∃ st d', setSpeed v d = some (st, d') ∧ Does hw down (.speed v) d st d' := by
  unfold setSpeed
  cases hr : inRange v with
  | false =>
    have hn : ¬ documented hw (.speed v) := fun e => by rw [(inRange_iff v).2 e] at hr; simp at hr
    exact ⟨_, _, rfl, Does.failed h (by simp) (fun e => hn e.1) (fun _ => hn) (by simp)⟩
  | true =>
    rw [if_neg (by simp)]
    cases ha : accelAvailable d with
    | false =>
      have hn : ¬ offers hw .speed := fun e => by
        unfold accelAvailable at ha
        rw [h.accel, accelHook_iff.2 e] at ha
        simp at ha
      exact ⟨_, _, rfl, Does.failed h (by simp) (fun e => hn e.2) (by simp) (fun _ => hn)⟩
    | true =>
      rw [if_neg (by simp)]
      have hA : accels hw = true := by rw [← h.accel]; exact ha
      obtain ⟨f, hf, hf1, hf2, hf3⟩ := h.filt hA
      simp only [accelSetSpeed, hf]
      by_cases hk : f.kind = .tablet
      · have ht := hf2.1 hk
        rw [setSpeed_tablet hk hr]
        have hself : { d with filter := some f } = d := by rw [← hf]
        simp only [hself]
        refine ⟨_, _, rfl, Does.done h ⟨(inRange_iff v).1 hr, accelHook_iff.1 hA⟩ ?_ (by simp [aboutScroll])
          rfl rfl ?_⟩
        · intro s _ hs
          by_cases e : s = .speed
          · subst e
            refine absurd ?_ hs
            simpa [forgetsSpeed, isTabletKind] using ht
          · rw [if_neg (show ¬ s = about (.speed v) from e)]
        · exact fun _ => rfl
      · have hn : ¬ isTabletKind hw.kind = true := fun e => hk (hf2.2 e)
        rw [setSpeed_other hk hr]
        refine ⟨_, _, rfl, Does.done ?_ ⟨(inRange_iff v).1 hr, accelHook_iff.1 hA⟩ ?_ (by simp [aboutScroll])
          rfl rfl ?_⟩
        · exact ⟨h.1, h.2, h.3, h.4, h.5, h.6, fun _ => ⟨_, rfl, hr, hf2, fun e => absurd e hn⟩, h.8, h.9, h.10, h.11, h.12, h.13, h.14, h.15, h.16⟩
        · intro s _ hs
          by_cases e : s = .speed
          · subst e
            have : d.accelHook = true := ha
            simp [get, about, accelAvailable, this, asRead]
          · rw [if_neg (show ¬ s = about (.speed v) from e)]
            exact get_filter (g := ⟨f.kind, v⟩) hf rfl s e
        · exact getDefault_filter hf

theorem setNatural_does {hw : Hw} {d : Dev} (h : Inv hw d) (down : Bool) (v : Int) :
    ∃ st d', setNatural v d = some (st, d') ∧ Does hw down (.natural v) d st d' := by
  have ho : d.naturalHook = true ↔ offers hw .natural := by
    rw [h.nat]; simp [offers, wheelKb]
  unfold setNatural
  by_cases hh : d.naturalHook = true
  case neg =>
    have hn : ¬ offers hw .natural := fun e => hh (ho.2 e)
    rw [if_pos (by simp [hh])]
    exact ⟨_, _, rfl, Does.failed h (by simp) (fun e => hn e.2) (by simp) (fun _ => hn)⟩
  case pos =>
    rw [if_neg (by simp [hh])]
    refine ⟨_, _, rfl, Does.done ?_ ⟨trivial, ho.1 hh⟩ ?_ (by simp [aboutScroll]) rfl rfl (fun s => by cases s <;> rfl)⟩
    · exact ⟨h.1, h.2, h.3, h.4, h.5, h.6, h.7, h.8, h.9, h.10, h.11, h.12, h.13, h.14, h.15, h.16⟩
    · intro s _ _
      cases s
      case natural => by_cases e : v = 0 <;> simp [get, about, asRead, hh, bit, e]
      all_goals rfl

theorem setLeft_does {hw : Hw} {d : Dev} (h : Inv hw d) (down : Bool) (v : Int) :
    ∃ st d', setLeft down v d = some (st, d') ∧ Does hw down (.leftHanded v) d st d' := by
  have ho : d.leftHook = true ↔ offers hw .leftHanded := by
    rw [h.left]; cases hk : hw.kind <;> simp [offers, lefts, hk]
  unfold setLeft
  by_cases hh : d.leftHook = true
  case neg =>
    have hn : ¬ offers hw .leftHanded := fun e => hh (ho.2 e)
    rw [if_pos (by simp [hh])]
    exact ⟨_, _, rfl, Does.failed h (by simp) (fun e => hn e.2) (by simp) (fun _ => hn)⟩
  case pos =>
    rw [if_neg (by simp [hh])]
    have key : ∀ b, Does hw down (.leftHanded v) d .success { d with leftWant := decide (v ≠ 0), leftEnabled := b } := by
      intro b
      refine Does.done ?_ ⟨trivial, ho.1 hh⟩ ?_ (by simp [aboutScroll]) rfl rfl (fun s => by cases s <;> rfl)
      · exact ⟨h.1, h.2, h.3, h.4, h.5, h.6, h.7, h.8, h.9, h.10, h.11, h.12, h.13, h.14, h.15, h.16⟩
      · intro s _ _
        cases s
        case leftHanded => by_cases e : v = 0 <;> simp [get, about, asRead, hh, bit, e]
        all_goals rfl
    refine ⟨_, _, rfl, ?_⟩
    unfold changeToLeftHanded
    split
    · exact key d.leftEnabled
    · split
      · exact key d.leftEnabled
      · exact key _

theorem profile_offers {hw : Hw} : (accels hw = true ∧ profHook hw.kind ≠ .none) ↔ offers hw .profile := by
  rw [accelHook_iff]
  cases hk : hw.kind <;> simp [offers, hk, profHook]

theorem initAcceleration_hooked {d : Dev} (ha : d.accelHook = true) (f : Filter) :
    initAcceleration d f = some { d with filter := some f } := by
  unfold initAcceleration
  rw [if_pos ha]

theorem initAccel_hooked {d : Dev} (ha : d.accelHook = true) (p : Nat) :
    ∃ k : FilterKind, k ≠ .tablet ∧ (p = 1 ∨ p = 2 → k.type = p) ∧
      initAccel d p = some { d with filter := some (Filter.new k) } := by
  unfold initAccel
  rw [initAcceleration_hooked ha]
  refine ⟨_, ?_, ?_, rfl⟩
  · split
    · simp
    · split
      · simp
      · split <;> simp
  · rintro (rfl | rfl)
    · rfl
    · rw [if_neg (by simp)]
      split
      · rfl
      · split <;> rfl

theorem tpInitAccel_hooked {d : Dev} (ha : d.accelHook = true) (hp : d.profileHook = .touchpad) (p : Nat) :
    ∃ k : FilterKind, k ≠ .tablet ∧ (p = 1 ∨ p = 2 → k.type = p) ∧
      tpInitAccel d p = some { d with filter := some (Filter.new k) } := by
  unfold tpInitAccel
  rw [initAcceleration_hooked ha]
  refine ⟨(if p = PROFILE_FLAT then .touchpadFlat else if d.hw.x230 then .x230 else .touchpad), ?_, ?_, ?_⟩
  rotate_left 2
  · simp only []
    rw [← hp]
  · split
    · simp
    · split <;> simp
  · rintro (rfl | rfl)
    · rfl
    · rw [if_neg (by simp)]
      split <;> rfl

theorem changeProfile_eq {d : Dev} {f : Filter} (hf : d.filter = some f) (hr : inRange f.speed = true)
    {init : Dev → Nat → Option Dev} {p : Nat} (hp : p = 1 ∨ p = 2)
    (hi : ∃ k : FilterKind, k ≠ .tablet ∧ (p = 1 ∨ p = 2 → k.type = p) ∧
      init { d with filter := none } p = some { d with filter := some (Filter.new k) })
    (ht : f.kind ≠ .tablet) :
    ∃ k : FilterKind, k ≠ .tablet ∧ k.type = p ∧
      changeProfile init p d = some (.success, { d with filter := some ⟨k, f.speed⟩ }) := by
  unfold changeProfile
  rw [hf]
  simp only []
  by_cases e : f.kind.type = p
  · refine ⟨f.kind, ht, e, ?_⟩
    rw [if_pos e]
    obtain ⟨k, w⟩ := f
    simp only []
    rw [← hf]
  · rw [if_neg e]
    obtain ⟨k, hk, hk1, hk2⟩ := hi
    refine ⟨k, hk, hk1 hp, ?_⟩
    rw [hk2]
    simp only [accelSetSpeed]
    rw [setSpeed_other (f := Filter.new k) hk hr]
    rfl

theorem setProfile_does {hw : Hw} {d : Dev} (h : Inv hw d) (down : Bool) (v : Nat) :
    ∃ st d', setProfile v d = some (st, d') ∧ Does hw down (.profile v) d st d' := by
  unfold setProfile
  by_cases hv : v ≠ PROFILE_FLAT ∧ v ≠ PROFILE_ADAPTIVE
  · rw [if_pos hv]
    have hv' : ¬ (v = 1 ∨ v = 2) := fun e => e.elim (fun e => hv.1 e) (fun e => hv.2 e)
    exact ⟨_, _, rfl, Does.failed h (by simp) (fun e => hv' e.1) (fun _ e => hv' e) (by simp)⟩
  have hv' : v = 1 ∨ v = 2 := by
    by_cases h0 : v = 1
    · exact .inl h0
    · exact .inr (Classical.byContradiction fun h1 => hv ⟨h0, h1⟩)
  rw [if_neg hv]
  have failed : ¬ offers hw .profile → Does hw down (.profile v) d .unsupported d := fun hn =>
    Does.failed h (by simp) (fun e => hn e.2) (by simp) (fun _ => hn)
  cases ha : accels hw with
  | false =>
    have : accelAvailable d = false := by unfold accelAvailable; rw [h.accel, ha]
    rw [this, if_pos (by simp)]
    exact ⟨_, _, rfl, failed fun e => by have := (profile_offers.2 e).1; rw [ha] at this; simp at this⟩
  | true =>
    have hA : d.accelHook = true := by rw [h.accel, ha]
    obtain ⟨f, hf, hf1, hf2, hf3⟩ := h.filt ha
    by_cases hp : profHook hw.kind = .none
    · have : profiles d = 0 := by
        unfold profiles accelAvailable
        rw [hA, h.prof ha, hp]
        rfl
      rw [this, if_pos (by simp)]
      exact ⟨_, _, rfl, failed fun e => (profile_offers.2 e).2 hp⟩
    · have hpr : profiles d = 3 := by
        unfold profiles accelAvailable
        rw [hA, h.prof ha, hf]
        cases hk : hw.kind <;> simp [profHook, hk] at hp ⊢ <;> rfl
      rw [if_neg (by rw [hpr]; unfold accelAvailable; rw [hA]; rcases hv' with rfl | rfl <;> decide)]
      have hnt : f.kind ≠ .tablet := fun e => by
        have := hf2.1 e
        cases hk : hw.kind <;> simp_all [profHook, isTabletKind]
      have final : ∃ k : FilterKind, k ≠ .tablet ∧ k.type = v ∧
          (match d.profileHook with
            | .none => some (.unsupported, d)
            | .evdev => changeProfile initAccel v d
            | .touchpad => changeProfile tpInitAccel v d) = some (.success, { d with filter := some ⟨k, f.speed⟩ }) := by
        have hpe : d.profileHook = .evdev ∨ d.profileHook = .touchpad := by
          cases he : d.profileHook with
          | none => exact absurd (by rw [← h.prof ha, he]) hp
          | evdev => exact .inl rfl
          | touchpad => exact .inr rfl
        rcases hpe with he | he
        · obtain ⟨k, h1, h2, h3⟩ := changeProfile_eq hf hf1 hv' (initAccel_hooked (d := { d with filter := none }) hA v) hnt
          refine ⟨k, h1, h2, ?_⟩
          rw [← h3]
          simp only [he]
        · obtain ⟨k, h1, h2, h3⟩ := changeProfile_eq hf hf1 hv' (tpInitAccel_hooked (d := { d with filter := none }) hA he v) hnt
          refine ⟨k, h1, h2, ?_⟩
          rw [← h3]
          simp only [he]
      obtain ⟨k, hk1, hk2, hk3⟩ := final
      refine ⟨_, _, hk3, Does.done ?_ ⟨hv', profile_offers.1 ⟨ha, hp⟩⟩ ?_ (by simp [aboutScroll]) rfl rfl ?_⟩
      · have hn : ¬ isTabletKind hw.kind = true := fun e => hnt (hf2.2 e)
        exact ⟨h.1, h.2, h.3, h.4, h.5, h.6, fun _ => ⟨_, rfl, hf1, ⟨fun e => absurd e hk1, fun e => absurd e hn⟩, fun e => absurd e hn⟩, h.8, h.9, h.10, h.11, h.12, h.13, h.14, h.15, h.16⟩
      · intro s _ hs
        cases s
        case speed => simp [get, accelAvailable, about, hf, hA]
        case profile =>
          have : d.profileHook ≠ .none := by rw [h.prof ha]; exact hp
          simp only [get, accelAvailable, hA, about, if_true, asRead, hk2]
        all_goals rfl
      · exact getDefault_filter hf

theorem clickHook_iff {hw : Hw} {d : Dev} (h : Inv hw d) : d.clickHook = true ↔ hw.kind = .touchpad := by
  rw [h.click]; simp

theorem setClick_does {hw : Hw} {d : Dev} (h : Inv hw d) (down : Bool) (v : Nat) :
    ∃ st d', setClick v d = some (st, d') ∧ Does hw down (.clickMethod v) d st d' := by
  unfold setClick
  by_cases hv : v ≠ CLICK_NONE ∧ v ≠ CLICK_BUTTON_AREAS ∧ v ≠ CLICK_CLICKFINGER
  · rw [if_pos hv]
    have hv' : ¬ (v = 0 ∨ v = 1 ∨ v = 2) := fun e => by
      rcases e with e | e | e
      · exact hv.1 e
      · exact hv.2.1 e
      · exact hv.2.2 e
    exact ⟨_, _, rfl, Does.failed h (by simp) (fun e => hv' e.1) (fun _ e => hv' e) (by simp)⟩
  have hv' : v = 0 ∨ v = 1 ∨ v = 2 := by
    by_cases h0 : v = 0
    · exact .inl h0
    · by_cases h1 : v = 1
      · exact .inr (.inl h1)
      · exact .inr (.inr (Classical.byContradiction fun h2 => hv ⟨h0, h1, h2⟩))
  rw [if_neg hv]
  have key : getClickMethods d &&& v = v ↔ supported hw (.clickMethod v) := by
    unfold getClickMethods supported
    rw [h.click, h.same]
    cases hw.kind <;> rcases hv' with rfl | rfl | rfl <;> simp [clickMethods] <;>
      cases hw.clickpad <;> cases hw.hasMt <;> cases hw.onebutton <;> decide
  by_cases hm : getClickMethods d &&& v ≠ v
  · rw [if_pos hm]
    have hn : ¬ supported hw (.clickMethod v) := fun e => hm (key.2 e)
    exact ⟨_, _, rfl, Does.failed h (by simp) (fun e => hn e.2) (by simp) (fun _ => hn)⟩
  · rw [if_neg hm]
    have hs := key.1 (Classical.byContradiction hm)
    by_cases hh : d.clickHook = true
    case pos =>
      rw [if_pos hh]
      refine ⟨_, _, rfl, Does.done ?_ ⟨hv', hs⟩ ?_ (by simp [aboutScroll]) rfl rfl (fun s => by cases s <;> rfl)⟩
      · exact ⟨h.1, h.2, h.3, h.4, h.5, h.6, h.7, h.8, h.9, h.10, h.11, h.12, h.13, h.14, h.15, h.16⟩
      · intro s _ _
        cases s
        case clickMethod => simp [get, about, asRead, hh]
        all_goals rfl
    case neg =>
      rw [if_neg hh]
      have h0 : v = 0 := by
        have hk : hw.kind ≠ .touchpad := fun e => hh ((clickHook_iff h).2 e)
        rcases hs with e | e | e
        · exact e
        · exact absurd e.2.1 hk
        · exact absurd e.2.1 hk
      refine ⟨_, _, rfl, Does.done h ⟨hv', hs⟩ ?_ (by simp [aboutScroll]) rfl rfl (fun s => by cases s <;> rfl)⟩
      intro s _ _
      cases s
      case clickMethod => simp [get, about, asRead, hh, h0]
      all_goals rfl

theorem middle_iff {hw : Hw} {d : Dev} (h : Inv hw d) : middleAvailable d = true ↔ offers hw .middleEmulation := by
  unfold middleAvailable
  rw [h.middle]
  cases hk : hw.kind <;> simp [middles, offers, hk]
  · cases hw.clickpad <;> cases hw.alps <;> cases hw.key 0x112 <;> simp
  · cases hw.key 0x110 <;> cases hw.key 0x111 <;> cases hw.key 0x112 <;> simp

theorem setMiddle_does {hw : Hw} {d : Dev} (h : Inv hw d) (down : Bool) (v : Nat) :
    ∃ st d', setMiddle v d = some (st, d') ∧ Does hw down (.middleEmulation v) d st d' := by
  have key := middle_iff h
  have change : ∀ b : Bool, v = bit b → middleAvailable d = true →
      Does hw down (.middleEmulation v) d .success { d with middleWant := b } := by
    intro b hb hm
    refine Does.done ?_ ⟨?_, .inr (key.1 hm)⟩ ?_ (by simp [aboutScroll]) rfl rfl (fun s => by cases s <;> rfl)
    · exact ⟨h.1, h.2, h.3, h.4, h.5, h.6, h.7, h.8, h.9, h.10, h.11, h.12, h.13, h.14, h.15, h.16⟩
    · show v = 0 ∨ v = 1
      cases b <;> simp [bit] at hb <;> simp [hb]
    · intro s _ _
      cases s
      case middleEmulation =>
        have : middleAvailable { d with middleWant := b } = true := hm
        simp only [get, about, asRead, this, if_true, hb]
      all_goals rfl
  unfold setMiddle
  cases hm : middleAvailable d with
  | true =>
    by_cases h0 : v = DISABLED
    · rw [if_pos h0, if_neg (by simp)]
      exact ⟨_, _, rfl, change false h0 hm⟩
    · rw [if_neg h0]
      by_cases h1 : v = ENABLED
      · rw [if_pos h1, if_neg (by simp)]
        exact ⟨_, _, rfl, change true h1 hm⟩
      · rw [if_neg h1]
        have hv' : ¬ (v = 0 ∨ v = 1) := fun e => e.elim h0 h1
        exact ⟨_, _, rfl, Does.failed h (by simp) (fun e => hv' e.1) (fun _ e => hv' e) (by simp)⟩
  | false =>
    have ho : ¬ offers hw .middleEmulation := fun e => by rw [key.2 e] at hm; simp at hm
    by_cases h0 : v = DISABLED
    · rw [if_pos h0, if_pos (by simp)]
      refine ⟨_, _, rfl, Does.done h ⟨.inl h0, .inl h0⟩ ?_ (by simp [aboutScroll]) rfl rfl (fun _ => rfl)⟩
      intro s _ _
      cases s
      case middleEmulation => simp [get, about, asRead, hm, h0]
      all_goals rfl
    · rw [if_neg h0]
      by_cases h1 : v = ENABLED
      · rw [if_pos h1, if_pos (by simp)]
        exact ⟨_, _, rfl, Does.failed h (by simp) (fun e => e.2.elim h0 ho) (by simp) (fun _ e => e.elim h0 ho)⟩
      · rw [if_neg h1]
        have hv' : ¬ (v = 0 ∨ v = 1) := fun e => e.elim h0 h1
        exact ⟨_, _, rfl, Does.failed h (by simp) (fun e => hv' e.1) (fun _ e => hv' e) (by simp)⟩

theorem setDwt_does {hw : Hw} {d : Dev} (h : Inv hw d) (down : Bool) (v : Nat) :
    ∃ st d', setDwt v d = some (st, d') ∧ Does hw down (.dwt v) d st d' := by
  have ho : d.dwtHook = true ↔ offers hw .dwt := by rw [h.dwtH]; simp [offers]
  unfold setDwt
  by_cases hv : v ≠ ENABLED ∧ v ≠ DISABLED
  · rw [if_pos hv]
    have hv' : ¬ (v = 0 ∨ v = 1) := fun e => e.elim (fun e => hv.2 e) (fun e => hv.1 e)
    exact ⟨_, _, rfl, Does.failed h (by simp) (fun e => hv' e.1) (fun _ e => hv' e) (by simp)⟩
  have hv' : v = 0 ∨ v = 1 := by
    by_cases h0 : v = 0
    · exact .inl h0
    · exact .inr (Classical.byContradiction fun h1 => hv ⟨h1, h0⟩)
  rw [if_neg hv]
  by_cases hh : d.dwtHook = true
  case pos =>
    rw [if_neg (by simp [hh])]
    refine ⟨_, _, rfl, Does.done ?_ ⟨hv', .inr (ho.1 hh)⟩ ?_ (by simp [aboutScroll]) rfl rfl (fun s => by cases s <;> rfl)⟩
    · exact ⟨h.1, h.2, h.3, h.4, h.5, h.6, h.7, h.8, h.9, h.10, h.11, h.12, h.13, h.14, h.15, h.16⟩
    · intro s _ _
      cases s
      case dwt => rcases hv' with rfl | rfl <;> simp [get, about, asRead, hh, bit]
      all_goals rfl
  case neg =>
    have hn : ¬ offers hw .dwt := fun e => hh (ho.2 e)
    rw [if_pos (by simp [hh])]
    by_cases h0 : v = 0
    · subst h0
      refine ⟨_, _, rfl, Does.done h ⟨.inl rfl, .inl rfl⟩ ?_ (by simp [aboutScroll]) rfl rfl (fun _ => rfl)⟩
      intro s _ _
      cases s
      case dwt => simp [get, about, asRead, hh]
      all_goals rfl
    · rw [if_pos h0]
      exact ⟨_, _, rfl, Does.failed h (by simp) (fun e => e.2.elim h0 hn) (by simp) (fun _ e => e.elim h0 hn)⟩

theorem setRotation_does {hw : Hw} {d : Dev} (h : Inv hw d) (down : Bool) (v : Nat) :
    ∃ st d', setRotation v d = some (st, d') ∧ Does hw down (.rotation v) d st d' := by
  have ho : d.rotationHook = true ↔ offers hw .rotation := by rw [h.rot]; simp [offers]
  unfold setRotation
  by_cases hh : d.rotationHook = true
  case pos =>
    rw [if_neg (by simp [hh])]
    by_cases hv : v ≥ 360 ∨ v % 90 ≠ 0
    · rw [if_pos hv]
      have hv' : ¬ (v = 0 ∨ v = 90 ∨ v = 180 ∨ v = 270) := by omega
      exact ⟨_, _, rfl, Does.failed h (by simp) (fun e => hv' e.1) (fun _ e => hv' e) (by simp)⟩
    · rw [if_neg hv]
      have hv' : v = 0 ∨ v = 90 ∨ v = 180 ∨ v = 270 := by omega
      refine ⟨_, _, rfl, Does.done ?_ ⟨hv', .inr (ho.1 hh)⟩ ?_ (by simp [aboutScroll]) rfl rfl (fun s => by cases s <;> rfl)⟩
      · exact ⟨h.1, h.2, h.3, h.4, h.5, h.6, h.7, h.8, h.9, h.10, h.11, h.12, h.13, h.14, h.15, h.16⟩
      · intro s _ _
        cases s
        case rotation => simp [get, about, asRead, hh]
        all_goals rfl
  case neg =>
    have hn : ¬ offers hw .rotation := fun e => hh (ho.2 e)
    rw [if_pos (by simp [hh])]
    by_cases h0 : v = 0
    · subst h0
      refine ⟨_, _, rfl, Does.done h ⟨.inl rfl, .inl rfl⟩ ?_ (by simp [aboutScroll]) rfl rfl (fun _ => rfl)⟩
      intro s _ _
      cases s
      case rotation => simp [get, about, asRead, hh]
      all_goals rfl
    · rw [if_pos h0]
      exact ⟨_, _, rfl, Does.failed h (by simp) (fun e => e.2.elim h0 hn) (by simp) (fun _ e => e.elim h0 hn)⟩

theorem scrolls_button {hw : Hw} : scrolls hw = some .button ↔ scrollsOnButton hw := by
  cases hk : hw.kind <;> simp [scrolls, scrollsOnButton, hk]
  cases hw.rel 0 <;> simp

theorem get_scrollButton {d : Dev} (hs : d.scrollHook = some .button) :
    get d .scrollButton = some (.num d.scrollWantButton) := by
  simp [get, getScrollMethods, hs]

theorem scrolls_touchpad {hw : Hw} : scrolls hw = some .touchpad ↔ hw.kind = .touchpad := by
  cases hk : hw.kind <;> simp [scrolls, hk]

theorem no_wheel_bit (hw : Hw) : tpScrollMethods hw &&& 4 = 0 := by
  unfold tpScrollMethods
  simp only []
  split
  · rfl
  · split <;> rfl

theorem button_bit {hw : Hw} {d : Dev} (h : Inv hw d) :
    getScrollMethods d &&& SCROLL_ON_BUTTON_DOWN = 0 ↔ ¬ scrollsOnButton hw := by
  unfold getScrollMethods
  rw [h.scroll, ← scrolls_button]
  match hs : scrolls hw with
  | none => simp
  | some .button => simp
  | some .touchpad => simp [no_wheel_bit]

/-- What a change to on-button scrolling does once the wish is recorded. -/
theorem changed_does {hw : Hw} {d : Dev} (h : Inv hw d) (down : Bool) (c : Call) (hh : scrolls hw = some .button)
    (ha : acceptable hw c) (hc : aboutScroll c) (m b : Nat) (l : Bool)
    (hm : (about c = .scrollMethod ∧ asRead c = .num m) ∨ (about c ≠ .scrollMethod ∧ m = d.scrollWantMethod))
    (hb : (about c = .scrollButton ∧ asRead c = .num b) ∨ (about c ≠ .scrollButton ∧ b = d.scrollWantButton))
    (hl : (about c = .scrollButtonLock ∧ asRead c = .num (bit l)) ∨
      (about c ≠ .scrollButtonLock ∧ l = d.scrollWantLock)) :
    Does hw down c d .success
      (changeScrollMethod down { d with scrollWantMethod := m, scrollWantButton := b, scrollWantLock := l }) := by
  have hs : d.scrollHook = some .button := by rw [h.scroll, hh]
  have key : ∀ (m1 b1 : Nat) (l1 ls : Bool), ls = l1 → (down = false → ls = l) →
      (down = true → ls = d.lockState) →
      Does hw down c d .success
        { d with scrollWantMethod := m, scrollWantButton := b, scrollWantLock := l, scrollMethod := m1, scrollButton := b1, scrollLock := l1, lockState := ls } := by
    intro m1 b1 l1 ls e1 e2 e3
    refine ⟨?_, by simp [ha], by simp, by simp, by simp, ?_, ?_, ?_, ?_, ?_, ?_⟩
    · exact ⟨h.1, h.2, h.3, h.4, h.5, h.6, h.7, h.8, h.9, h.10, h.11, h.12, h.13, e1, h.15, h.16⟩
    · intro _ s hsl _
      cases s
      case scrollButtonLock => exact absurd rfl hsl
      case scrollMethod =>
        simp only [get, hs]
        rcases hm with ⟨e, e'⟩ | ⟨e, e'⟩
        · rw [if_pos e.symm, e']
        · rw [if_neg (fun x => e x.symm), e']
      case scrollButton =>
        rw [get_scrollButton (d := d) hs, get_scrollButton (by exact hs)]
        rcases hb with ⟨e, e'⟩ | ⟨e, e'⟩
        · rw [if_pos e.symm, e']
        · rw [if_neg (fun x => e x.symm), e']
      all_goals
        cases c <;> first | exact False.elim hc | rfl
    · intro _ e
      rcases hl with ⟨_, e'⟩ | ⟨e', _⟩
      · exact e'.symm
      · exact absurd e e'
    · intro e
      rcases hl with ⟨e', _⟩ | ⟨_, e'⟩
      · exact absurd e' e
      · exact e'
    · exact fun _ _ _ e => e2 e
    · intro e
      cases hd : down with
      | true => exact e3 hd
      | false => exact absurd ⟨hc, rfl, hd⟩ e
    · intro s
      cases s <;> rfl
  unfold changeScrollMethod
  split
  · rename_i e
    refine key d.scrollMethod d.scrollButton d.scrollLock d.lockState h.lock (fun _ => ?_) (fun _ => rfl)
    rw [h.lock]
    exact e.2.2.symm
  · split
    · rename_i e
      exact key d.scrollMethod d.scrollButton d.scrollLock d.lockState h.lock
        (fun x => by rw [x] at e; simp at e) (fun _ => rfl)
    · rename_i e
      exact key m b l l rfl (fun _ => rfl) (fun x => absurd x e)

/-- A call about scrolling that changes nothing. -/
theorem unchanged_does {hw : Hw} {d : Dev} (h : Inv hw d) (down : Bool) (v : Nat) (hn : scrolls hw ≠ some .button)
    (ha : acceptable hw (.scrollMethod v)) (hg : get d .scrollMethod = some (.num v)) :
    Does hw down (.scrollMethod v) d .success d := by
  refine ⟨h, by simp [ha], by simp, by simp, by simp, ?_, ?_, fun _ => rfl, fun e => absurd e hn, fun _ => rfl, fun _ => rfl⟩
  · intro _ s hsl _
    cases s
    case scrollMethod => simp [hg, about, asRead]
    all_goals rfl
  · intro _ e
    simp [about] at e

theorem setScrollMethod_does {hw : Hw} {d : Dev} (h : Inv hw d) (down : Bool) (v : Nat) :
    ∃ st d', setScrollMethod down v d = some (st, d') ∧ Does hw down (.scrollMethod v) d st d' := by
  unfold setScrollMethod
  by_cases hv : v ≠ NO_SCROLL ∧ v ≠ SCROLL_2FG ∧ v ≠ SCROLL_EDGE ∧ v ≠ SCROLL_ON_BUTTON_DOWN
  · rw [if_pos hv]
    have hv' : ¬ (v = 0 ∨ v = 1 ∨ v = 2 ∨ v = 4) := fun e => by
      rcases e with e | e | e | e
      · exact hv.1 e
      · exact hv.2.1 e
      · exact hv.2.2.1 e
      · exact hv.2.2.2 e
    exact ⟨_, _, rfl, Does.failed h (by simp) (fun e => hv' e.1) (fun _ e => hv' e) (by simp)⟩
  have hv' : v = 0 ∨ v = 1 ∨ v = 2 ∨ v = 4 := by
    by_cases h0 : v = 0
    · exact .inl h0
    · by_cases h1 : v = 1
      · exact .inr (.inl h1)
      · by_cases h2 : v = 2
        · exact .inr (.inr (.inl h2))
        · exact .inr (.inr (.inr (Classical.byContradiction fun h3 => hv ⟨h0, h1, h2, h3⟩)))
  rw [if_neg hv]
  have hk : hw.kind = .touchpad → ¬ scrollsOnButton hw := fun e e' => by
    have := e'.1
    rw [e] at this
    simp at this
  have key : getScrollMethods d &&& v = v ↔ supported hw (.scrollMethod v) := by
    unfold getScrollMethods supported
    rw [h.scroll, h.same]
    match hs : scrolls hw with
    | none =>
      have h1 : hw.kind ≠ .touchpad := fun e => by rw [scrolls_touchpad.2 e] at hs; simp at hs
      have h2 : ¬ scrollsOnButton hw := fun e => by rw [scrolls_button.2 e] at hs; simp at hs
      rcases hv' with rfl | rfl | rfl | rfl <;> simp [h1, h2]
    | some .button =>
      have h2 := scrolls_button.1 hs
      have h1 : hw.kind ≠ .touchpad := fun e => hk e h2
      rcases hv' with rfl | rfl | rfl | rfl <;> simp [h1, h2]
    | some .touchpad =>
      have h1 := scrolls_touchpad.1 hs
      have h2 := hk h1
      simp only [tpScrollMethods]
      cases hq : hw.noTwoFinger <;> by_cases hnt : hw.ntouches ≥ 2 <;>
        rcases hv' with rfl | rfl | rfl | rfl <;> simp [h1, h2, hnt] <;> rfl
  by_cases hm : getScrollMethods d &&& v ≠ v
  · rw [if_pos hm]
    have hn : ¬ supported hw (.scrollMethod v) := fun e => hm (key.2 e)
    exact ⟨_, _, rfl, Does.failed h (by simp) (fun e => hn e.2) (by simp) (fun _ => hn)⟩
  rw [if_neg hm]
  have hsup := key.1 (Classical.byContradiction hm)
  obtain ⟨d1, hd1⟩ : ∃ x, x = changeScrollMethod down { d with scrollWantMethod := v } := ⟨_, rfl⟩
  obtain ⟨d2, hd2⟩ : ∃ x, x = { d with tpScrollMethod := v } := ⟨_, rfl⟩
  rw [← hd1, ← hd2, h.scroll]
  match hs : scrolls hw with
  | none =>
    have h1 : hw.kind ≠ .touchpad := fun e => by rw [scrolls_touchpad.2 e] at hs; simp at hs
    have h2 : ¬ scrollsOnButton hw := fun e => by rw [scrolls_button.2 e] at hs; simp at hs
    have h0 : v = 0 := by
      rcases hsup with e | e | e | e
      · exact e
      · exact absurd e.2.1 h1
      · exact absurd e.2 h1
      · exact absurd e.2 h2
    refine ⟨_, _, rfl, unchanged_does h down v (by simp [hs]) ⟨hv', hsup⟩ ?_⟩
    simp only [get, h.scroll, hs, h0]
  | some .button =>
    subst hd1
    exact ⟨_, _, rfl, changed_does h down (.scrollMethod v) hs ⟨hv', hsup⟩ trivial v d.scrollWantButton
      d.scrollWantLock (.inl ⟨rfl, rfl⟩) (.inr ⟨by simp [about], rfl⟩) (.inr ⟨by simp [about], rfl⟩)⟩
  | some .touchpad =>
    subst hd2
    simp only []
    by_cases e : v = d.tpScrollMethod
    · rw [if_pos e]
      refine ⟨_, _, rfl, unchanged_does h down v (by simp [hs]) ⟨hv', hsup⟩ ?_⟩
      simp only [get, h.scroll, hs, e]
    · rw [if_neg e]
      refine ⟨_, _, rfl, ?_, by simp [acceptable, hsup]; exact hv', by simp, by simp, by simp, ?_, ?_, fun _ => rfl, fun e => by simp [hs] at e, fun _ => rfl, fun s => by cases s <;> rfl⟩
      · exact ⟨h.1, h.2, h.3, h.4, h.5, h.6, h.7, h.8, h.9, h.10, h.11, h.12, h.13, h.14, h.15, h.16⟩
      · intro _ s hsl _
        cases s
        case scrollMethod => simp [get, about, asRead, h.scroll, hs]
        all_goals rfl
      · intro _ e
        simp [about] at e

theorem hasButton_eq {hw : Hw} {d : Dev} (h : Inv hw d) (hs : scrollsOnButton hw) (b : Nat) :
    hasButton d b = hw.key b := by
  unfold hasButton
  rw [h.pointer, h.same]
  simp [hs.1, hs.2.1]

theorem setScrollButton_does {hw : Hw} {d : Dev} (h : Inv hw d) (down : Bool) (b : Nat) :
    ∃ st d', setScrollButton down b d = some (st, d') ∧ Does hw down (.scrollButton b) d st d' := by
  have key := button_bit h
  unfold setScrollButton
  by_cases hz : getScrollMethods d &&& SCROLL_ON_BUTTON_DOWN = 0
  · rw [if_pos hz]
    have hn := key.1 hz
    exact ⟨_, _, rfl, Does.failed h (by simp) (fun e => hn e.2) (by simp) (fun _ => hn)⟩
  rw [if_neg hz]
  have hs : scrollsOnButton hw := Classical.byContradiction fun e => hz (key.2 e)
  rw [hasButton_eq h hs]
  by_cases hb : b ≠ 0 ∧ (!hw.key b) = true
  · rw [if_pos hb]
    have hn : ¬ documented hw (.scrollButton b) := fun e => by
      rcases e with e | e
      · exact hb.1 e
      · simp [e] at hb
    exact ⟨_, _, rfl, Does.failed h (by simp) (fun e => hn e.1) (fun _ => hn) (by simp)⟩
  · obtain ⟨d1, hd1⟩ : ∃ x, x = changeScrollMethod down { d with scrollWantButton := b } := ⟨_, rfl⟩
    rw [if_neg hb, ← hd1, h.scroll, scrolls_button.2 hs]
    subst hd1
    have hd : documented hw (.scrollButton b) := by
      by_cases e : b = 0
      · exact .inl e
      · refine .inr (Classical.byContradiction fun e' => hb ⟨e, ?_⟩)
        cases hk : hw.key b with
        | true => exact absurd hk e'
        | false => rfl
    exact ⟨_, _, rfl, changed_does h down (.scrollButton b) (scrolls_button.2 hs) ⟨hd, hs⟩ trivial
      d.scrollWantMethod b d.scrollWantLock (.inr ⟨by simp [about], rfl⟩) (.inl ⟨rfl, rfl⟩)
      (.inr ⟨by simp [about], rfl⟩)⟩

theorem setScrollLock_does {hw : Hw} {d : Dev} (h : Inv hw d) (down : Bool) (v : Nat) :
    ∃ st d', setScrollLock down v d = some (st, d') ∧ Does hw down (.scrollButtonLock v) d st d' := by
  have key := button_bit h
  unfold setScrollLock
  by_cases hz : getScrollMethods d &&& SCROLL_ON_BUTTON_DOWN = 0
  · rw [if_pos hz]
    have hn := key.1 hz
    exact ⟨_, _, rfl, Does.failed h (by simp) (fun e => hn e.2) (by simp) (fun _ => hn)⟩
  rw [if_neg hz]
  have hs : scrollsOnButton hw := Classical.byContradiction fun e => hz (key.2 e)
  by_cases hv : v ≠ ENABLED ∧ v ≠ DISABLED
  · rw [if_pos hv]
    have hv' : ¬ (v = 0 ∨ v = 1) := fun e => e.elim (fun e => hv.2 e) (fun e => hv.1 e)
    exact ⟨_, _, rfl, Does.failed h (by simp) (fun e => hv' e.1) (fun _ e => hv' e) (by simp)⟩
  · have hv' : v = 0 ∨ v = 1 := by
      by_cases h0 : v = 0
      · exact .inl h0
      · exact .inr (Classical.byContradiction fun h1 => hv ⟨h1, h0⟩)
    obtain ⟨d1, hd1⟩ : ∃ x, x = changeScrollMethod down { d with scrollWantLock := decide (v = ENABLED) } := ⟨_, rfl⟩
    rw [if_neg hv, ← hd1, h.scroll, scrolls_button.2 hs]
    subst hd1
    exact ⟨_, _, rfl, changed_does h down (.scrollButtonLock v) (scrolls_button.2 hs) ⟨hv', hs⟩ trivial
      d.scrollWantMethod d.scrollWantButton (decide (v = ENABLED)) (.inr ⟨by simp [about], rfl⟩)
      (.inr ⟨by simp [about], rfl⟩) (.inl ⟨rfl, by rcases hv' with rfl | rfl <;> rfl⟩)⟩

/-- Every call does what it ought to. -/
theorem set_does {hw : Hw} {d : Dev} (h : Inv hw d) (down : Bool) (c : Call) :
    ∃ st d', set down c d = some (st, d') ∧ Does hw down c d st d' := by
  cases c with
  | tapEnabled v => exact setTapEnabled_does h down v
  | tapMap v => exact setTapMap_does h down v
  | tapDrag v => exact setTapDrag_does h down v
  | tapDragLock v => exact setTapDragLock_does h down v
  | calibration v => exact setCalibration_does h down v
  | sendEvents v => exact setSendEvents_does h down v
  | speed v => exact setSpeed_does h down v
  | profile v => exact setProfile_does h down v
  | natural v => exact setNatural_does h down v
  | leftHanded v => exact setLeft_does h down v
  | clickMethod v => exact setClick_does h down v
  | middleEmulation v => exact setMiddle_does h down v
  | scrollMethod v => exact setScrollMethod_does h down v
  | scrollButton v => exact setScrollButton_does h down v
  | scrollButtonLock v => exact setScrollLock_does h down v
  | dwt v => exact setDwt_does h down v
  | rotation v => exact setRotation_does h down v

end Libinput.Config
