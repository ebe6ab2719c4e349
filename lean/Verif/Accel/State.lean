import Verif.Accel.Profiles
/-
What a filter is after a history of operations: its trackers hold the history since the last restart, its settings are
those of the last speed that was set.
-/
namespace Libinput.Accel

/-- The filter of a device at speed setting `s`, with the given trackers and the velocity of the last movement. -/
noncomputable def Hw.implAt (hw : Hw) (s : ℝ) (tk : Trackers) (last : ℝ) : Impl :=
  let p : Pointer := ⟨last, tk, thr s, 2 + s * 1.5, 1.1 + s * 0.75, hw.dpi⟩
  match hw.kind with
  | .mouse => .mouse p
  | .lowDpi => .lowDpi p
  | .x230 => .x230 p
  | .touchpad _ => .touchpad ⟨last, tk, 130, hw.dpi, speedFactor s⟩
  | .trackpoint => .trackpoint ⟨tk, speedFactor s, hw.multiplier⟩
  | .flat => .flat ⟨max 0.005 (1 + s), hw.dpi⟩
  | .touchpadFlat => .touchpadFlat ⟨max 0.005 (1 + s), hw.dpi⟩
  | .tablet => .tablet ⟨s + 1, hw.xres, hw.yres, defaultMouseDpi / (25.4 * hw.xres), defaultMouseDpi / (25.4 * hw.yres)⟩

/-- The profile of a device as a function of the setting and the velocity. -/
noncomputable def Hw.profile (hw : Hw) (s v : ℝ) : ℝ :=
  let p : Pointer := ⟨0, hw.trackers, thr s, 2 + s * 1.5, 1.1 + s * 0.75, hw.dpi⟩
  match hw.kind with
  | .mouse => profileMouse p v
  | .lowDpi => profileLowDpi p v
  | .x230 => profileX230 p v
  | .touchpad _ => profileTouchpad ⟨0, hw.trackers, 130, hw.dpi, speedFactor s⟩ v
  | .trackpoint => profileTrackpoint ⟨hw.trackers, speedFactor s, hw.multiplier⟩ v
  | .flat => max 0.005 (1 + s)
  | .touchpadFlat => 0.2968 * max 0.005 (1 + s)
  | .tablet => 1 + s

/-- The factor of a movement. -/
noncomputable def Hw.factor (hw : Hw) (s v last : ℝ) : ℝ :=
  match hw.kind with
  | .trackpoint => hw.profile s v
  | _ => simpsons (hw.profile s) v last

/-- Whether the filter keeps trackers at all. -/
def Kind.adaptive : Kind → Bool
  | .flat | .touchpadFlat | .tablet => false
  | _ => true

/-- Whether the filter averages with the velocity of the last movement. -/
def Kind.averages : Kind → Bool
  | .trackpoint | .flat | .touchpadFlat | .tablet => false
  | _ => true

/-- A filter at speed `s` with a history. -/
structure At (hw : Hw) (s : ℝ) (h : Hist) (last : ℝ) (f : Filter) : Prop where
  ex : ∃ tk, f.impl = hw.implAt s tk last ∧ tk.n = hw.ntrackers ∧ tk.smoothener = hw.kind.smoothener ∧
    (hw.kind.adaptive = true → Tracks tk h)

theorem setSpeed_ptr (p : Pointer) (s : ℝ) :
    p.setSpeed s = ⟨p.lastVelocity, p.trackers, thr s, 2 + s * 1.5, 1.1 + s * 0.75, p.dpi⟩ := by
  unfold Pointer.setSpeed thr
  simp only

theorem setSpeed_some (f : Filter) (s : ℝ) (hs : IsSpeed s) : ∃ f', f.setSpeed s = some f' := by
  unfold Filter.setSpeed
  rw [if_neg (not_not.mpr ⟨hs.1, hs.2⟩)]
  exact ⟨_, rfl⟩

theorem setSpeed_speed {f f' : Filter} {s : ℝ} (h : f.setSpeed s = some f') : IsSpeed s := by
  unfold Filter.setSpeed at h
  split at h
  · exact absurd h (by simp)
  · rename_i hs; exact not_not.mp hs

theorem setSpeed_at {hw : Hw} {s s' : ℝ} {h : Hist} {last : ℝ} {f f' : Filter} (ha : At hw s h last f) (hf : f.setSpeed s' = some f') :
    At hw s' h last f' := by
  obtain ⟨tk, h1, h2, h3, h4⟩ := ha.ex
  refine ⟨tk, ?_, h2, h3, h4⟩
  have hs := setSpeed_speed hf
  unfold Filter.setSpeed at hf
  rw [if_neg (not_not.mpr ⟨hs.1, hs.2⟩), h1] at hf
  obtain rfl := Option.some.inj hf
  unfold Hw.implAt
  cases hw.kind <;> simp [setSpeed_ptr, Flat.setSpeed]

/-- A new filter has no history. -/
theorem filter_at {hw : Hw} {s : ℝ} {f : Filter} (hf : hw.filter s = some f) : At hw s [] 0 f := by
  unfold Hw.filter at hf
  have hs := setSpeed_speed hf
  refine ⟨hw.trackers, ?_, rfl, rfl, fun _ => tracks_smoothener (tracks_init _ ?_) _⟩
  · unfold Filter.setSpeed at hf
    rw [if_neg (not_not.mpr ⟨hs.1, hs.2⟩)] at hf
    obtain rfl := Option.some.inj hf
    unfold Hw.implAt Hw.create
    cases hw.kind <;> simp [setSpeed_ptr, Flat.setSpeed]
  · unfold Hw.ntrackers; split <;> omega

theorem restart_at {hw : Hw} {s : ℝ} {h : Hist} {last : ℝ} {f : Filter} (ha : At hw s h last f) (t : Nat) :
    At hw s [⟨⟨0, 0⟩, t, 0xff⟩] last (f.restart t) := by
  obtain ⟨tk, h1, h2, h3, h4⟩ := ha.ex
  by_cases hk : hw.kind.adaptive = true
  · refine ⟨tk.reset t, ?_, by rw [reset_n]; exact h2, by rw [reset_smoothener]; exact h3, fun _ => tracks_reset (h4 hk) t⟩
    unfold Filter.restart
    rw [h1]
    unfold Hw.implAt
    revert hk
    cases hw.kind <;> simp [Kind.adaptive]
  · refine ⟨tk, ?_, h2, h3, fun h => absurd h hk⟩
    unfold Filter.restart
    rw [h1]
    cases hkd : hw.kind <;> rw [hkd] at hk <;> simp only [Kind.adaptive, not_true] at hk <;> simp only [Hw.implAt, hkd, h1]

theorem clock_eq (hw : Hw) : clockOf hw.kind.smoothener = hw.clock := by
  unfold Hw.clock
  cases hw.kind with
  | touchpad b => cases b <;> rfl
  | _ => rfl

theorem smoothener_ok (k : Kind) : ∀ s, k.smoothener = some s → s.threshold ≤ 1000001 := by
  intro s h
  unfold Kind.smoothener at h
  split at h <;> first | (obtain rfl := Option.some.inj h; decide) | (cases h)

theorem clock_ok (hw : Hw) : hw.clock.short ≤ 1000001 := by
  unfold Hw.clock
  split <;> decide

theorem memory_eq (hw : Hw) : hw.ntrackers = hw.memory := rfl

theorem memory_two (hw : Hw) : 2 ≤ hw.memory := by unfold Hw.memory; split <;> omega

theorem seen_normal (hw : Hw) (d : V) (h : hw.kind = .mouse ∨ hw.kind = .x230) : normalizeForDpi d hw.dpi = hw.seen d := by
  unfold normalizeForDpi Hw.seen defaultMouseDpi
  rcases h with h | h <;> rw [h] <;> simp only [V.mk.injEq] <;> constructor <;> push_cast <;> ring

theorem seen_trackpoint (hw : Hw) (d : V) (h : hw.kind = .trackpoint) : (⟨d.x * hw.multiplier, d.y * hw.multiplier⟩ : V) = hw.seen d := by
  unfold Hw.seen
  rw [h]; simp only [V.mk.injEq]; constructor <;> ring

/-- A movement: the factor comes from the velocity that the history with this movement has. -/
theorem dispatch_at {hw : Hw} {s : ℝ} {h : Hist} {last : ℝ} {f : Filter} (ha : At hw s h last f) (c : Bool) (d : V) (t : Nat) :
    ∃ v, IsVelocity (⟨hw.seen d, t, direction (hw.seen d)⟩ :: h) hw.clock hw.memory t v ∧
      (f.dispatch c d t).1 = (hw.natural c d).mul (hw.factor s v last) ∧
      At hw s (⟨hw.seen d, t, direction (hw.seen d)⟩ :: h) v (f.dispatch c d t).2 := by
  obtain ⟨tk, h1, h2, h3, h4⟩ := ha.ex
  by_cases hk : hw.kind.adaptive = true
  · have htk := tracks_feed (h4 hk) (hw.seen d) t
    refine ⟨(tk.feed (hw.seen d) t).velocity t, ?_, ?_, ⟨tk.feed (hw.seen d) t, ?_, h2, h3, fun _ => htk⟩⟩
    · have := velocity_is htk (by rw [feed_n, h2, memory_eq]; exact memory_two hw) t (by rw [feed_smoothener, h3]; exact smoothener_ok _)
      rw [feed_smoothener, feed_n, h2, h3, clock_eq] at this
      exact this
    · unfold Filter.dispatch
      rw [h1]
      cases hkd : hw.kind with
      | mouse =>
        simp only [Hw.implAt, hkd, filterMouse, Pointer.filterGeneric, Pointer.accelerationFactor, seen_normal hw d (Or.inl hkd)]
        unfold Hw.factor Hw.profile Hw.natural Hw.seen
        simp only [hkd]; rfl
      | x230 =>
        simp only [Hw.implAt, hkd, filterX230, Pointer.filterGeneric, Pointer.accelerationFactor, seen_normal hw d (Or.inr hkd)]
        unfold Hw.factor Hw.profile Hw.natural Hw.seen
        simp only [hkd]; rfl
      | lowDpi =>
        simp only [Hw.implAt, hkd, filterLowDpi, Pointer.filterGeneric, Pointer.accelerationFactor]
        unfold Hw.factor Hw.profile Hw.natural Hw.seen
        simp only [hkd]; rfl
      | touchpad b =>
        have hseen : hw.seen d = d := by unfold Hw.seen; rw [hkd]
        rw [hseen]
        simp only [Hw.implAt, hkd, filterTouchpad, Touchpad.accelerationFactor]
        unfold Hw.factor Hw.profile Hw.natural normalizeForDpi V.mul defaultMouseDpi
        simp only [hkd, V.mk.injEq]
        constructor
        · push_cast
          show simpsons _ _ _ * d.x * 1000 / _ = simpsons _ _ _ * (1000 / _ * d.x)
          generalize hg : simpsons _ _ _ = q
          rw [show simpsons (fun v => profileTouchpad ⟨0, hw.trackers, 130, hw.dpi, speedFactor s⟩ v) ((tk.feed d t).velocity t) last = q from hg]
          ring
        · push_cast
          show simpsons _ _ _ * d.y * 1000 / _ = simpsons _ _ _ * (1000 / _ * d.y)
          generalize hg : simpsons _ _ _ = q
          rw [show simpsons (fun v => profileTouchpad ⟨0, hw.trackers, 130, hw.dpi, speedFactor s⟩ v) ((tk.feed d t).velocity t) last = q from hg]
          ring
      | trackpoint =>
        simp only [Hw.implAt, hkd, filterTrackpoint, seen_trackpoint hw d hkd]
        unfold Hw.factor Hw.profile Hw.natural Hw.seen V.mul
        simp only [hkd, V.mk.injEq, profileTrackpoint_eq]
        constructor <;> ring
      | flat => rw [hkd] at hk; cases hk
      | touchpadFlat => rw [hkd] at hk; cases hk
      | tablet => rw [hkd] at hk; cases hk
    · unfold Filter.dispatch
      rw [h1]
      cases hkd : hw.kind with
      | mouse =>
        simp only [Hw.implAt, hkd, filterMouse, Pointer.filterGeneric, Pointer.accelerationFactor, seen_normal hw d (Or.inl hkd)]
      | x230 =>
        simp only [Hw.implAt, hkd, filterX230, Pointer.filterGeneric, Pointer.accelerationFactor, seen_normal hw d (Or.inr hkd)]
      | lowDpi =>
        have hseen : hw.seen d = d := by unfold Hw.seen; rw [hkd]
        rw [hseen]
        simp only [Hw.implAt, hkd, filterLowDpi, Pointer.filterGeneric, Pointer.accelerationFactor]
      | touchpad b =>
        have hseen : hw.seen d = d := by unfold Hw.seen; rw [hkd]
        rw [hseen]
        simp only [Hw.implAt, hkd, filterTouchpad, Touchpad.accelerationFactor]
      | trackpoint =>
        simp only [Hw.implAt, hkd, filterTrackpoint, seen_trackpoint hw d hkd]
      | flat => rw [hkd] at hk; cases hk
      | touchpadFlat => rw [hkd] at hk; cases hk
      | tablet => rw [hkd] at hk; cases hk
  · obtain ⟨v, hv⟩ := isVelocity_exists (⟨hw.seen d, t, direction (hw.seen d)⟩ :: h) hw.clock hw.memory t (memory_two hw) (clock_ok hw)
    refine ⟨v, hv, ?_, ⟨tk, ?_, h2, h3, fun hh => absurd hh hk⟩⟩
    · unfold Filter.dispatch
      rw [h1]
      unfold Hw.factor Hw.natural
      cases hkd : hw.kind <;> rw [hkd] at hk <;> simp only [Kind.adaptive, not_true] at hk
      · simp only [Hw.implAt, hkd, filterFlat, V.mul, simpsons, Hw.profile, V.mk.injEq]
        constructor <;> ring
      · simp only [Hw.implAt, hkd, filterTouchpadFlat, V.mul, simpsons, Hw.profile, V.mk.injEq]
        constructor <;> ring
      · simp only [Hw.implAt, hkd, filterTabletMouse, filterTabletPen, V.mul, simpsons, Hw.profile, defaultMouseDpi]
        cases c <;> simp only [V.mk.injEq, if_true, Bool.false_eq_true, if_false] <;> constructor <;> push_cast <;> ring
    · unfold Filter.dispatch
      rw [h1]
      cases hkd : hw.kind <;> rw [hkd] at hk <;> simp only [Kind.adaptive, not_true] at hk <;> simp only [Hw.implAt, hkd, h1]

/-! ### Whole histories -/

theorem hist_snoc (hw : Hw) (ops : List Op) (op : Op) : hw.hist (ops ++ [op]) = hw.after (hw.hist ops) op := by
  unfold Hw.hist; rw [List.foldl_append]; rfl

theorem speedAfter_snoc (s : ℝ) (ops : List Op) (op : Op) : speedAfter s (ops ++ [op]) = speedAfter (speedAfter s ops) [op] := by
  induction ops generalizing s with
  | nil => rfl
  | cons a ops ih => cases a <;> exact ih _

theorem run_snoc (f : Filter) (ops : List Op) (op : Op) : f.run (ops ++ [op]) = (f.run ops).bind (fun g => g.step op) := by
  induction ops generalizing f with
  | nil =>
    show (match f.step op with | some f => f.run [] | none => none) = f.step op
    cases f.step op <;> rfl
  | cons a ops ih =>
    show (match f.step a with | some f => f.run (ops ++ [op]) | none => none) = (match f.step a with | some f => f.run ops | none => none).bind _
    cases f.step a with
    | none => rfl
    | some g => exact ih g

theorem isLast_other {hw : Hw} {ops : List Op} {op : Op} {v : ℝ} (h : hw.IsLast ops v) (ho : op.isMove = false) : hw.IsLast (ops ++ [op]) v := by
  rcases h with ⟨h1, h2⟩ | ⟨pre, c, d, t, post, h1, h2, h3⟩
  · refine Or.inl ⟨h1, fun o hm => ?_⟩
    rcases List.mem_append.mp hm with hm | hm
    · exact h2 o hm
    · rw [List.mem_singleton.mp hm]; exact ho
  · refine Or.inr ⟨pre, c, d, t, post ++ [op], by rw [h1]; simp, fun o hm => ?_, h3⟩
    rcases List.mem_append.mp hm with hm | hm
    · exact h2 o hm
    · rw [List.mem_singleton.mp hm]; exact ho

/-- After any history the filter is what the history says. -/
theorem run_at {hw : Hw} {s : ℝ} {f : Filter} (ops : List Op) (hf : hw.filter s = some f) {g : Filter} (hg : f.run ops = some g) :
    ∃ last, hw.IsLast ops last ∧ At hw (speedAfter s ops) (hw.hist ops) last g ∧ IsSpeed (speedAfter s ops) := by
  induction ops using List.reverseRecOn generalizing g with
  | nil =>
    obtain rfl := Option.some.inj hg
    exact ⟨0, Or.inl ⟨rfl, fun _ h => by cases h⟩, filter_at hf, setSpeed_speed hf⟩
  | append_singleton ops op ih =>
    rw [run_snoc] at hg
    cases he : f.run ops with
    | none => rw [he] at hg; cases hg
    | some e =>
      rw [he] at hg
      obtain ⟨last, h1, h2, h3⟩ := ih he
      rw [hist_snoc, speedAfter_snoc]
      cases op with
      | move c d t =>
        obtain ⟨v, hv, -, ha⟩ := dispatch_at h2 c d t
        have hg' : (e.dispatch c d t).2 = g := Option.some.inj hg
        refine ⟨v, Or.inr ⟨ops, c, d, t, [], rfl, (fun _ h => (by cases h)), ?_⟩, hg' ▸ ha, h3⟩
        rw [hist_snoc]; exact hv
      | restart t =>
        have hg' : e.restart t = g := Option.some.inj hg
        exact ⟨last, isLast_other h1 rfl, hg' ▸ restart_at h2 t, h3⟩
      | setSpeed s' =>
        have hg' : e.setSpeed s' = some g := hg
        exact ⟨last, isLast_other h1 rfl, setSpeed_at h2 hg', setSpeed_speed hg'⟩

/-- Every history of accepted settings runs through. -/
theorem run_some (f : Filter) (ops : List Op) (h : ∀ s, Op.setSpeed s ∈ ops → IsSpeed s) : ∃ g, f.run ops = some g := by
  induction ops generalizing f with
  | nil => exact ⟨f, rfl⟩
  | cons a ops ih =>
    have hh : ∀ s, Op.setSpeed s ∈ ops → IsSpeed s := fun s hs => h s (List.mem_cons_of_mem _ hs)
    cases a with
    | move c d t => exact ih _ hh
    | restart t => exact ih _ hh
    | setSpeed s =>
      obtain ⟨f', hf'⟩ := setSpeed_some f s (h s (List.mem_cons_self ..))
      obtain ⟨g, hg⟩ := ih f' hh
      refine ⟨g, ?_⟩
      show (match f.setSpeed s with | some f => f.run ops | none => none) = _
      rw [hf']; exact hg

/-! ### Velocities are not negative -/

theorem velocity_nonneg (h : Hist) (c : Clock) (now k : Nat) : 0 ≤ h.velocity c now k :=
  div_nonneg (Real.sqrt_nonneg _) (Nat.cast_nonneg _)

theorem isVelocity_nonneg {h : Hist} {c : Clock} {n now : Nat} {v : ℝ} (hv : IsVelocity h c n now v) : 0 ≤ v := by
  rcases hv with ⟨-, h⟩ | ⟨-, h⟩ | ⟨-, -, h⟩ | ⟨k, -, -, -, -, h⟩
  · rw [h]
  · rw [h]; exact div_nonneg (Real.sqrt_nonneg _) (by norm_num)
  · rw [h]; exact velocity_nonneg ..
  · rw [h]; exact velocity_nonneg ..

theorem isLast_nonneg {hw : Hw} {ops : List Op} {v : ℝ} (h : hw.IsLast ops v) : 0 ≤ v := by
  rcases h with ⟨h, -⟩ | ⟨_, _, _, _, _, -, -, h⟩
  · rw [h]
  · exact isVelocity_nonneg h

end Libinput.Accel
