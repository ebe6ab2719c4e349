import Verif.Accel.Spec
import Mathlib.Tactic.Ring
import Mathlib.Tactic.Linarith
import Mathlib.Tactic.NormNum
/-
The ring of trackers is the history of movements: the tracker `k` back from the current one has the time and direction
of the `k`-th newest movement and the way moved since.
-/
namespace Libinput.Accel

theorem mod_two {a n : Nat} (h : a < 2 * n) : a % n = if a < n then a else a - n := by
  split
  · exact Nat.mod_eq_of_lt ‹_›
  · rw [Nat.mod_eq_sub_mod (by omega), Nat.mod_eq_of_lt (by omega)]

theorem index_eq {tk : Trackers} (hc : tk.cur < tk.n) (k : Nat) (hk : k < tk.n) :
    tk.index k = if k ≤ tk.cur then tk.cur - k else tk.cur + tk.n - k := by
  unfold Trackers.index
  by_cases h0 : k = 0
  · subst h0
    rw [Nat.sub_zero, Nat.add_mod_right, Nat.mod_eq_of_lt hc]; simp
  · rw [mod_two (by omega)]; split <;> split <;> omega

theorem index_lt {tk : Trackers} (hn : 0 < tk.n) (k : Nat) : tk.index k < tk.n := Nat.mod_lt _ hn

theorem index_inj {tk : Trackers} (hc : tk.cur < tk.n) {k l : Nat} (hk : k < tk.n) (hl : l < tk.n)
    (h : tk.index k = tk.index l) : k = l := by
  rw [index_eq hc k hk, index_eq hc l hl] at h
  split at h <;> split at h <;> omega

/-- The trackers say what the history says. -/
structure Tracks (tk : Trackers) (h : Hist) : Prop where
  cur : tk.cur < tk.n
  at_ : ∀ k, k < tk.n → tk.byOffset k = ⟨h.since k, (h.nth k).time, (h.nth k).dir⟩

theorem since_zero (h : Hist) : h.since 0 = ⟨0, 0⟩ := by cases h <;> rfl

theorem since_nil (k : Nat) : Hist.since [] k = ⟨0, 0⟩ := by cases k <;> rfl

theorem tracks_init (n : Nat) (hn : 0 < n) : Tracks (Trackers.init n) [] := by
  refine ⟨hn, fun k hk => ?_⟩
  rw [since_nil]; rfl

theorem tracks_smoothener {tk : Trackers} {h : Hist} (ht : Tracks tk h) (sm : Option Smoothener) :
    Tracks { tk with smoothener := sm } h := ⟨ht.cur, ht.at_⟩

/-! ### Feeding -/

theorem feed_n (tk : Trackers) (d : V) (t : Nat) : (tk.feed d t).n = tk.n := rfl
theorem feed_smoothener (tk : Trackers) (d : V) (t : Nat) : (tk.feed d t).smoothener = tk.smoothener := rfl
theorem feed_cur (tk : Trackers) (d : V) (t : Nat) : (tk.feed d t).cur = (tk.cur + 1) % tk.n := rfl

theorem tracks_feed {tk : Trackers} {h : Hist} (ht : Tracks tk h) (d : V) (t : Nat) :
    Tracks (tk.feed d t) (⟨d, t, direction d⟩ :: h) := by
  have hc := ht.cur
  have hn : 0 < tk.n := by omega
  have hcur : (tk.feed d t).cur < (tk.feed d t).n := Nat.mod_lt _ hn
  refine ⟨hcur, fun k hk => ?_⟩
  rw [feed_n] at hk
  have hts : ∀ j, (tk.feed d t).ts j = if j = (tk.cur + 1) % tk.n then ⟨⟨0, 0⟩, t, direction d⟩
      else if j < tk.n then { tk.ts j with delta := ⟨(tk.ts j).delta.x + d.x, (tk.ts j).delta.y + d.y⟩ } else tk.ts j := fun j => rfl
  have hmod : (tk.cur + 1) % tk.n = if tk.cur + 1 < tk.n then tk.cur + 1 else 0 := by
    rw [mod_two (by omega)]; split <;> omega
  have hix := index_eq hcur k (by rw [feed_n]; exact hk)
  rw [feed_cur, feed_n, hmod] at hix
  unfold Trackers.byOffset
  rw [hts, hmod]
  cases k with
  | zero =>
    have : (tk.feed d t).index 0 = if tk.cur + 1 < tk.n then tk.cur + 1 else 0 := by rw [hix]; simp
    rw [if_pos this]; rfl
  | succ k =>
    have h1 := ht.at_ k (by omega)
    have hold := index_eq hc k (by omega)
    have he : (tk.feed d t).index (k + 1) = tk.index k := by
      rw [hix, hold]; split <;> split <;> split <;> omega
    have hne : tk.index k ≠ if tk.cur + 1 < tk.n then tk.cur + 1 else 0 := by
      rw [hold]; split <;> split <;> omega
    rw [he, if_neg hne, if_pos (index_lt hn k)]
    unfold Trackers.byOffset at h1
    rw [h1]
    rfl

/-! ### Restarting -/

theorem put_index (tk : Trackers) (i : Nat) (t : Tracker) (k : Nat) : (tk.put i t).index k = tk.index k := rfl

theorem reset_fold (l : List Nat) (tk : Trackers) :
    (l.foldl (fun tk k => tk.put (tk.index (k + 1)) Tracker.zero) tk).n = tk.n ∧
    (l.foldl (fun tk k => tk.put (tk.index (k + 1)) Tracker.zero) tk).cur = tk.cur ∧
    (l.foldl (fun tk k => tk.put (tk.index (k + 1)) Tracker.zero) tk).smoothener = tk.smoothener ∧
    ∀ j, (l.foldl (fun tk k => tk.put (tk.index (k + 1)) Tracker.zero) tk).ts j =
      @ite _ (∃ k ∈ l, j = tk.index (k + 1)) (Classical.propDecidable _) Tracker.zero (tk.ts j) := by
  induction l generalizing tk with
  | nil => simp
  | cons a l ih =>
    obtain ⟨h1, h2, h3, h4⟩ := ih (tk.put (tk.index (a + 1)) Tracker.zero)
    refine ⟨h1, h2, h3, fun j => ?_⟩
    rw [List.foldl_cons, h4 j]
    by_cases hl : ∃ k ∈ l, j = (tk.put (tk.index (a + 1)) Tracker.zero).index (k + 1)
    · rw [if_pos hl]
      obtain ⟨k, hk, he⟩ := hl
      rw [if_pos ⟨k, List.mem_cons_of_mem _ hk, he⟩]
    · rw [if_neg hl]
      by_cases ha : j = tk.index (a + 1)
      · rw [if_pos ⟨a, List.mem_cons_self .., ha⟩]
        simp [Trackers.put, ha]
      · rw [if_neg]
        · simp [Trackers.put, ha]
        · rintro ⟨k, hk, he⟩
          rcases List.mem_cons.mp hk with rfl | hk
          · exact ha he
          · exact hl ⟨k, hk, he⟩

theorem clearOthers_spec (tk : Trackers) :
    tk.clearOthers.n = tk.n ∧ tk.clearOthers.cur = tk.cur ∧ tk.clearOthers.smoothener = tk.smoothener ∧
    ∀ j, tk.clearOthers.ts j = @ite _ (∃ k ∈ List.range (tk.n - 1), j = tk.index (k + 1)) (Classical.propDecidable _) Tracker.zero (tk.ts j) :=
  reset_fold (List.range (tk.n - 1)) tk

theorem tracks_reset {tk : Trackers} {h : Hist} (ht : Tracks tk h) (t : Nat) :
    Tracks (tk.reset t) [⟨⟨0, 0⟩, t, undefinedDirection⟩] := by
  have hc := ht.cur
  obtain ⟨h1, h2, -, h4⟩ := clearOthers_spec tk
  have hn : (tk.reset t).n = tk.n := h1
  have hcur : (tk.reset t).cur = tk.cur := h2
  have hix : ∀ k, (tk.reset t).index k = tk.index k := fun k => by unfold Trackers.index; rw [hn, hcur]
  have hfx : ∀ k, tk.clearOthers.index k = tk.index k := fun k => by unfold Trackers.index; rw [h1, h2]
  have hz : ¬ ∃ k ∈ List.range (tk.n - 1), tk.index 0 = tk.index (k + 1) := by
    rintro ⟨k, hk, he⟩
    rw [List.mem_range] at hk
    have := index_inj hc (by omega) (by omega) he
    omega
  have hts : ∀ j, (tk.reset t).ts j = if j = tk.clearOthers.index 0 then
      { tk.clearOthers.byOffset 0 with time := t, dir := undefinedDirection } else tk.clearOthers.ts j := fun j => rfl
  refine ⟨by rw [hn, hcur]; exact hc, fun k hk => ?_⟩
  rw [hn] at hk
  unfold Trackers.byOffset
  rw [hix, hts, hfx]
  by_cases h0 : k = 0
  · subst h0
    rw [if_pos rfl]
    have he : tk.clearOthers.byOffset 0 = tk.byOffset 0 := by
      unfold Trackers.byOffset; rw [hfx, h4, if_neg hz]
    rw [he, ht.at_ 0 hk, since_zero, since_zero]; rfl
  · rw [if_neg (fun he => h0 (index_inj hc hk (by omega) he)), h4, if_pos]
    · obtain ⟨m, rfl⟩ := Nat.exists_eq_succ_of_ne_zero h0
      cases m <;> simp [Hist.since, Hist.nth, Tracker.zero, since_nil]
    · exact ⟨k - 1, by rw [List.mem_range]; omega, by rw [Nat.sub_add_cancel (by omega)]⟩

theorem reset_n (tk : Trackers) (t : Nat) : (tk.reset t).n = tk.n := (clearOthers_spec tk).1
theorem reset_smoothener (tk : Trackers) (t : Nat) : (tk.reset t).smoothener = tk.smoothener := (clearOthers_spec tk).2.2.1

/-! ### The velocity -/

/-- The clock a smoothener makes. -/
def clockOf : Option Smoothener → Clock
  | none => ⟨0, 0⟩
  | some s => ⟨s.threshold, s.value⟩

theorem tdelta_eq (sm : Option Smoothener) (a b : Nat) : tdelta sm (b - a) = (clockOf sm).between a b := by
  cases sm with
  | none => simp [tdelta, clockOf, Clock.between]
  | some s => rfl

theorem hypot_eq (d : V) : hypot d = d.length := by unfold hypot V.length; congr 1; ring

theorem trackerVelocity_eq {tk : Trackers} {h : Hist} (ht : Tracks tk h) (now k : Nat) (hk : k < tk.n) :
    trackerVelocity (tk.byOffset k) now tk.smoothener = h.velocity (clockOf tk.smoothener) now k := by
  rw [ht.at_ k hk]
  simp only [trackerVelocity, Hist.velocity, hypot_eq, tdelta_eq]

theorem reference_unique {h : Hist} {c : Clock} {now k j l : Nat} (h1 : h.reference c now k j) (h2 : h.reference c now k l) : j = l := by
  obtain ⟨a1, a2, a3, a4⟩ := h1
  obtain ⟨b1, b2, b3, b4⟩ := h2
  rcases Nat.lt_trichotomy j l with hl | hl | hl
  · exact absurd (b4 j a1 hl) a3
  · exact hl
  · exact absurd (a4 l b1 hl) b3

/-- What the loop compares with. -/
def Initial (h : Hist) (c : Clock) (now k : Nat) (v : ℝ) : Prop :=
  (v = 0 ∧ ∀ i, 2 ≤ i → i < k → h.velocity c now i = 0) ∨ ∃ j, h.reference c now k j ∧ v = h.velocity c now j

theorem initial_step {h : Hist} {c : Clock} {now k : Nat} {v : ℝ} (hi : Initial h c now k v) (hv : v ≠ 0) : Initial h c now (k + 1) v := by
  rcases hi with ⟨h0, -⟩ | ⟨j, ⟨h1, h2, h3, h4⟩, h5⟩
  · exact absurd h0 hv
  · exact Or.inr ⟨j, ⟨h1, by omega, h3, h4⟩, h5⟩

theorem initial_new {h : Hist} {c : Clock} {now k : Nat} {v : ℝ} (hk : 2 ≤ k) (hi : Initial h c now k v) (hv : v = 0) :
    Initial h c now (k + 1) (h.velocity c now k) := by
  rcases hi with ⟨-, h0⟩ | ⟨j, ⟨h1, h2, h3, h4⟩, h5⟩
  · by_cases hz : h.velocity c now k = 0
    · refine Or.inl ⟨hz, fun i h1 h2 => ?_⟩
      rcases Nat.lt_or_eq_of_le (Nat.le_of_lt_succ h2) with h3 | h3
      · exact h0 i h1 h3
      · rw [h3]; exact hz
    · exact Or.inr ⟨k, ⟨hk, by omega, hz, fun i h1 h2 => h0 i h1 h2⟩, rfl⟩
  · rw [hv] at h5; exact absurd h5.symm h3

theorem initial_two (h : Hist) (c : Clock) (now : Nat) : Initial h c now 3 (h.velocity c now 2) := by
  by_cases hz : h.velocity c now 2 = 0
  · refine Or.inl ⟨hz, fun i h1 h2 => ?_⟩
    obtain rfl : i = 2 := by omega
    exact hz
  · exact Or.inr ⟨2, ⟨by omega, by omega, hz, fun i h1 h2 => by omega⟩, rfl⟩

/-- The velocity loop, once it has gone past the first tracker. -/
theorem loop_is {tk : Trackers} {h : Hist} (ht : Tracks tk h) (now : Nat) (rem k : Nat) (initial : ℝ)
    (hrem : k + 1 + rem = tk.n) (hk : 1 ≤ k) (hal : h.alike (clockOf tk.smoothener) now k)
    (hin : k ≥ 2 → Initial h (clockOf tk.smoothener) now (k + 1) initial) :
    IsVelocity h (clockOf tk.smoothener) tk.n now
      (velocityLoop tk now rem (k + 1) (h.common k) initial (h.velocity (clockOf tk.smoothener) now k)) := by
  induction rem generalizing k initial with
  | zero => exact .since k hk (by omega) hal (fun h => by omega) rfl
  | succ rem ih =>
    have hlt : k + 1 < tk.n := by omega
    unfold velocityLoop
    have hv := trackerVelocity_eq ht now (k + 1) hlt
    have htime : (tk.byOffset (k + 1)).time = (h.nth (k + 1)).time := by rw [ht.at_ _ hlt]
    have hdir : (tk.byOffset (k + 1)).dir = (h.nth (k + 1)).dir := by rw [ht.at_ _ hlt]
    simp only [hv, htime, hdir]
    have hcm : h.common k &&& (h.nth (k + 1)).dir = h.common (k + 1) := rfl
    rw [hcm]
    generalize hc : clockOf tk.smoothener = c at *
    split
    · rename_i hb
      exact .since k hk (by omega) hal (fun _ hr => by have := (hr (k + 1) (by omega) (by omega)).1.1; omega) rfl
    · rename_i hb
      split
      · rename_i ho
        rw [if_neg (by omega)]
        exact .since k hk (by omega) hal (fun _ hr => by have := (hr (k + 1) (by omega) (by omega)).1.2; unfold motionTimeout at ho; omega) rfl
      · rename_i ho
        have hrec : h.recent now (k + 1) := ⟨by omega, by unfold motionTimeout at ho; omega⟩
        split
        · rename_i hd
          rw [if_neg (by omega)]
          exact .since k hk (by omega) hal (fun _ hr => (hr (k + 1) (by omega) (by omega)).2.1 hd) rfl
        · rename_i hd
          have hal' : ¬ h.differs c now (k + 1) → h.alike c now (k + 1) := fun hnd j h1 h2 => by
            rcases Nat.lt_or_eq_of_le h2 with h3 | h3
            · exact hal j h1 (by omega)
            · subst h3; exact ⟨hrec, hd, hnd⟩
          split
          · rename_i hi
            by_cases hk2 : k ≥ 2
            · have hi0 : initial = 0 := by
                rcases hi with h | h
                · exact h
                · omega
              refine ih (k + 1) _ (by omega) (by omega) (hal' ?_) (fun _ => initial_new (by omega) (hin hk2) hi0)
              rintro ⟨j, ⟨h1, h2, h3, h4⟩, -⟩
              rcases hin hk2 with ⟨-, h0⟩ | ⟨l, ⟨g1, g2, g3, g4⟩, g5⟩
              · exact h3 (h0 j h1 h2)
              · rw [hi0] at g5; exact g3 g5.symm
            · obtain rfl : k = 1 := by omega
              refine ih 2 _ (by omega) (by omega) (hal' ?_) (fun _ => initial_two h c now)
              rintro ⟨j, ⟨h1, h2, -⟩, -⟩
              omega
          · rename_i hi
            have hi0 : initial ≠ 0 := fun h0 => hi (Or.inl h0)
            have hk2 : k ≥ 2 := by
              by_contra hk2
              exact hi (Or.inr (by omega))
            obtain ⟨j, hj, hje⟩ : ∃ j, h.reference c now (k + 1) j ∧ initial = h.velocity c now j := by
              rcases hin hk2 with ⟨h0, -⟩ | h0
              · exact absurd h0 hi0
              · exact h0
            split
            · rename_i hdf
              refine .since k hk (by omega) hal (fun _ hr => (hr (k + 1) (by omega) (by omega)).2.2 ⟨j, hj, ?_⟩) rfl
              rw [← hje]; unfold ms2us at hdf; exact hdf
            · rename_i hdf
              refine ih (k + 1) _ (by omega) (by omega) (hal' ?_) (fun _ => initial_step (hin hk2) hi0)
              rintro ⟨l, hl, hgt⟩
              rw [reference_unique hl hj, ← hje] at hgt
              unfold ms2us at hdf; exact hdf hgt

theorem between_timeout (sm : Option Smoothener) (a : Nat) (hs : ∀ s, sm = some s → s.threshold ≤ 1000001) :
    (clockOf sm).between a (a + motionTimeout) = 1000001 := by
  cases sm with
  | none => simp [clockOf, Clock.between, motionTimeout]
  | some s =>
    have := hs s rfl
    unfold Clock.between
    rw [if_neg]
    · unfold motionTimeout; omega
    · show ¬ (a + motionTimeout - a + 1 < s.threshold)
      unfold motionTimeout; omega

/-- The velocity is that of the specification. -/
theorem velocity_is {tk : Trackers} {h : Hist} (ht : Tracks tk h) (hn : 2 ≤ tk.n) (now : Nat)
    (hs : ∀ s, tk.smoothener = some s → s.threshold ≤ 1000001) :
    IsVelocity h (clockOf tk.smoothener) tk.n now (tk.velocity now) := by
  unfold Trackers.velocity
  obtain ⟨m, hm⟩ : ∃ m, tk.n - 1 = m + 1 := ⟨tk.n - 2, by omega⟩
  rw [hm]
  unfold velocityLoop
  have h0 : (tk.byOffset 0).dir = h.common 0 := by rw [ht.at_ 0 (by omega)]; rfl
  have hv := trackerVelocity_eq ht now 1 (by omega)
  have htime : (tk.byOffset 1).time = (h.nth 1).time := by rw [ht.at_ _ (by omega)]
  have hdir : (tk.byOffset 1).dir = (h.nth 1).dir := by rw [ht.at_ _ (by omega)]
  have hd1 : (tk.byOffset 1).delta = h.since 1 := by rw [ht.at_ _ (by omega)]
  simp only [h0, hv, htime, hdir]
  have hcm : h.common 0 &&& (h.nth 1).dir = h.common 1 := rfl
  rw [hcm]
  split
  · exact .backwards (by omega) rfl
  · rename_i hb
    split
    · rename_i ho
      rw [if_pos trivial]
      refine .paused (by unfold motionTimeout at ho; omega) ?_
      unfold velocityAfterTimeout trackerVelocity
      rw [tdelta_eq, between_timeout _ _ hs, hypot_eq, hd1]
      norm_num
    · rename_i ho
      have hrec : h.recent now 1 := ⟨by omega, by unfold motionTimeout at ho; omega⟩
      split
      · rename_i hd
        rw [if_pos trivial]
        exact .turned hrec hd rfl
      · rename_i hd
        rw [if_pos (by simp)]
        exact loop_is ht now m 1 _ (by omega) (by omega) (fun j h1 h2 => by
          obtain rfl : j = 1 := by omega
          exact ⟨hrec, hd, fun ⟨i, hi, _⟩ => by have := hi.1; have := hi.2.1; omega⟩) (fun h2 => absurd h2 (by omega))

/-- The specification leaves no choice. -/
theorem isVelocity_unique {h : Hist} {c : Clock} {n now : Nat} {v w : ℝ} (hv : IsVelocity h c n now v) (hw : IsVelocity h c n now w) :
    v = w := by
  have key : ∀ k l, 1 ≤ k → k < l → l < n → h.alike c now l → ¬ (k + 1 < n → ¬ h.alike c now (k + 1)) :=
    fun k l _ h2 h3 h4 h5 => h5 (by omega) (fun j g1 g2 => h4 j g1 (by omega))
  rcases hv with ⟨a1, a2⟩ | ⟨a1, a2⟩ | ⟨a1, a2, a3⟩ | ⟨k, a1, a2, a3, a4, a5⟩ <;>
    rcases hw with ⟨b1, b2⟩ | ⟨b1, b2⟩ | ⟨b1, b2, b3⟩ | ⟨l, b1, b2, b3, b4, b5⟩
  · rw [a2, b2]
  · omega
  · have := b1.1; omega
  · have := (b3 1 (by omega) b1).1.1; omega
  · omega
  · rw [a2, b2]
  · have := b1.2; omega
  · have := (b3 1 (by omega) b1).1.2; omega
  · have := a1.1; omega
  · have := a1.2; omega
  · rw [a3, b3]
  · exact absurd a2 (b3 1 (by omega) b1).2.1
  · have := (a3 1 (by omega) a1).1.1; omega
  · have := (a3 1 (by omega) a1).1.2; omega
  · exact absurd b2 (a3 1 (by omega) a1).2.1
  · rcases Nat.lt_trichotomy k l with hl | hl | hl
    · exact absurd a4 (key k l a1 hl b2 b3)
    · rw [a5, b5, hl]
    · exact absurd b4 (key l k b1 hl a2 a3)

/-- There is always a velocity. -/
theorem isVelocity_exists (h : Hist) (c : Clock) (n now : Nat) (hn : 2 ≤ n) (hc : c.short ≤ 1000001) : ∃ v, IsVelocity h c n now v := by
  let tk : Trackers := { ts := fun i => ⟨h.since (n - 1 - i), (h.nth (n - 1 - i)).time, (h.nth (n - 1 - i)).dir⟩, n := n, cur := n - 1, smoothener := some ⟨c.short, c.fixed⟩ }
  have ht : Tracks tk h := by
    refine ⟨by show n - 1 < n; omega, fun k hk => ?_⟩
    have hk' : k < n := hk
    have hix := index_eq (tk := tk) (by show n - 1 < n; omega) k hk
    have h2 : tk.index k = n - 1 - k := by
      rw [hix, if_pos (show k ≤ n - 1 by omega)]
    unfold Trackers.byOffset
    rw [h2]
    show (⟨h.since (n - 1 - (n - 1 - k)), _, _⟩ : Tracker) = _
    rw [show n - 1 - (n - 1 - k) = k by omega]
  exact ⟨_, velocity_is ht hn now (fun s hs => by obtain rfl := Option.some.inj hs; exact hc)⟩

end Libinput.Accel
