import Verif.Touch.Values
/-
Touchpads that tell fingers by their pressure and have more fingers on them than slots; and where the fingers
without a slot are.
-/
namespace Libinput.Touch
open Spec

theorem begin_all {ds : List Bool} {s : Pad} (h : During ds s) (n : Nat) (hp : s.touches.countP present ≤ n) :
    hovers (s.loop (beginOne n)).touches = 0 := by
  have h1 := begin_loop h n
  have hn : s.acc.n = downs s.touches := h.counted
  have hn' : (s.loop (beginOne n)).acc.n = downs (s.loop (beginOne n)).touches := h1.1.counted
  have hsp := present_split s.touches
  by_cases hz : hovers s.touches = 0
  · have hz' : ∀ t ∈ s.touches, t.st ≠ .hovering := by
      unfold hovers at hz
      rw [List.countP_eq_zero] at hz
      intro t ht hs
      exact hz t ht (by simp [hs])
    unfold hovers
    rw [List.countP_eq_zero]
    intro t ht
    obtain ⟨j, hj, e⟩ := List.getElem_of_mem ht
    have hg : (s.loop (beginOne n)).touches[j]? = some t := by rw [← e, List.getElem?_eq_getElem]
    obtain ⟨a', t0, h0, e'⟩ := each_get _ _ _ _ _ _ hg
    have hne := hz' t0 (List.mem_of_getElem? h0)
    rcases beginOne_cases n (0 + j) a' t0 with e | ⟨hs, _⟩
    · rw [e', e]; simpa using hne
    · exact absurd hs hne
  · have hlt : s.acc.n < n := by omega
    have hc := begin_count n s.touches 0 { s.acc with done := false } (fun _ => hlt)
    simp only [Bool.false_eq_true, if_false] at hc
    have hc' : (s.loop (beginOne n)).acc.n = min n (s.acc.n + hovers s.touches) := hc
    have hle : (s.loop (beginOne n)).touches.countP present ≤ s.touches.countP present :=
      each_present _ (beginOne_present n) s.touches 0 _
    have hsp' := present_split (s.loop (beginOne n)).touches
    omega

theorem end_all {ds : List Bool} {s : Pad} (h : Between ds s) (n : Nat) : downs (s.loopBack (endOne true n)).touches = 0 := by
  have h1 := (end_loop h true n).1.counted
  have hn : s.acc.n = downs s.touches := h.counted
  have h2 := end_count true n s.touches.reverse 0 { s.acc with done := false }
    (by rw [downs_reverse, hn]; exact Nat.le_refl _) (by simp) (by simp) (by simp)
  simp only [if_true, downs_reverse] at h2
  have h2' : (s.loopBack (endOne true n)).acc.n = s.acc.n - downs s.touches := h2
  have h1' : (s.loopBack (endOne true n)).acc.n = _ := h1
  omega

/-- With more fingers than slots, all touches are down or none. -/
theorem unhoverPressure_all {ds : List Bool} {s : Pad} (h : Between ds s) (hw : Few s) (low high : Int)
    (hne : s.fake.count ≠ 128) (hlt : s.num < s.fake.count) :
    if downs ((s.loop (pressOne low high s.num s.fakeOrNone)).touches.take s.num) = 0
    then downs (s.unhoverPressure low high).touches = 0
    else hovers (s.unhoverPressure low high).touches = 0 := by
  rw [unhoverPressure_eq]
  obtain ⟨s1, e1⟩ : ∃ x, x = s.loop (pressOne low high s.num s.fakeOrNone) := ⟨_, rfl⟩
  have h1 : During ds s1 ∧ Clean s s1 := by
    rw [e1]; exact loop_during h _ fun i a t => pressOne_cases low high s.num s.fakeOrNone i a t
  have hn : s1.num = s.num := by rw [e1, loop_num]
  have hfo : s.fakeOrNone = s.fake.count := by simp [Pad.fakeOrNone, hne]
  have hp : s1.touches.countP present ≤ s.fakeOrNone := by
    rw [e1]
    refine Nat.le_trans ?_ (Nat.le_of_eq hfo.symm)
    exact Nat.le_trans (each_present _ (pressOne_present low high s.num s.fakeOrNone) s.touches 0 _) (hw hne hlt)
  have hcount : s1.acc.n = downs s1.touches := h1.1.counted
  have hle : downs (s1.touches.take s.num) ≤ downs s1.touches := by
    conv => rhs; rw [← List.take_append_drop s.num s1.touches]
    rw [downs_append]; omega
  simp only [← e1, hn]
  by_cases hz : s1.fingers = 0
  · have hz' : s1.acc.n = 0 := hz
    rw [if_pos (show downs (s1.touches.take s.num) = 0 by omega), if_pos (Or.inr hz)]
    omega
  · rw [if_neg (show ¬ (s.fakeOrNone ≤ s.num ∨ s1.fingers = 0) by omega)]
    by_cases hr : downs (s1.touches.take s.num) = 0
    · rw [if_pos hr]
      rw [if_neg (show ¬ downs (s1.touches.take s.num) > 0 by omega), if_pos (Or.inr hr)]
      have hb : Between ds s1 := by
        apply between_of_during h1.1
        intro t ht hbeg
        obtain ⟨j, hj, e⟩ := List.getElem_of_mem ht
        have hg : s1.touches[j]? = some t := by rw [← e, List.getElem?_eq_getElem]
        by_cases hjn : j < s1.num
        · have hm : t ∈ s1.touches.take s1.num := by
            rw [← e]; exact List.mem_take_iff_getElem.mpr ⟨j, by omega, rfl⟩
          have : 0 < downs (s1.touches.take s1.num) :=
            List.countP_pos_iff.mpr ⟨t, hm, by simp [Finger.down, hbeg]⟩
          rw [hn] at this
          omega
        · rw [e1] at hg
          obtain ⟨a', t0, h0, e'⟩ := each_get _ _ _ _ _ _ hg
          have : ¬ (0 + j < s.num ∧ t0.dirty = true) := by omega
          rw [pressOne, if_neg this] at e'
          obtain ⟨d, hd⟩ := h.ev.mem t0 (List.mem_of_getElem? h0)
          exact hd.notBegin (by rw [e'] at hbeg; exact hbeg)
      have hd : decide (downs (s1.touches.take s.num) = 0) = true := by simp [hr]
      rw [hd]
      exact end_all hb _
    · rw [if_neg hr, if_pos (show downs (s1.touches.take s.num) > 0 by omega)]
      have h2 := begin_loop h1.1 s.fakeOrNone
      have h3 : (s1.loop (beginOne s.fakeOrNone)).touches.countP present ≤ s.fakeOrNone :=
        Nat.le_trans (each_present _ (beginOne_present s.fakeOrNone) s1.touches 0 _) hp
      have h4 := downs_le_present (s1.loop (beginOne s.fakeOrNone)).touches
      have h5 : (s1.loop (beginOne s.fakeOrNone)).acc.n = _ := h2.1.counted
      rw [if_neg]
      · exact begin_all h1.1 _ hp
      · simp only [Pad.fingers]; omega

/-- What `pressOne` makes of a touch is down. -/
theorem pressOne_down (low high : Int) (num n i : Nat) (a : Acc) {d : Bool} {t : Finger} (ht : Ev d t) (hi : i < num)
    (hn : num < n) : (pressOne low high num n i a t).2.down = pressed low high (decide (num = 1)) t.st t.dirty t.pressure := by
  unfold Ev at ht
  have hnn : ¬ n ≤ num := by omega
  unfold pressOne pressed
  obtain ⟨one, h1⟩ : ∃ one : Bool, one = decide (num = 1) := ⟨_, rfl⟩
  have h1' : (n ≤ num ∨ num = 1) ↔ one = true := by rw [h1]; simp; omega
  simp only [h1', hi, true_and, ← h1]
  by_cases h2 : t.pressure < low <;> by_cases h3 : t.pressure ≥ high <;>
    cases hs : t.st <;> cases hd : t.dirty <;> cases one <;>
    simp [Finger.down, beginTouch, maybeEndTouch, h2, h3, hs, hd] at ht ⊢ <;> omega

/-- One of the touches in the slots is pressed hard enough. -/
def Pad.anyPressed (s : Pad) (low high : Int) (num : Nat) : Bool :=
  (s.touches.take num).any fun t => pressed low high (decide (num = 1)) t.st t.dirty t.pressure

theorem press_loop {ds : List Bool} {s : Pad} (h : Between ds s) (low high : Int) (n : Nat) (hn : s.num < n) :
    downs ((s.loop (pressOne low high s.num n)).touches.take s.num) = 0 ↔ s.anyPressed low high s.num = false := by
  have hl : (s.loop (pressOne low high s.num n)).touches.length = s.touches.length := (loop_same _ _).len
  constructor
  · intro h0
    unfold Pad.anyPressed
    rw [Bool.eq_false_iff]
    intro hany
    rw [List.any_eq_true] at hany
    obtain ⟨t, ht, hp⟩ := hany
    obtain ⟨j, hj, e⟩ := List.mem_take_iff_getElem.mp ht
    obtain ⟨d, hd⟩ := h.ev.mem t (by rw [← e]; exact List.getElem_mem _)
    have hj' : j < (s.loop (pressOne low high s.num n)).touches.length := by omega
    have hg : (s.loop (pressOne low high s.num n)).touches[j]? = some (s.loop (pressOne low high s.num n)).touches[j] :=
      List.getElem?_eq_getElem hj'
    obtain ⟨a', t0, h1, e'⟩ := each_get _ _ _ _ _ _ hg
    have e0 : t0 = t := by
      rw [List.getElem?_eq_getElem (by omega)] at h1
      simp only [Option.some.injEq] at h1
      rw [← h1, e]
    rw [Nat.zero_add, e0] at e'
    have hdn := pressOne_down low high s.num n j a' hd (by omega) hn
    rw [← e', hp] at hdn
    have : 0 < downs ((s.loop (pressOne low high s.num n)).touches.take s.num) :=
      List.countP_pos_iff.mpr ⟨_, List.mem_take_iff_getElem.mpr ⟨j, by omega, rfl⟩, hdn⟩
    omega
  · intro h0
    unfold downs
    rw [List.countP_eq_zero]
    intro t ht
    obtain ⟨j, hj, e⟩ := List.mem_take_iff_getElem.mp ht
    have hg : (s.loop (pressOne low high s.num n)).touches[j]? = some t := by rw [← e]; exact List.getElem?_eq_getElem _
    obtain ⟨a', t0, h1, e'⟩ := each_get _ _ _ _ _ _ hg
    obtain ⟨d, hd⟩ := h.ev.mem t0 (List.mem_of_getElem? h1)
    rw [Nat.zero_add] at e'
    rw [e', pressOne_down low high s.num n j a' hd (by omega) hn]
    unfold Pad.anyPressed at h0
    rw [List.any_eq_false] at h0
    have hlt : j < s.touches.length := by omega
    rw [List.getElem?_eq_getElem hlt] at h1
    simp only [Option.some.injEq] at h1
    exact h0 t0 (by rw [← h1]; exact List.mem_take_iff_getElem.mpr ⟨j, by omega, rfl⟩)

theorem processFake_num (s : Pad) : s.processFake.num = s.handle.1.num := by
  have h4 : Same s.processFake s.handle.1 := by
    rw [handle_eq]
    exact (((unhover_same _).trans (loop_same _ _)).trans (positionFake_same _)).trans (postProcess_same _)
  exact h4.num.symm

theorem processFake_slots (s : Pad) (hm : s.cfg.hasMt = true) (hsyn : s.cfg.synaptics = false) :
    s.processFake.touches.take s.handle.1.num = s.touches.take s.handle.1.num := by
  have hnum := handle_num s hsyn
  rw [processFake_eq]
  by_cases hc : s.fake.count = 128
  · rw [if_pos hc]
  · rw [if_neg hc] at hnum ⊢
    have e1 : s.beforeFake = s.fewerSlots := by simp [Pad.beforeFake, hsyn]
    have hff : s.fewerSlots.firstFake = s.fewerSlots.num := by
      unfold Pad.firstFake; rw [(fewerSlots_same s).2.1, hm]; simp
    rw [e1, hff, hnum]
    apply List.ext_getElem?
    intro j
    rw [List.getElem?_take, List.getElem?_take]
    split
    · rename_i hj
      have hl : (s.fewerSlots.loop (fakeOne s.fewerSlots.num s.fewerSlots.fake.count)).touches.length = s.touches.length := by
        rw [(loop_same _ _).len, (fewerSlots_same s).2.2.1]
      cases hg : (s.fewerSlots.loop (fakeOne s.fewerSlots.num s.fewerSlots.fake.count)).touches[j]? with
      | none =>
        rw [List.getElem?_eq_none_iff] at hg
        rw [eq_comm, List.getElem?_eq_none_iff]; omega
      | some t =>
        obtain ⟨a3, t3, h3, e3⟩ := each_get _ _ _ _ _ _ hg
        rw [Nat.zero_add, fakeOne, if_pos hj] at e3
        rw [e3, ← h3, (fewerSlots_same s).2.2.1]
    · rfl

theorem views_downs (s : Pad) : s.views.countP downAfter = downs s.touches := by
  unfold Pad.views downs
  rw [List.countP_map]
  rfl

/-- With more fingers than slots, all touches that are there are down if one in a slot is pressed, else none. -/
theorem handle_extra {ds : List Bool} {s : Pad} (h : Between ds s) (hm : s.cfg.hasMt = true) (hsyn : s.cfg.synaptics = false)
    {low high : Int} (hmode : s.cfg.mode = .pressure low high) (hne : s.fake.count ≠ 128)
    (hlt : s.handle.1.num < s.fake.count) :
    ∀ v ∈ s.handle.2, if s.anyPressed low high s.handle.1.num then v.1 ≠ .hovering else downAfter v = false := by
  have h1 := processFake_between h
  have h4 : Same s.processFake s.handle.1 := by
    rw [handle_eq]
    exact (((unhover_same _).trans (loop_same _ _)).trans (positionFake_same _)).trans (postProcess_same _)
  have hf : s.processFake.fake = s.fake := h4.fake.symm.trans (handle_same s).2.2.2.1
  have hcfg : s.processFake.cfg = s.cfg := h4.cfg.symm.trans (handle_same s).2.1
  have hn := processFake_num s
  have hu : s.processFake.unhover = s.processFake.unhoverPressure low high := by
    unfold Pad.unhover; rw [hcfg, hmode]
  have h2 := unhoverPressure_all h1.1 (processFake_few s h) low high (by rw [hf]; exact hne) (by rw [hf, hn]; exact hlt)
  rw [← hu] at h2
  have hfo : s.processFake.fakeOrNone = s.fake.count := by simp [Pad.fakeOrNone, hf, hne]
  have h3 := press_loop h1.1 low high s.processFake.fakeOrNone (by rw [hfo, hn]; exact hlt)
  have hany : s.processFake.anyPressed low high s.processFake.num = s.anyPressed low high s.handle.1.num := by
    unfold Pad.anyPressed
    rw [hn, processFake_slots s hm hsyn]
  rw [hany] at h3
  -- from there on the states only change from ending to ended
  have key : ∀ v ∈ s.handle.2, ∃ t ∈ s.processFake.unhover.touches,
      (v.1 = t.st ∨ (t.st = .maybeEnd ∧ v.1 = .end_)) := by
    intro v hv
    rw [handle_eq] at hv
    have hv : v ∈ s.preProcess.positionFake.touches.map fun t => (t.st, t.dirty) := hv
    obtain ⟨t, ht, rfl⟩ := List.mem_map.mp hv
    obtain ⟨j, hj, e⟩ := List.getElem_of_mem ht
    have hg : s.preProcess.positionFake.touches[j]? = some t := by rw [← e, List.getElem?_eq_getElem]
    have hpos : ∃ t1, s.preProcess.touches[j]? = some t1 ∧ t.st = t1.st := by
      unfold Pad.positionFake at hg
      split at hg
      · exact ⟨t, hg, rfl⟩
      · split at hg
        · exact ⟨t, hg, rfl⟩
        · obtain ⟨a', t1, h1, e1⟩ := each_get _ _ _ _ _ _ hg
          refine ⟨t1, h1, ?_⟩
          rw [e1]
          unfold positionOne
          rw [apply_ite Prod.snd, apply_ite Finger.st]
          exact ite_self _
    obtain ⟨t1, h1, e1⟩ := hpos
    have h1 : (s.processFake.unhover.loop endEnding).touches[j]? = some t1 := h1
    obtain ⟨a', t2, h2, e2⟩ := each_get _ _ _ _ _ _ h1
    refine ⟨t2, List.mem_of_getElem? h2, ?_⟩
    show t.st = t2.st ∨ (t2.st = .maybeEnd ∧ t.st = .end_)
    rw [e1, e2]
    unfold endEnding
    split
    · rename_i hm'
      right
      simp [endTouch, hm']
    · left; rfl
  intro v hv
  obtain ⟨t, ht, hst⟩ := key v hv
  by_cases hp : s.anyPressed low high s.handle.1.num = true
  · rw [if_pos hp]
    rw [if_neg (fun hz => by have := h3.mp hz; rw [hp] at this; simp at this)] at h2
    unfold hovers at h2
    rw [List.countP_eq_zero] at h2
    have := h2 t ht
    intro hh
    rcases hst with e | ⟨_, e⟩
    · rw [e] at hh; simp [hh] at this
    · rw [e] at hh; simp at hh
  · have hp : s.anyPressed low high s.handle.1.num = false := by simpa using hp
    rw [hp, if_neg (by simp)]
    rw [if_pos (h3.mpr hp)] at h2
    unfold downs at h2
    rw [List.countP_eq_zero] at h2
    have := h2 t ht
    unfold downAfter
    rcases hst with e | ⟨_, e⟩
    · rw [e]; simpa [Finger.down] using this
    · rw [e]; rfl

/-! The topmost touch. -/

theorem topmost_spec : ∀ (ts : List Finger) (m : Option Finger),
    match topmost m ts with
    | none => m = none ∧ ∀ t ∈ ts, t.st = .end_ ∨ t.st = .none
    | some b => (m = some b ∨ b ∈ ts) ∧ (∀ c, m = some c → b.y ≤ c.y) ∧
        ∀ t ∈ ts, t.st ≠ .end_ → t.st ≠ .none → b.y ≤ t.y
  | [], m => by
    unfold topmost
    cases m <;> simp
  | t :: ts, m => by
    unfold topmost
    by_cases hz : t.st = .end_ ∨ t.st = .none
    · rw [if_pos hz]
      have := topmost_spec ts m
      cases hm : topmost m ts with
      | none =>
        rw [hm] at this
        exact ⟨this.1, by intro u hu; rcases List.mem_cons.mp hu with e | e; exact e ▸ hz; exact this.2 u e⟩
      | some b =>
        rw [hm] at this
        obtain ⟨h1, h2, h3⟩ := this
        refine ⟨h1.imp id (List.mem_cons_of_mem _), h2, ?_⟩
        intro u hu n1 n2
        rcases List.mem_cons.mp hu with e | e
        · rw [e] at n1 n2; rcases hz with hz | hz <;> contradiction
        · exact h3 u e n1 n2
    · rw [if_neg hz]
      cases m with
      | none =>
        dsimp only
        have := topmost_spec ts (some t)
        cases hm : topmost (some t) ts with
        | none => rw [hm] at this; simp at this
        | some b =>
          rw [hm] at this
          obtain ⟨h1, h2, h3⟩ := this
          refine ⟨Or.inr ?_, by simp, ?_⟩
          · rcases h1 with e | e
            · simp only [Option.some.injEq] at e; rw [← e]; simp
            · exact List.mem_cons_of_mem _ e
          · intro u hu n1 n2
            rcases List.mem_cons.mp hu with e | e
            · rw [e]; exact h2 t rfl
            · exact h3 u e n1 n2
      | some c =>
        dsimp only
        by_cases hlt : t.y < c.y
        · rw [if_pos hlt]
          have := topmost_spec ts (some t)
          cases hm : topmost (some t) ts with
          | none => rw [hm] at this; simp at this
          | some b =>
            rw [hm] at this
            obtain ⟨h1, h2, h3⟩ := this
            have hbt := h2 t rfl
            refine ⟨Or.inr ?_, ?_, ?_⟩
            · rcases h1 with e | e
              · simp only [Option.some.injEq] at e; rw [← e]; simp
              · exact List.mem_cons_of_mem _ e
            · intro c' hc'; simp only [Option.some.injEq] at hc'; rw [← hc']; omega
            · intro u hu n1 n2
              rcases List.mem_cons.mp hu with e | e
              · rw [e]; exact hbt
              · exact h3 u e n1 n2
        · rw [if_neg hlt]
          have := topmost_spec ts (some c)
          cases hm : topmost (some c) ts with
          | none => rw [hm] at this; simp at this
          | some b =>
            rw [hm] at this
            obtain ⟨h1, h2, h3⟩ := this
            have hbc := h2 c rfl
            refine ⟨h1.imp id (List.mem_cons_of_mem _), h2, ?_⟩
            intro u hu n1 n2
            rcases List.mem_cons.mp hu with e | e
            · rw [e]; omega
            · exact h3 u e n1 n2

end Libinput.Touch
