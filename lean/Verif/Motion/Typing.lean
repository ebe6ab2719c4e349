import Verif.Motion.Movers
import Verif.Motion.TypingSpec
/-
The keyboard and the trackpoint, as the touchpad hears them.
-/
namespace Libinput.Motion
open Touch (St)

/-! ### Nothing happens while the keyboard or the trackpoint is used -/

theorem not_acts_of_bug {o : Out} (h : o = .bug) : o.acts = false := by subst h; rfl

theorem edgeStop_still (t : Finger) : ∀ o ∈ t.edgeStop.2, o.acts = false := by
  unfold Finger.edgeStop
  split <;> intro o ho <;> simp at ho
  subst ho; rfl

theorem scrollStop_still {R : Type} (A : Scroll.Arith R) (s : Scroll.State R) (now : Nat) : ∀ e ∈ (Scroll.stop A s now).2, ∃ t h v, e = .stop t h v := by
  unfold Scroll.stop
  intro e he
  simp only at he
  split at he
  · simp at he; exact ⟨_, _, _, he⟩
  · simp at he

theorem stopTwoFinger_still (s : Pad) (now : Nat) : ∀ o ∈ (s.stopTwoFinger now).2, o.acts = false := by
  unfold Pad.stopTwoFinger
  split
  · intro o ho; simp at ho
  · intro o ho
    simp only [List.mem_map] at ho
    obtain ⟨e, he, rfl⟩ := ho
    obtain ⟨_, _, _, rfl⟩ := scrollStop_still _ _ _ e he
    rfl

theorem gestEnd_still (s : Pad) (now : Nat) (b : Bool) : ∀ o ∈ (s.gestEnd now b).2, o.acts = false := by
  unfold Pad.gestEnd
  simp only
  split
  · intro o ho; simp at ho
  · split
    · intro o ho; simp at ho; subst ho; rfl
    · intro o ho; simp at ho; subst ho; rfl
    · exact stopTwoFinger_still _ now
    · intro o ho; simp at ho; subst ho; rfl
    · intro o ho; simp at ho; subst ho; rfl

theorem gestState_still (s : Pad) (now : Nat) : ∀ o ∈ (s.gestState now).2, o.acts = false := by
  unfold Pad.gestState
  simp only
  split
  · intro o ho; simp at ho
  · split
    · exact gestEnd_still s now false
    · split
      · intro o ho; simp at ho
      · split <;> (intro o ho; simp at ho)

theorem clicked_still (s : Pad) (g : Frame) : ∀ o ∈ (s.clicked g).2, o.acts = false := by
  unfold Pad.clicked
  split
  · exact each_out _ _ _ edgeStop_still
  · intro o ho; simp at ho

theorem stopActions_still (s : Pad) (now : Nat) : ∀ o ∈ (s.stopActions now).2, o.acts = false := by
  intro o ho
  unfold Pad.stopActions at ho
  simp only [List.mem_append] at ho
  rcases ho with ho | ho
  · exact each_out _ _ _ edgeStop_still o ho
  · exact gestEnd_still _ now true o ho

/-- The touchpad is disabled by the keyboard or by the trackpoint. -/
def Pad.busy (s : Pad) : Prop := s.dwt.active = true ∨ s.trk.active = true

theorem postRest_still (s : Pad) (g : Frame) (d : Nat → Nat) (now : Nat) (h : s.busy) : ∀ o ∈ (s.postRest g d now).2, o.acts = false := by
  unfold Pad.postRest
  split
  · intro o ho; simp at ho
  · rw [if_pos (by unfold Pad.busy at h; rcases h with h | h <;> simp [h])]
    simp only [List.mem_append]
    intro o ho
    rcases ho with ho | ho
    · exact each_out _ _ _ edgeStop_still o ho
    · exact gestEnd_still _ now true o ho

theorem judge_same (s : Pad) (vs : List View) (g : Frame) (now : Nat) : Same s (s.judge vs g now).1 := by
  unfold Pad.judge
  simp only
  exact ((same_process s vs g now).trans (same_buttons _ vs)).trans ((same_each _ _).trans (same_pin _ g))

/-- What a frame leaves alone. -/
structure Apart (s t : Pad) : Prop where
  dwt : t.dwt = s.dwt
  trk : t.trk = s.trk
  tapOff : t.tapOff = s.tapOff

theorem Apart.refl (s : Pad) : Apart s s := ⟨rfl, rfl, rfl⟩
theorem Apart.trans {s t u : Pad} (h : Apart s t) (k : Apart t u) : Apart s u := ⟨k.dwt.trans h.dwt, k.trk.trans h.trk, k.tapOff.trans h.tapOff⟩
theorem Same.apart {s t : Pad} (h : Same s t) : Apart s t := ⟨h.dwt, h.trk, h.tapOff⟩
theorem Sends.apart {s t : Pad} (h : Sends s t) : Apart s t := ⟨h.dwt, h.trk, h.tapOff⟩

theorem apart_frame (s : Pad) (vs : List View) (g : Frame) (hov : Nat → Bool) (now : Nat) : Apart s (s.frame vs g hov now).1 := by
  unfold Pad.frame
  simp only
  exact (((judge_same s vs g now).apart.trans (sends_gestState _ now).apart).trans (sends_postEvents _ g _ now).apart).trans (same_settle _ hov).apart

theorem apart_clear (s : Pad) (vs : List View) (g : Frame) (now : Nat) : Apart s (s.clear vs g now).1 := by
  unfold Pad.clear
  simp only
  exact ((sends_clicked s g).apart.trans (only_thumbReset _).sends.apart).trans (apart_frame _ _ _ _ _)

theorem frame_still (s : Pad) (vs : List View) (g : Frame) (hov : Nat → Bool) (now : Nat) (h : s.busy) : ∀ o ∈ (s.frame vs g hov now).2, o.acts = false := by
  intro o ho
  unfold Pad.frame at ho
  simp only [List.mem_append] at ho
  rcases ho with (ho | ho) | ho
  · unfold Pad.judge at ho
    exact not_acts_of_bug (each_out _ _ _ (fun x => edgeState_out _ x now) o ho)
  · exact gestState_still _ now o ho
  · unfold Pad.postEvents at ho
    simp only [List.mem_append] at ho
    rcases ho with ho | ho
    · exact clicked_still _ g o ho
    · refine postRest_still _ g _ now ?_ o ho
      have k := (((judge_same s vs g now).apart.trans (sends_gestState _ now).apart)).trans (sends_clicked ((s.judge vs g now).1.gestState now).1 g).apart
      unfold Pad.busy
      rw [k.dwt, k.trk]
      exact h

theorem clear_still (s : Pad) (vs : List View) (g : Frame) (now : Nat) (h : s.busy) : ∀ o ∈ (s.clear vs g now).2, o.acts = false := by
  intro o ho
  unfold Pad.clear at ho
  simp only [List.mem_append] at ho
  rcases ho with ho | ho
  · exact clicked_still s g o ho
  · refine frame_still _ _ _ _ _ ?_ o ho
    have k := (sends_clicked s g).apart.trans (only_thumbReset (s.clicked g).1).sends.apart
    unfold Pad.busy
    rw [k.dwt, k.trk]
    exact h

theorem step_still (s : Pad) (op : Op) (h : s.busy) : ∀ o ∈ (step s op).2, o.acts = false := by
  intro o ho
  cases op with
  | frame now vs g hov => exact frame_still s vs g hov now h o ho
  | clear now vs g => exact clear_still s vs g now h o ho
  | suspended b => simp [step] at ho
  | key now k code press =>
    simp only [step] at ho
    split at ho
    · unfold Pad.keyEvent at ho
      repeat' split at ho
      all_goals first
        | (simp at ho; done)
        | exact stopActions_still s now o ho
    · simp at ho
  | pair k => simp [step] at ho
  | unpair k => simp [step] at ho
  | keyTimeout now => simp only [step] at ho; split at ho <;> simp at ho
  | trackpoint now =>
    simp only [step] at ho
    split at ho
    · unfold Pad.trkEvent at ho
      simp only at ho
      split at ho
      · simp at ho
      · split at ho
        · simp at ho
        · exact stopActions_still _ now o ho
    · simp at ho
  | trkTimeout now => simp only [step] at ho; split at ho <;> simp at ho
  | gestTimeout now =>
    simp only [step] at ho
    split at ho
    · unfold Pad.gestTimeout at ho
      simp only at ho
      split at ho
      · simp at ho
      · exact gestEnd_still _ now true o ho
    · simp at ho
  | edgeTimeout now i =>
    simp only [step] at ho
    split at ho
    · unfold Pad.edgeTimeout at ho
      split at ho
      · simp at ho
      · exact not_acts_of_bug (edgeEvent_out _ _ _ _ o ho)
    · simp at ho
  | arbitrate now vs g =>
    simp only [step] at ho
    split at ho
    · simp at ho
    · exact clear_still { s with arbTimer := none } vs g now h o ho
  | arbitrateEnd now => simp only [step] at ho; split at ho <;> simp at ho
  | arbTimeout now => simp only [step] at ho; split at ho <;> simp at ho
  | setMethod now m =>
    simp only [step] at ho
    unfold Pad.setMethod at ho
    split at ho
    · simp at ho
    · simp only [List.mem_append] at ho
      rcases ho with ho | ho
      · exact each_out _ _ _ edgeStop_still o ho
      · exact stopTwoFinger_still _ now o ho
  | setDwt b => simp [step] at ho
  | setAreas b => simp [step] at ho

/-! ### The keyboard on its own -/

/-- What an operation means for the keyboard. -/
def dwtStep (d : Dwt) : Op → Dwt
  | .key now k code press =>
    if k ∈ d.paired then
      if press = false then { d with keys := d.keys.filter (· != code), mods := d.mods.filter (· != code) }
      else if d.enabled = false then d
      else if isIgnoredKey code then d
      else if isModifier code then { d with mods := code :: d.mods }
      else if d.active then { d with last := now, keys := code :: d.keys, timer := some (now + 500000) }
      else if d.mods ≠ [] then d
      else { d with active := true, last := now, keys := code :: d.keys, timer := some (now + 200000) }
    else d
  | .pair k => { d with paired := k :: d.paired }
  | .unpair k => if k ∈ d.paired then { d with paired := d.paired.filter (· != k), active := false } else d
  | .keyTimeout now =>
    if due d.timer now then
      if d.enabled = true ∧ d.keys ≠ [] then { d with timer := some (now + 500000), last := now } else { d with active := false, timer := none }
    else d
  | .setDwt b => { d with enabled := b }
  | _ => d

/-- What an operation means for the trackpoint. -/
def trkStep (monitor : Bool) (k : Trackpoint) : Op → Trackpoint
  | .trackpoint now =>
    if monitor then
      if k.count + 1 < 3 then { k with last := now, count := k.count + 1, timer := some (now + 40000) }
      else { active := true, last := now, count := k.count + 1, timer := some (now + 300000) }
    else k
  | .trkTimeout now => if due k.timer now then { k with active := false, count := 0, timer := none } else k
  | _ => k

theorem step_both (s : Pad) (op : Op) : (step s op).1.dwt = dwtStep s.dwt op ∧ (step s op).1.trk = trkStep s.cfg.monitorTrackpoint s.trk op := by
  cases op with
  | frame now vs g hov => exact ⟨(apart_frame s vs g hov now).dwt, (apart_frame s vs g hov now).trk⟩
  | clear now vs g => exact ⟨(apart_clear s vs g now).dwt, (apart_clear s vs g now).trk⟩
  | suspended b => exact ⟨rfl, rfl⟩
  | key now k code press =>
    have ka := (sends_stopActions s now)
    simp only [step, dwtStep, trkStep]
    split
    · unfold Pad.keyEvent
      by_cases h1 : press = false
      · rw [if_pos h1, if_pos h1]; exact ⟨rfl, rfl⟩
      · rw [if_neg h1, if_neg h1]
        by_cases h2 : s.dwt.enabled = false
        · rw [if_pos h2, if_pos h2]; exact ⟨rfl, rfl⟩
        · rw [if_neg h2, if_neg h2]
          by_cases h3 : isIgnoredKey code = true
          · rw [if_pos h3, if_pos h3]; exact ⟨rfl, rfl⟩
          · rw [if_neg h3, if_neg h3]
            by_cases h4 : isModifier code = true
            · rw [if_pos h4, if_pos h4]; exact ⟨rfl, rfl⟩
            · rw [if_neg h4, if_neg h4]
              by_cases h5 : s.dwt.active = true
              · rw [if_pos h5, if_pos h5]; exact ⟨rfl, rfl⟩
              · rw [if_neg h5, if_neg h5]
                by_cases h6 : s.dwt.mods ≠ []
                · rw [if_pos h6, if_pos h6]; exact ⟨rfl, rfl⟩
                · rw [if_neg h6, if_neg h6]
                  simp only
                  rw [show (s.stopActions now).1.dwt = s.dwt from ka.dwt, show (s.stopActions now).1.trk = s.trk from ka.trk]
                  exact ⟨rfl, rfl⟩
    · exact ⟨rfl, rfl⟩
  | pair k => exact ⟨rfl, rfl⟩
  | unpair k =>
    simp only [step, Pad.unpair, dwtStep, trkStep]
    split <;> exact ⟨rfl, rfl⟩
  | keyTimeout now =>
    simp only [step, dwtStep, trkStep]
    split
    · unfold Pad.keyTimeout
      split <;> exact ⟨rfl, rfl⟩
    · exact ⟨rfl, rfl⟩
  | trackpoint now =>
    simp only [step, dwtStep, trkStep]
    split
    · unfold Pad.trkEvent
      simp only
      split
      · exact ⟨rfl, rfl⟩
      · split
        · exact ⟨rfl, rfl⟩
        · have ka := sends_stopActions { s with trk := { s.trk with last := now, count := s.trk.count + 1 } } now
          rw [show (Pad.stopActions { s with trk := { s.trk with last := now, count := s.trk.count + 1 } } now).1.dwt = s.dwt from ka.dwt,
            show (Pad.stopActions { s with trk := { s.trk with last := now, count := s.trk.count + 1 } } now).1.trk = { s.trk with last := now, count := s.trk.count + 1 } from ka.trk]
          exact ⟨rfl, rfl⟩
    · exact ⟨rfl, rfl⟩
  | trkTimeout now =>
    simp only [step, dwtStep, trkStep]
    split
    · unfold Pad.trkTimeout
      split
      · exact ⟨rfl, rfl⟩
      · next h =>
        refine ⟨rfl, ?_⟩
        simp only [Bool.not_eq_true] at h
        simp only
        rw [← h]
    · exact ⟨rfl, rfl⟩
  | gestTimeout now =>
    simp only [step, dwtStep, trkStep]
    split
    · unfold Pad.gestTimeout
      simp only
      split
      · exact ⟨rfl, rfl⟩
      · have k := (sends_gest s { s.gest with timer := none }).trans ((sends_gestEnd { s with gest := { s.gest with timer := none } } now true))
        exact ⟨k.dwt, k.trk⟩
    · exact ⟨rfl, rfl⟩
  | edgeTimeout now i =>
    simp only [step, dwtStep, trkStep]
    split
    · unfold Pad.edgeTimeout
      split <;> exact ⟨rfl, rfl⟩
    · exact ⟨rfl, rfl⟩
  | arbitrate now vs g =>
    simp only [step, dwtStep, trkStep]
    split
    · exact ⟨rfl, rfl⟩
    · have k := apart_clear { s with arbTimer := none } vs g now
      exact ⟨k.dwt, k.trk⟩
  | arbitrateEnd now => simp only [step]; split <;> exact ⟨rfl, rfl⟩
  | arbTimeout now => simp only [step]; split <;> exact ⟨rfl, rfl⟩
  | setMethod now m =>
    simp only [step, dwtStep, trkStep]
    unfold Pad.setMethod
    split
    · exact ⟨rfl, rfl⟩
    · have k := (sends_each s _ edgeStop_core).trans (sends_stopTwoFinger (s.each Finger.edgeStop).1 now)
      exact ⟨k.dwt, k.trk⟩
  | setDwt b => exact ⟨rfl, rfl⟩
  | setAreas b => exact ⟨rfl, rfl⟩

theorem step_dwt (s : Pad) (op : Op) : (step s op).1.dwt = dwtStep s.dwt op := (step_both s op).1
theorem step_trk (s : Pad) (op : Op) : (step s op).1.trk = trkStep s.cfg.monitorTrackpoint s.trk op := (step_both s op).2

theorem run_dwt : ∀ (ops : List Op) (s : Pad), (run s ops).1.dwt = ops.foldl dwtStep s.dwt
  | [], _ => rfl
  | op :: ops, s => by rw [run, List.foldl_cons, ← step_dwt]; exact run_dwt ops _

theorem run_trk : ∀ (ops : List Op) (s : Pad), (run s ops).1.trk = ops.foldl (trkStep s.cfg.monitorTrackpoint) s.trk
  | [], _ => rfl
  | op :: ops, s => by rw [run, List.foldl_cons, ← step_trk, ← (shape_step s op).cfg]; exact run_trk ops _

/-- Nothing happens as long as something that keeps the touchpad disabled goes on. -/
theorem run_still (P : Pad → Prop) (hb : ∀ s, P s → s.busy) : ∀ (ops : List Op) (s : Pad), P s → (∀ op ∈ ops, ∀ t, P t → P (step t op).1) → ∀ o ∈ (run s ops).2, o.acts = false
  | [], _, _, _ => by intro o ho; simp [run] at ho
  | op :: ops, s, h, hs => by
    intro o ho
    simp only [run, List.mem_append] at ho
    rcases ho with ho | ho
    · exact step_still s op (hb s h) o ho
    · exact run_still P hb ops _ (hs op (List.mem_cons_self ..) s h) (fun x hx => hs x (List.mem_cons_of_mem _ hx)) o ho

theorem modifier_iff (code : Nat) : isModifier code = true ↔ code ∈ modifiers := by
  unfold isModifier modifiers
  split <;> simp_all

theorem types_iff (code : Nat) : Types code ↔ isIgnoredKey code = false ∧ isModifier code = false := by
  unfold Types isIgnoredKey
  rw [← modifier_iff]
  cases isModifier code
  · simp
  · simp

end Libinput.Motion
