import Verif.Motion.EdgeFacts
import Verif.Motion.Typing
/-
What a frame does to the palm state of one touch.
-/
namespace Libinput.Motion
open Touch (St)

/-- What is kept about palms. -/
structure PCore where
  palm : Palm
  palmTime : Nat
  palmFirst : Point
deriving DecidableEq

def Finger.pcore (t : Finger) : PCore := ⟨t.palm, t.palmTime, t.palmFirst⟩

theorem finish_pcore (t : Finger) (v : View) : (t.finish v).pcore = t.pcore := by
  unfold Finger.finish Finger.push
  simp only
  split <;> rfl

theorem forget_pcore (t : Finger) (w : Bool) : (t.forget w).pcore = t.pcore := by
  unfold Finger.forget
  split
  · rfl
  · split <;> rfl

/-- What processing makes of a touch that changed; `sts`: what the frame says about all the touches. -/
def Palmed (s : Pad) (sts : List St) (t : Finger) (v : View) (now : Nat) (u : Finger) : Prop :=
  ∃ s2 t2, Same s s2 ∧ stOf s2 = sts ∧ t2.bare = t.bare ∧ u.pcore = (s2.palmDetect t2 v now).pcore

/-- What processing makes of any touch. -/
def Handled (s : Pad) (sts : List St) (t : Finger) (v : View) (now : Nat) (u : Finger) : Prop :=
  (t.st ≠ .none ∧ t.dirty = true → Palmed s sts t v now u) ∧ (¬ (t.st ≠ .none ∧ t.dirty = true) → u.pcore = t.pcore)

theorem processOne_handled (s : Pad) (i : Nat) (t : Finger) (v : View) (w : Bool) (now : Nat) (h : s.touches[i]? = some t) :
    ∃ u, (s.processOne i v w now).touches[i]? = some u ∧ Handled s (stOf s) t v now u := by
  have hlt := (List.getElem?_eq_some_iff.1 h).1
  unfold Pad.processOne
  rw [h]
  simp only
  by_cases hst : t.st = .none
  · rw [if_pos hst]
    exact ⟨t, h, fun k => absurd hst k.1, fun _ => rfl⟩
  · simp only [if_neg hst]
    obtain ⟨t1, e1⟩ : ∃ x, x = t.forget w := ⟨_, rfl⟩
    have k1 : t1.bare = t.bare := by rw [e1]; exact forget_bare t w
    have k1' : t1.dirty = t.dirty := by have := congrArg ECore.dirty (ecore_of_bare k1); simpa only [Finger.ecore] using this
    have k1p : t1.pcore = t.pcore := by rw [e1]; exact forget_pcore t w
    rw [← e1]
    by_cases hd : t.dirty = true
    · rw [if_neg (by rw [k1', hd]; decide)]
      obtain ⟨t2, e2⟩ : ∃ x, x = (if v.jump = true then { t1 with hist := [] } else t1) := ⟨_, rfl⟩
      have k2 : t2.bare = t.bare := by rw [e2]; split <;> exact k1
      have k2s : t2.st = t.st := by have := congrArg ECore.st (ecore_of_bare k2); simpa only [Finger.ecore] using this
      rw [← e2]
      refine ⟨_, ?_, fun _ => ⟨(s.put i t2).thumbUpdate t2, t2, (same_put s i t2).trans (only_thumbUpdate _ _).same, ?_, k2, finish_pcore _ v⟩, fun k => absurd ⟨hst, hd⟩ k⟩
      · simp only [Pad.put, List.getElem?_set, (only_thumbUpdate _ _).touches]
        simp [hlt]
      · rw [stOf_only (only_thumbUpdate _ _)]
        exact stOf_put s i t t2 h k2s
    · rw [if_pos (by rw [k1']; simpa using hd)]
      exact ⟨({ t1 with fast := t1.fast - 1 } : Finger).push, by simp only [Pad.put, List.getElem?_set]; simp [hlt], fun k => absurd k.2 hd, fun _ => k1p⟩

theorem processAll_handled (w : Bool) (now : Nat) : ∀ (vs : List View) (s : Pad) (k i : Nat) (t : Finger) (v : View), s.touches[i]? = some t → k ≤ i → vs[i - k]? = some v →
    ∃ u, (s.processAll w now k vs).touches[i]? = some u ∧ Handled s (stOf s) t v now u
  | [], _, _, _, _, _, _, _, h => by simp at h
  | x :: vs, s, k, i, t, v, ht, hk, hv => by
    unfold Pad.processAll
    by_cases e : i = k
    · subst e
      have hx : x = v := by simpa using hv
      subst hx
      obtain ⟨u, h1, h2⟩ := processOne_handled s i t x w now ht
      refine ⟨u, ?_, h2⟩
      have later : ∀ (vs : List View) (s : Pad) (k : Nat), i < k → (s.processAll w now k vs).touches[i]? = s.touches[i]? := by
        intro vs
        induction vs with
        | nil => intro s k _; rfl
        | cons y ys ih =>
          intro s k hk
          unfold Pad.processAll
          rw [ih _ (k + 1) (by omega), processOne_other s i k y w now (by omega)]
      rw [later vs _ (i + 1) (by omega)]
      exact h1
    · have hlt : k < i := by omega
      have h0 := processOne_other s i k x w now (by omega)
      rw [← h0] at ht
      obtain ⟨u, h1, h2⟩ := processAll_handled w now vs (s.processOne k x w now) (k + 1) i t v ht (by omega)
        (by rw [show i - k = (i - (k + 1)) + 1 by omega] at hv; simpa using hv)
      refine ⟨u, h1, ?_⟩
      refine ⟨fun hc => ?_, h2.2⟩
      obtain ⟨s2, t2, k1, k2, k3, k4⟩ := h2.1 hc
      exact ⟨s2, t2, (same_processOne s k x w now).trans k1, k2.trans (stOf_processOne s k x w now), k3, k4⟩

theorem process_handled (s : Pad) (vs : List View) (g : Frame) (now : Nat) (i : Nat) (t : Finger) (v : View) (ht : s.touches[i]? = some t) (hv : vs[i]? = some v) :
    ∃ u, (s.process vs g now).touches[i]? = some u ∧ Handled s ((takeAll now s.touches vs).map Finger.st) (t.take v now) v now u := by
  unfold Pad.process
  simp only
  obtain ⟨u, h1, h2⟩ := processAll_handled (decide (({ s with touches := takeAll now s.touches vs } : Pad).fingers ≠ s.fingers) || g.reset) now vs
    { s with touches := takeAll now s.touches vs } 0 i (t.take v now) v (takeAll_get now _ _ i t v ht hv) (Nat.zero_le _) hv
  refine ⟨u, ?_, ?_⟩
  · split
    · rw [(only_thumbMulti _).touches]; exact h1
    · exact h1
  · refine ⟨fun hc => ?_, h2.2⟩
    obtain ⟨s2, t2, k1, k2, k3, k4⟩ := h2.1 hc
    exact ⟨s2, t2, (same_touches s _).trans k1, k2, k3, k4⟩

theorem pcore_of_core {t u : Finger} (h : u.core = t.core) : u.pcore = t.pcore := by
  simp only [Finger.core, Core.mk.injEq] at h
  unfold Finger.pcore
  rw [h.2.2.2.2.2.1, h.2.2.2.2.2.2.1, h.2.2.2.2.2.2.2.1]

/-- The touch after a frame was judged. -/
theorem judge_handled (s : Pad) (vs : List View) (g : Frame) (now : Nat) (i : Nat) (t : Finger) (v : View) (ht : s.touches[i]? = some t) (hv : vs[i]? = some v) :
    ∃ u, (s.judge vs g now).1.touches[i]? = some u ∧ u.index = t.index ∧ u.st = v.st ∧ u.dirty = v.dirty ∧
      Handled s ((takeAll now s.touches vs).map Finger.st) (t.take v now) v now u := by
  obtain ⟨u, hj⟩ := judge_touch s vs g now i t v ht hv
  refine ⟨u, hj.get, hj.index, hj.st, hj.dirty, ?_⟩
  obtain ⟨p, x, b, c, h1, _, rfl, rfl⟩ := hj.made
  obtain ⟨q, q1, q2⟩ := process_handled s vs g now i t v ht hv
  rw [h1] at q1
  cases q1
  have k := pcore_of_core (edgeState_core ((s.process vs g now).buttons vs) { p with active := c } now)
  have k2 : ({ (((s.process vs g now).buttons vs).edgeState { p with active := c } now).1 with pinned := b } : Finger).pcore = p.pcore := k
  refine ⟨fun hc => ?_, fun hc => k2.trans (q2.2 hc)⟩
  obtain ⟨s2, t2, k3, k4, k5, k6⟩ := q2.1 hc
  exact ⟨s2, t2, k3, k4, k5, k2.trans k6⟩

/-- The touch after the whole frame. -/
theorem frame_handled (s : Pad) (vs : List View) (g : Frame) (hov : Nat → Bool) (now : Nat) (i : Nat) (u : Finger) (h : (s.judge vs g now).1.touches[i]? = some u) :
    ∃ w, (s.frame vs g hov now).1.touches[i]? = some w ∧ w.pcore = u.pcore ∧ w.index = u.index ∧
      ((u.st = .begin ∨ u.st = .update) → (w.st = .begin ∨ w.st = .update)) := by
  obtain ⟨d, e⟩ := frame_eq s vs g hov now
  rw [e]
  have k := (sends_gestState (s.judge vs g now).1 now).trans (sends_postEvents ((s.judge vs g now).1.gestState now).1 g d now)
  generalize (((s.judge vs g now).1.gestState now).1.postEvents g d now).1 = p at k
  have hc := congrArg (fun l => l[i]?) k.core
  simp only [List.getElem?_map, h, Option.map_some] at hc
  cases hp : p.touches[i]? with
  | none => rw [hp] at hc; cases hc
  | some y =>
    rw [hp] at hc
    simp only [Option.map_some, Option.some.injEq] at hc
    have ki : y.index = u.index := congrArg Core.index hc
    have ks : y.st = u.st := congrArg Core.st hc
    refine ⟨y.settle (hov y.index), ?_, ?_, ?_, ?_⟩
    · show (p.settle hov).touches[i]? = _
      unfold Pad.settle Pad.thumbReset
      simp only
      split <;> simp [hp]
    · refine Eq.trans ?_ (pcore_of_core hc)
      unfold Finger.settle; split <;> rfl
    · refine Eq.trans ?_ ki
      unfold Finger.settle; split <;> rfl
    · intro hu
      rw [← ks] at hu
      unfold Finger.settle
      split
      · rcases hu with hu | hu <;> simp [hu]
      · exact hu

/-- A palm is not one of the touches that move the pointer. -/
theorem palm_not_mover (s : Pad) (vs : List View) (g : Frame) (hov : Nat → Bool) (now : Nat) (i : Nat) (u : Finger)
    (hi : (s.judge vs g now).1.touches.map Finger.index = List.range (s.judge vs g now).1.touches.length)
    (h : (s.judge vs g now).1.touches[i]? = some u) (hp : u.palm ≠ .none) (w : List Nat) (hw : .motion w ∈ (s.frame vs g hov now).2) : i ∉ w := by
  intro hm
  obtain ⟨t, h1, h2, h3, h4⟩ := frame_movers s vs g hov now w hw i hm
  have hg := get_of_index hi h1 h2
  rw [h] at hg
  cases hg
  rcases h4 with h4 | ⟨_, _, h4⟩
  · exact hp h4.2.1
  · exact hp h4.2.1

end Libinput.Motion
