import Verif.SoftButtons.Records
import Verif.Buttons.Props
import Verif.Tap.Props
/-
Property C31: the software buttons of a clickpad.
-/
namespace Libinput.SoftButtons
open Spec

theorem init_click (g : Geo) (hasTop : Bool) (m : Method) (n : Nat) : ClickInv (init g hasTop m n) {} .up := by
  unfold init switchMethod initTop initSoftbuttons
  cases m <;> cases hasTop <;> exact ⟨rfl, rfl, rfl, fun _ _ => rfl, rfl, rfl, rfl⟩

theorem init_hasTop (g : Geo) (hasTop : Bool) (m : Method) (n : Nat) : (init g hasTop m n).hasTop = hasTop := by
  unfold init switchMethod initTop initSoftbuttons
  cases m <;> cases hasTop <;> rfl

theorem init_touches (g : Geo) (hasTop : Bool) (m : Method) (n : Nat) :
    (init g hasTop m n).touches = List.replicate n {} := by
  unfold init switchMethod initTop initSoftbuttons
  cases m <;> cases hasTop <;> rfl

theorem run_cons (s : Pad) (op : Op) (ops : List Op) :
    run s (op :: ops) = ((run (step s op).1 ops).1, (step s op).2 :: (run (step s op).1 ops).2) := rfl

theorem run_clicks (ops : List Op) {s : Pad} {e : Env} {c : Click} (h : ClickInv s e c)
    (hc : Careful s.hasTop e ops) : Clicks s.hasTop e c ops (run s ops).2 := by
  induction ops generalizing s e c with
  | nil => rfl
  | cons op ops ih =>
    rw [run_cons]
    obtain ⟨c', h1, h2⟩ := step_click h op hc.1
    have := ih h2 (by rw [step_hasTop]; exact hc.2)
    rw [step_hasTop] at this
    exact ⟨c', h1, this⟩

/-! ### One physical click, one button -/

/-- **C31.** Whatever the fingers, the physical button, timers, configuration, suspending and trackpoints do: each
physical click is reported by at most one press, and the release then reports the same button to the same device in
the frame in which the physical button is up again (or when the touchpad is suspended or resumed).  Between press and
release nothing is reported, without a press no release; a click that was not reported yet is dropped when it ends.
Not covered is a trackpoint that comes or goes while the touchpad is suspended and clicked (`Careful`). -/
theorem clicks_reported (g : Geo) (hasTop : Bool) (m : Method) (n : Nat) (ops : List Op)
    (hc : Careful hasTop {} ops) : Clicks hasTop {} .up ops (run (init g hasTop m n) ops).2 := by
  have := run_clicks ops (init_click g hasTop m n) (by rw [init_hasTop]; exact hc)
  rw [init_hasTop] at this
  exact this

/-- A touchpad of 100 by 60 mm with 10 units per mm. -/
def demoGeo : Geo :=
  { top := 510, half := 500, midL := 375, midR := 625, upper := 100, upperBig := 300, upL := 400, upR := 600,
    xres := 10, yres := 10, ymax := 600, height := 600,
    far := fun a b => decide ((a.1 - b.1) ^ 2 + (a.2 - b.2) ^ 2 > 2500) }

/-- A finger landing, moving, lifting. -/
def lands (x y : Int) : View := ⟨.begin, true, (x, y), false, false⟩
def moves (x y : Int) : View := ⟨.update, true, (x, y), false, false⟩
def rests (x y : Int) : View := ⟨.update, false, (x, y), false, false⟩
def lifts (x y : Int) : View := ⟨.end_, true, (x, y), false, false⟩
def away' : View := ⟨.none, false, (0, 0), false, false⟩

/-- Non-vacuity: a right click in the bottom right corner, then a left click in the main area. -/
example : (run (init demoGeo false .areas 2)
      [.frame 1 [lands 900 550, away'], .button true, .frame 2 [rests 900 550, away'], .button false,
       .frame 3 [moves 900 200, lands 100 100], .button true, .frame 4 [rests 900 200, rests 100 100],
       .suspend 5 [lifts 900 200, lifts 100 100]]).2 =
    [[], [], [⟨2, .touchpad, 0x111, true⟩], [], [⟨3, .touchpad, 0x111, false⟩], [], [⟨4, .touchpad, 0x110, true⟩],
     [⟨5, .touchpad, 0x110, false⟩]] := by decide +kernel

/-- The touchpad's own button events, as press and release edges. -/
def own (nss : List (List Note)) : List Note := nss.flatten.filter fun n => n.dest == .touchpad
def edge (n : Note) : Edge Nat := ⟨n.code, n.pressed⟩

/-- What is held on the touchpad at a stage. -/
def heldOn : Click → Nat → Bool
  | .held .touchpad b, k => decide (b = k)
  | _, _ => false

theorem frame_valid {t : Nat} {d : Bool} {c c' : Click} {ns : List Note} (h : Frame t d c ns c') :
    Alt.Valid (heldOn c) ((ns.filter fun n => n.dest == .touchpad).map edge) ∧
      Alt.after (heldOn c) ((ns.filter fun n => n.dest == .touchpad).map edge) = heldOn c' := by
  cases h with
  | press d b | pressLate d b =>
    cases d
    · refine ⟨⟨rfl, trivial⟩, ?_⟩
      funext k
      simp only [List.filter, beq_self_eq_true, List.map, edge, Alt.after, heldOn]
      split <;> simp_all
    · exact ⟨trivial, rfl⟩
  | release d b =>
    cases d
    · refine ⟨⟨by simp [heldOn, edge], trivial⟩, ?_⟩
      funext k
      simp only [List.filter, beq_self_eq_true, List.map, edge, Alt.after, heldOn]
      split <;> simp_all
    · exact ⟨trivial, rfl⟩
  | hold d b => exact ⟨trivial, rfl⟩
  | _ => exact ⟨trivial, rfl⟩

theorem allowed_valid {hasTop : Bool} {e : Env} {c c' : Click} {op : Op} {ns : List Note}
    (h : Allowed hasTop e c op ns c') :
    Alt.Valid (heldOn c) ((ns.filter fun n => n.dest == .touchpad).map edge) ∧
      Alt.after (heldOn c) ((ns.filter fun n => n.dest == .touchpad).map edge) = heldOn c' := by
  have hs : ns = [] ∧ c' = c → Alt.Valid (heldOn c) ((ns.filter fun n => n.dest == .touchpad).map edge) ∧
      Alt.after (heldOn c) ((ns.filter fun n => n.dest == .touchpad).map edge) = heldOn c' := by
    rintro ⟨rfl, rfl⟩
    exact ⟨trivial, rfl⟩
  cases op with
  | frame t vs =>
    simp only [Allowed] at h
    split at h
    · exact frame_valid h
    · exact hs h
  | suspend t vs =>
    simp only [Allowed] at h
    split at h
    · exact hs h
    · exact frame_valid h
  | resume t vs =>
    simp only [Allowed] at h
    split at h
    · exact frame_valid h
    · exact hs h
  | removeTrackpoint =>
    simp only [Allowed] at h
    cases c with
    | held d b =>
      cases d with
      | trackpoint =>
        obtain ⟨rfl, rfl⟩ := h
        exact ⟨trivial, rfl⟩
      | touchpad => exact hs h
    | _ => exact hs h
  | _ => exact hs h

theorem clicks_valid {hasTop : Bool} (ops : List Op) {e : Env} {c : Click} {nss : List (List Note)}
    (h : Clicks hasTop e c ops nss) : Alt.Valid (heldOn c) ((own nss).map edge) := by
  induction ops generalizing e c nss with
  | nil => subst h; trivial
  | cons op ops ih =>
    cases nss with
    | nil => exact h.elim
    | cons ns nss =>
      obtain ⟨c', h1, h2⟩ := h
      have ⟨h3, h4⟩ := allowed_valid h1
      have h5 := ih h2
      unfold own at h5 ⊢
      rw [List.flatten_cons, List.filter_append, List.map_append, Alt.valid_append]
      exact ⟨h3, by rw [h4]; exact h5⟩

/-- **C31, C03.** The touchpad's click events alternate press and release per button. -/
theorem click_events_alternate (g : Geo) (hasTop : Bool) (m : Method) (n : Nat) (ops : List Op)
    (hc : Careful hasTop {} ops) :
    Libinput.Spec.Alternating ((own (run (init g hasTop m n) ops).2).map edge) := by
  rw [Alt.alternating_iff_valid]
  exact clicks_valid ops (clicks_reported g hasTop m n ops hc)

/-- The code of a click is one of the three buttons. -/
theorem choose_code (s : Pad) : choose s = 0x110 ∨ choose s = 0x111 ∨ choose s = 0x112 := by
  unfold choose toLeft
  simp only [BTN_LEFT, BTN_RIGHT, BTN_MIDDLE]
  repeat' split
  all_goals decide

theorem clickfinger_code (g : Geo) (vs : List View) :
    clickfinger g vs = 0 ∨ clickfinger g vs = 0x110 ∨ clickfinger g vs = 0x111 ∨ clickfinger g vs = 0x112 := by
  unfold clickfinger
  dsimp only [BTN_LEFT, BTN_RIGHT, BTN_MIDDLE]
  split <;> simp

/-- Codes the state can remember. -/
def CodeOk (s : Pad) : Prop := s.active = 0 ∨ s.active = 0x110 ∨ s.active = 0x111 ∨ s.active = 0x112

theorem frame_codes {s : Pad} (h : CodeOk s) (t : Nat) (vs : List View) :
    CodeOk (handleFrame s t vs).1 ∧
      ∀ n ∈ (handleFrame s t vs).2, n.code = 0x110 ∨ n.code = 0x111 ∨ n.code = 0x112 := by
  rw [handleFrame_eq]
  unfold CodeOk
  simp only
  rw [(applyMiddle_fields _).2.2.2.2.1]
  show ((postButtons (handleState s t vs) t vs).1.active = 0 ∨ _) ∧ _
  generalize hs1 : handleState s t vs = s1
  have h1 : CodeOk s1 := by subst hs1; exact h
  have hc := choose_code s1
  have hf := clickfinger_code s1.geo vs
  unfold postButtons
  split
  · exact ⟨h1, by simp⟩
  · split
    · dsimp only
      split
      · exact ⟨h1, by simp⟩
      · rw [if_pos (choose_ne s1)]
        generalize choose s1 = b at hc
        unfold notify
        dsimp only
        split
        · exact ⟨Or.inr hc, by simpa using hc⟩
        · split
          · exact ⟨Or.inr hc, by simp⟩
          · split
            · split
              · exact ⟨hf, by simp⟩
              · next h0 => exact ⟨hf, by simpa using hf.resolve_left h0⟩
            · exact ⟨Or.inr hc, by simpa using hc⟩
    · dsimp only
      split
      · next h0 =>
        have hb := h1.resolve_left h0
        unfold notify
        dsimp only
        split
        · exact ⟨Or.inl rfl, by simpa using hb⟩
        · split
          · exact ⟨Or.inl rfl, by simp⟩
          · rw [if_neg (by simp)]
            exact ⟨Or.inl rfl, by simpa using hb⟩
      · exact ⟨Or.inl rfl, by simp⟩

theorem clear_codes {s : Pad} (h : CodeOk s) (t : Nat) (vs : List View) :
    CodeOk (clearState s t vs).1 ∧
      ∀ n ∈ (clearState s t vs).2, n.code = 0x110 ∨ n.code = 0x111 ∨ n.code = 0x112 :=
  frame_codes (s := releaseAll s) (by unfold CodeOk; rw [(releaseAll_fields s).2.2.2.2.1]; exact h) t vs

theorem step_codes {s : Pad} (h : CodeOk s) (op : Op) :
    CodeOk (step s op).1 ∧ ∀ n ∈ (step s op).2, n.code = 0x110 ∨ n.code = 0x111 ∨ n.code = 0x112 := by
  cases op with
  | button v =>
    simp only [step]
    split
    · exact ⟨h, by simp⟩
    · unfold processButton; split <;> exact ⟨h, by simp⟩
  | frame t vs =>
    simp only [step]
    split
    · exact ⟨h, by simp⟩
    · exact frame_codes h t vs
  | timeout now i =>
    simp only [step]
    repeat' split
    all_goals exact ⟨h, by simp⟩
  | setMethod m => exact ⟨by unfold CodeOk; simp only [step]; rw [(setMethod_fields s m).2.2.2.2.1]; exact h, by simp [step]⟩
  | setMiddle b =>
    refine ⟨?_, by simp [step]⟩
    unfold CodeOk
    simp only [step, setMiddle]
    rw [(applyMiddle_fields _).2.2.2.2.1]; exact h
  | setLeft b =>
    refine ⟨?_, by simp [step]⟩
    unfold CodeOk
    simp only [step]
    rw [(applyLeft_fields _).2.2.2.2.1]; exact h
  | applyLeft =>
    refine ⟨?_, by simp [step]⟩
    unfold CodeOk
    simp only [step]
    rw [(applyLeft_fields _).2.2.2.2.1]; exact h
  | suspend t vs =>
    simp only [step]
    split
    · exact ⟨h, by simp⟩
    · obtain ⟨h1, h2⟩ := clear_codes h t vs
      generalize clearState s t vs = r at h1 h2 ⊢
      obtain ⟨s1, ns⟩ := r
      simp only at h1 h2 ⊢
      split
      · refine ⟨?_, h2⟩
        unfold CodeOk
        simp only
        rw [(initTop_fields _ _).2.2.2.2.1]; exact h1
      · obtain ⟨h3, h4⟩ := clear_codes h1 t (vs.map fun v => { v with ts := .none, dirty := false })
        refine ⟨h3, ?_⟩
        intro n hn
        rcases List.mem_append.mp hn with hn | hn
        · exact h2 n hn
        · exact h4 n hn
  | resume t vs =>
    simp only [step]
    split
    · exact ⟨h, by simp⟩
    · split
      · obtain ⟨h1, h2⟩ := clear_codes h t vs
        refine ⟨?_, h2⟩
        unfold CodeOk
        simp only
        rw [(initTop_fields _ _).2.2.2.2.1]; exact h1
      · exact ⟨h, by simp⟩
  | addTrackpoint => simp only [step]; split <;> exact ⟨h, by simp⟩
  | removeTrackpoint =>
    simp only [step]
    split
    · exact ⟨h, by simp⟩
    · split
      · exact ⟨Or.inl rfl, by simp⟩
      · exact ⟨h, by simp⟩

/-- **C31.** Only the left, right and middle button are ever reported. -/
theorem only_three_buttons (g : Geo) (hasTop : Bool) (m : Method) (n : Nat) (ops : List Op) (ns : List Note)
    (hns : ns ∈ (run (init g hasTop m n) ops).2) (x : Note) (hx : x ∈ ns) :
    x.code = 0x110 ∨ x.code = 0x111 ∨ x.code = 0x112 := by
  have h : CodeOk (init g hasTop m n) := Or.inl (init_click g hasTop m n).stage.2.2
  generalize init g hasTop m n = s at h hns
  induction ops generalizing s with
  | nil => simp [run] at hns
  | cons op ops ih =>
    rw [run_cons] at hns
    rcases List.mem_cons.mp hns with rfl | hns
    · exact (step_codes h op).2 x hx
    · exact ih _ (step_codes h op).1 hns

/-- An interleaving of two lists. -/
inductive Merge {α : Type} : List α → List α → List α → Prop
  | nil : Merge [] [] []
  | left (x : α) {a b c : List α} : Merge a b c → Merge (x :: a) b (x :: c)
  | right (x : α) {a b c : List α} : Merge a b c → Merge a (x :: b) (x :: c)

theorem Merge.split {α : Type} {a b c : List α} (h : Merge a b c) (pre post : List α) (hc : c = pre ++ post) :
    ∃ a1 a2 b1 b2, a = a1 ++ a2 ∧ b = b1 ++ b2 ∧ Merge a1 b1 pre := by
  induction pre generalizing a b c with
  | nil => exact ⟨[], a, [], b, rfl, rfl, .nil⟩
  | cons p pre ih =>
    cases h with
    | nil => cases hc
    | left x h =>
      obtain ⟨rfl, hc'⟩ := List.cons.inj hc
      obtain ⟨a1, a2, b1, b2, rfl, rfl, h3⟩ := ih h hc'
      exact ⟨x :: a1, a2, b1, b2, rfl, rfl, .left x h3⟩
    | right x h =>
      obtain ⟨rfl, hc'⟩ := List.cons.inj hc
      obtain ⟨a1, a2, b1, b2, rfl, rfl, h3⟩ := ih h hc'
      exact ⟨a1, a2, x :: b1, b2, rfl, rfl, .right x h3⟩

open Libinput.Buttons (Call net)

theorem Merge.net {a b c : List Call} (h : Merge a b c) (k : Nat) : net c k = net a k + net b k := by
  induction h with
  | nil => simp [Buttons.net]
  | left x h ih => rw [Buttons.net_cons, Buttons.net_cons, ih]; omega
  | right x h ih => rw [Buttons.net_cons, Buttons.net_cons, ih]; omega

theorem Merge.mem {α : Type} {a b c : List α} (h : Merge a b c) {x : α} (hx : x ∈ c) : x ∈ a ∨ x ∈ b := by
  induction h with
  | nil => simp at hx
  | left y h ih =>
    rcases List.mem_cons.mp hx with rfl | hx
    · exact Or.inl List.mem_cons_self
    · exact (ih hx).imp (List.mem_cons_of_mem _) id
  | right y h ih =>
    rcases List.mem_cons.mp hx with rfl | hx
    · exact Or.inr List.mem_cons_self
    · exact (ih hx).imp id (List.mem_cons_of_mem _)

/-- The balance of an alternating list of calls. -/
theorem valid_net (cs : List Call) (hd : Nat → Bool) (k : Nat)
    (h : Alt.Valid hd (cs.map fun c => (⟨c.code, c.pressed⟩ : Edge Nat))) :
    net cs k + (if hd k then 1 else 0) =
      if Alt.after hd (cs.map fun c => (⟨c.code, c.pressed⟩ : Edge Nat)) k then 1 else 0 := by
  induction cs generalizing hd with
  | nil => simp [Buttons.net]
  | cons c cs ih =>
    obtain ⟨h1, h2⟩ := h
    have := ih _ h2
    rw [Buttons.net_cons]
    simp only [List.map_cons, Alt.after]
    rw [← this]
    simp only at h1 ⊢
    by_cases hk : c.code = k
    · subst hk
      rw [h1]
      cases c.pressed <;> simp <;> omega
    · simp [hk]

theorem valid_prefix_net (a1 a2 : List Call)
    (h : Libinput.Spec.Alternating ((a1 ++ a2).map fun c => (⟨c.code, c.pressed⟩ : Edge Nat))) (k : Nat) :
    0 ≤ net a1 k ∧ net a1 k ≤ 1 := by
  rw [Alt.alternating_iff_valid, List.map_append, Alt.valid_append] at h
  have := valid_net a1 _ k h.1
  simp only [Bool.false_eq_true, if_false] at this
  split at this <;> omega

/-- Calls that alternate, from two sources, in any interleaving. -/
theorem merge_survives {a b c : List Call} (h : Merge a b c)
    (ha : Libinput.Spec.Alternating (a.map fun c => (⟨c.code, c.pressed⟩ : Edge Nat)))
    (hb : Libinput.Spec.Alternating (b.map fun c => (⟨c.code, c.pressed⟩ : Edge Nat)))
    (ha' : ∀ x ∈ a, x.code < 0x300) (hb' : ∀ x ∈ b, x.code < 0x300) : (Buttons.run Buttons.init c).2 = none := by
  rw [Buttons.device_run_survives_iff]
  refine ⟨fun x hx => (h.mem hx).elim (ha' x) (hb' x), ?_⟩
  intro pre post hc k
  obtain ⟨a1, a2, b1, b2, rfl, rfl, hm⟩ := h.split pre post hc
  rw [hm.net]
  have h1 := valid_prefix_net a1 a2 ha k
  have h2 := valid_prefix_net b1 b2 hb k
  omega

/-- The click events as calls. -/
def call (n : Note) : Call := ⟨n.time, n.code, n.pressed⟩

/-- **C31, C03, C15.** Clicking and tapping share the touchpad's button counters.  In whatever order their events
come, no count ever drops below zero or overflows: the code does not abort, and by C03 what the client sees
alternates. -/
theorem clicking_and_tapping_survive (g : Geo) (hasTop : Bool) (m : Method) (n : Nat) (ops : List Op)
    (hc : Careful hasTop {} ops) (k : Nat) (en : Bool) (taps : List Tap.Op)
    (ht : Tap.Spec.Possible (List.replicate k .none) taps) (calls : List Call)
    (hm : Merge ((own (run (init g hasTop m n) ops).2).map call) (Tap.run (Tap.init k en) taps).2 calls)
    (htc : ∀ x ∈ (Tap.run (Tap.init k en) taps).2, x.code < 0x300) :
    (Buttons.run Buttons.init calls).2 = none := by
  refine merge_survives hm ?_ (Tap.tap_buttons_alternate k en taps ht) ?_ htc
  · have := click_events_alternate g hasTop m n ops hc
    rw [List.map_map]
    exact this
  · intro x hx
    obtain ⟨y, hy, rfl⟩ := List.mem_map.mp hx
    unfold own at hy
    obtain ⟨ns, h1, h2⟩ := List.mem_flatten.mp (List.mem_filter.mp hy).1
    rcases only_three_buttons g hasTop m n ops ns h1 y h2 with h | h | h <;> simp [call, h]

end Libinput.SoftButtons
