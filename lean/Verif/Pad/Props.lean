import Verif.Pad.Place
/-
Theorems about tablet pads (C48).
-/
namespace Libinput.Pad

/-! ### A pad to show that the hypotheses can be met -/

/-- Four buttons and two rings; the first and the third button switch the modes of the rings next to them. -/
def duo : Wacom :=
  { buttons := [{ code := 256, toggle := true, side := 0, group := some 0 }, { code := 257, side := 0 },
      { code := 258, toggle := true, side := 1, group := some 1 }, { code := 259, side := 1 }],
    leds := [.ring, .ring2], ringModes := 3, ring2Modes := 2 }

def duoCfg : Cfg :=
  { byId := some duo, byPath := some duo, keys := fun c => decide (256 ≤ c ∧ c < 260 ∨ c = 579),
    has := fun a => decide (a = .ring1 ∨ a = .ring2 ∨ a = .misc), max := fun _ => 71 }

def duoLit : Lit := fun g m => some (if m = g then 1 else 0)

def duoPad : Pad := (create duoCfg duoLit (fun _ => 0)).getD { raw := fun _ => 0, groups := [], lit := duoLit }

theorem duo_created : create duoCfg duoLit (fun _ => 0) = some duoPad := by
  have : (create duoCfg duoLit (fun _ => 0)).isSome = true := by decide +kernel
  unfold duoPad
  cases h : create duoCfg duoLit (fun _ => 0) with
  | none => rw [h] at this; cases this
  | some s => rfl

/-- The second mode of the first ring is chosen, and a finger goes around. -/
def duoOps : List Op :=
  [.leds (fun g m => some (if g = 0 then (if m = 2 then 255 else 0) else (if m = 1 then 255 else 0))), .frame [.key 256 1, .key 579 1],
   .frame [.abs .ring1 36, .abs .misc 15], .setLeft true, .frame [.key 256 0], .frame [.abs .ring1 36, .abs .misc 15], .frame [.abs .ring1 0, .abs .misc 0],
   .setDisabled true, .suspend]

example : (run duoCfg duoPad duoOps).2 =
    [.button 0 true 0 2, .key 579 true, .ring 0 (.angle 90) 0 2, .button 0 false 0 2, .ring 0 (.angle 90) 0 2, .ring 0 .up 0 2, .key 579 false] ∧
    (run duoCfg duoPad duoOps).1.aborted = false := by decide +kernel

/-! ### Buttons and keys -/

/-- Whatever happens, every button and key is pressed only while up and released only while down. -/
theorem pad_buttons_alternate (cfg : Cfg) (lit : Lit) (raw : Abs → Int) (s : Pad) (hs : create cfg lit raw = some s) (ops : List Op) :
    Alternating (run cfg s ops).2 :=
  clean_alternating _ (run_tells cfg ops s _ _ (create_rest cfg lit raw s hs)).1

theorem map_zero (cfg : Cfg) : cfg.map 0 = .unmapped := by
  have W : ∀ (bs : List WButton) n (m : BMap), m 0 = .unmapped → (fromWacom bs n m).1 0 = .unmapped := by
    intro bs
    induction bs with
    | nil => intro n m h; exact h
    | cons b bs ih =>
      intro n m h
      unfold fromWacom
      split
      · exact ih _ _ h
      · rename_i hc
        apply ih
        unfold BMap.set
        rw [if_neg (fun h => hc h.symm)]; exact h
  have K : ∀ (cs : List Nat) n (m : BMap), 0 ∉ cs → m 0 = .unmapped → (fromKernel cfg.keys cs n m).1 0 = .unmapped := by
    intro cs
    induction cs with
    | nil => intro n m _ h; exact h
    | cons c cs ih =>
      intro n m hn h
      rw [List.mem_cons, not_or] at hn
      unfold fromKernel
      split
      · apply ih _ _ hn.2
        unfold BMap.set
        rw [if_neg hn.1]; exact h
      · exact ih _ _ hn.2 h
  have base : (match cfg.byId with
    | some w => fromWacom w.buttons 0 (fun _ => Map.unmapped)
    | none => fromKernel cfg.keys kernelCodes 0 (fun _ => Map.unmapped)).1 0 = .unmapped := by
    split
    · exact W _ _ _ rfl
    · exact K _ _ _ (by decide) rfl
  unfold Cfg.map Cfg.buttons
  dsimp only
  generalize (match cfg.byId with
    | some w => fromWacom w.buttons 0 (fun _ => Map.unmapped)
    | none => fromKernel cfg.keys kernelCodes 0 (fun _ => Map.unmapped)).1 = m0 at base
  unfold addKeys
  split
  · have : ∀ (m : BMap) (x : Nat), x ≠ 0 → m 0 = .unmapped → (if cfg.keys x then m.set x (.key x) else m) 0 = .unmapped := by
      intro m x hx hm
      split
      · unfold BMap.set; rw [if_neg (fun h => hx h.symm)]; exact hm
      · exact hm
    simp only [List.foldl_cons, List.foldl_nil]
    exact this _ _ (by decide) (this _ _ (by decide) (this _ _ (by decide) base))
  · exact base

/-- After every history that does not end in a failed assertion, the client has been told that a button or key is down if and only if the
kernel's key behind it is down. -/
theorem pad_buttons_follow_the_kernel (cfg : Cfg) (lit : Lit) (raw : Abs → Int) (s : Pad) (hs : create cfg lit raw = some s) (ops : List Op)
    (ha : (run cfg s ops).1.aborted = false) (t : Map) :
    held (run cfg s ops).2 t = true ↔ t ≠ .unmapped ∧ ∃ c, 1 ≤ c ∧ c < 768 ∧ cfg.map c = t ∧ (ops.foldl Keys.step {}).down c = true := by
  have R := (run_tells cfg ops s _ _ (create_rest cfg lit raw s hs)).2 ha
  unfold held
  constructor
  · intro h
    have : ∃ c ∈ codes, cfg.map c = t := by
      apply Classical.byContradiction
      intro hn
      rw [R.none t (fun c hc he => hn ⟨c, hc, he⟩)] at h
      cases h
    obtain ⟨c, hc, rfl⟩ := this
    have hu : cfg.map c ≠ .unmapped := by
      intro hu
      rw [hu] at h
      have key : ∀ (es : List Ev) (f : Map → Bool), f .unmapped = false → es.foldl tell f .unmapped = false := by
        intro es
        induction es with
        | nil => intro f hf; exact hf
        | cons e es ih => intro f hf; exact ih _ (by cases e <;> simp [tell, hf])
      rw [key _ _ rfl] at h; cases h
    have h0 : c ≠ 0 := by rintro rfl; exact hu (map_zero cfg)
    have hlt := (mem_codes c).1 hc
    refine ⟨hu, c, by omega, hlt, rfl, ?_⟩
    rw [← R.down c (by omega) hlt, ← R.told c hc hu]; exact h
  · rintro ⟨hu, c, h1, h2, rfl, hd⟩
    rw [R.told c ((mem_codes c).2 h2) hu, R.down c h1 h2]; exact hd

/-- Every button has its own key. -/
theorem pad_buttons_have_their_keys (cfg : Cfg) (c c' : Nat) (h : cfg.map c = cfg.map c') (hu : cfg.map c ≠ .unmapped) : c = c' :=
  map_inj cfg c c' h hu

theorem keys_up_while_closed (ops : List Op) : ∀ k : Keys, (k.opened = false → ∀ c, k.down c = false) →
    (ops.foldl Keys.step k).opened = false → ∀ c, (ops.foldl Keys.step k).down c = false := by
  induction ops with
  | nil => intro k h; exact h
  | cons op ops ih =>
    intro k h
    apply ih
    intro ho c
    cases op with
    | frame evs =>
      simp only [Keys.step] at ho ⊢
      split at ho
      · rename_i hk; dsimp only at ho; rw [hk] at ho; cases ho
      · rename_i hk; rw [if_neg hk]; exact h ho c
    | suspend =>
      simp only [Keys.step] at ho ⊢
      split
      · rfl
      · rename_i hk; exact h (by simpa using hk) c
    | resume raw => cases ho
    | setLeft b => exact h ho c
    | leds l => exact h ho c
    | setDisabled b =>
      cases b
      · exact h ho c
      · simp only [Keys.step] at ho ⊢
        split
        · rename_i hk; rw [if_pos hk] at ho; exact h ho c
        · rfl

/-- When a pad is suspended (or removed, or disabled), nothing stays down. -/
theorem pad_suspends_with_nothing_down (cfg : Cfg) (lit : Lit) (raw : Abs → Int) (s : Pad) (hs : create cfg lit raw = some s) (ops : List Op)
    (op : Op) (hop : op = .suspend ∨ op = .setDisabled true ∧ (ops.foldl Keys.step {}).disabled = false)
    (ha : (run cfg s (ops ++ [op])).1.aborted = false) (t : Map) : held (run cfg s (ops ++ [op])).2 t = false := by
  cases hh : held (run cfg s (ops ++ [op])).2 t with
  | false => rfl
  | true =>
    obtain ⟨_, c, _, _, _, hd⟩ := (pad_buttons_follow_the_kernel cfg lit raw s hs _ ha t).1 hh
    rw [List.foldl_append, List.foldl_cons, List.foldl_nil] at hd
    rcases hop with rfl | ⟨rfl, hdis⟩
    · simp only [Keys.step] at hd
      split at hd
      · cases hd
      · rename_i ho
        rw [keys_up_while_closed ops {} (fun h => by cases h) (by simpa using ho) c] at hd; cases hd
    · simp only [Keys.step, hdis, Bool.false_eq_true, if_false] at hd

example : create duoCfg duoLit (fun _ => 0) = some duoPad ∧ (run duoCfg duoPad ([.frame [.key 257 1]] ++ [.suspend])).1.aborted = false ∧
    held (run duoCfg duoPad [.frame [.key 257 1]]).2 (.button 1) = true := ⟨duo_created, by decide +kernel, by decide +kernel⟩

/-! ### Groups and modes -/

/-- Every event is about a button, ring, strip or key the pad has, and belongs to a group of the pad that has it; its mode is one of the
group's. -/
theorem pad_events_fit (cfg : Cfg) (lit : Lit) (raw : Abs → Int) (s : Pad) (hs : create cfg lit raw = some s) (ops : List Op) :
    ∀ e ∈ (run cfg s ops).2, Fits cfg s.groups e ∧ match e with
      | .button n _ _ _ => n < cfg.numButtons ∧ cfg.numButtons ≤ 32
      | .ring n _ _ _ => n < cfg.numRings
      | .strip n _ _ _ => n < cfg.numStrips
      | .key _ _ => True := by
  intro e he
  obtain ⟨hg, R, _, _⟩ := create_rel cfg lit raw s hs
  have F := (run_chk cfg ops s.groups s _ R).2.2 e he
  refine ⟨F, ?_⟩
  cases e with
  | button n p g m =>
    obtain ⟨x, _, _, h, _⟩ := F
    unfold Group.hasButton at h
    simp only [Bool.and_eq_true, decide_eq_true_eq] at h
    exact ⟨h.1, (groups_cases cfg lit _ hg).1⟩
  | ring n p g m =>
    obtain ⟨x, _, _, h, _⟩ := F
    unfold Group.hasRing at h
    simp only [Bool.and_eq_true, decide_eq_true_eq] at h
    exact h.1
  | strip n p g m =>
    obtain ⟨x, _, _, h, _⟩ := F
    unfold Group.hasStrip at h
    simp only [Bool.and_eq_true, decide_eq_true_eq] at h
    exact h.1
  | key k p => trivial

theorem chk_split (cfg : Cfg) (gs0 : List Group) (lit : Lit) (pre : List Ev) (e : Ev) (post : List Ev) : ∀ cur,
    Chk cfg gs0 lit cur (pre ++ e :: post) → ModeRight cfg gs0 lit (pre.foldl upd cur) e := by
  intro cur h
  rw [chk_append] at h
  exact h.2.2.1

/-- The mode of a group changes only when a button that switches its modes is pressed; that press carries the first LED that is lit, and
everything else the last mode told. -/
theorem pad_modes_change_at_switches (cfg : Cfg) (lit : Lit) (raw : Abs → Int) (s : Pad) (hs : create cfg lit raw = some s) (ops : List Op) (op : Op)
    (pre : List Ev) (e : Ev) (post : List Ev) (he : (step cfg (run cfg s ops).1 op).2 = pre ++ e :: post) :
    ModeRight cfg s.groups (litAfter lit ops) (lastMode (modesOf s.groups) ((run cfg s ops).2 ++ pre)) e := by
  obtain ⟨_, R, hl, _⟩ := create_rel cfg lit raw s hs
  obtain ⟨R', l', _⟩ := run_chk cfg ops s.groups s _ R
  obtain ⟨c, _, _⟩ := step_chk cfg (run cfg s ops).1 op s.groups _ R'
  have ha : (run cfg s ops).1.aborted = false := by
    cases hx : (run cfg s ops).1.aborted with
    | false => rfl
    | true => rw [step_aborted cfg _ op hx] at he; simp at he
  rw [he, l' ha, hl] at c
  rw [lastMode_eq, List.foldl_append]
  exact chk_split _ _ _ _ _ _ _ c

/-- A new pad starts with the modes its LEDs show, or in mode 0 if it has no LEDs that can be used. -/
theorem pad_starts_in_the_mode_shown (cfg : Cfg) (lit : Lit) (raw : Abs → Int) (s : Pad) (hs : create cfg lit raw = some s) :
    ∀ g ∈ s.groups, FirstLit (lit g.index) g.numModes g.mode ∨ s.groups = [g] ∧ g.numModes = 1 ∧ g.mode = 0 := by
  obtain ⟨hg, _, _, _⟩ := create_rel cfg lit raw s hs
  intro g hm
  rcases (groups_cases cfg lit _ hg).2 with h | ⟨_, h⟩
  · obtain ⟨w, _, _, _, _, _, _, _, _, k, _, _⟩ := fromLeds_spec cfg lit _ h
    exact .inl (k g hm).2.2
  · rw [h] at hm ⊢
    simp only [List.mem_singleton] at hm
    exact .inr ⟨by rw [hm], by rw [hm]; rfl, by rw [hm]; rfl⟩

/-- Every button of a pad is in exactly one group, and only buttons of a group switch its modes. -/
theorem pad_buttons_have_one_group (cfg : Cfg) (hd : cfg.byId = cfg.byPath) (lit : Lit) (raw : Abs → Int) (s : Pad) (hs : create cfg lit raw = some s) :
    (∀ n < cfg.numButtons, ∃ g ∈ s.groups, g.hasButton cfg n = true ∧ ∀ g' ∈ s.groups, g'.hasButton cfg n = true → g' = g) ∧
    ∀ g ∈ s.groups, ∀ n, g.isToggle cfg n = true → g.hasButton cfg n = true := by
  obtain ⟨hg, R, _, _⟩ := create_rel cfg lit raw s hs
  constructor
  · intro n hn
    rcases (groups_cases cfg lit _ hg).2 with h | ⟨_, h⟩
    · obtain ⟨w, hw, _, _, own, _⟩ := fromLeds_spec cfg lit _ h
      have hlen : n < w.buttons.length := by
        have : cfg.numButtons ≤ w.buttons.length := by
          unfold Cfg.numButtons Cfg.buttons
          rw [hd, hw]
          have := fromWacom_count w.buttons 0 (fun _ => .unmapped)
          dsimp only; omega
        omega
      obtain ⟨i, hi⟩ := own n hlen
      obtain ⟨g, h1, h2, h3⟩ := owns_one R.ok.nodup hi
      refine ⟨g, h1, by simp [Group.hasButton, hn, h2], fun g' hg' hb => h3 g' hg' ?_⟩
      simp only [Group.hasButton, Bool.and_eq_true] at hb
      exact hb.2
    · rw [h]
      exact ⟨fallback, by simp, by simp [Group.hasButton, hn, fallback], fun g' hg' _ => by simpa using hg'⟩
  · intro g hm n ht
    simp only [Group.isToggle, Bool.and_eq_true] at ht
    simp only [Group.hasButton, Bool.and_eq_true]
    exact ⟨ht.1, groups_toggles cfg lit _ hg g hm n ht.2⟩

/-- If libwacom knows no other kinds of LEDs, a client can get every group by its number: there is at least one, and they are numbered from
0 on. -/
theorem pad_groups_are_numbered (cfg : Cfg) (hk : ∀ w, cfg.byPath = some w → ∀ l ∈ w.leds, l ≠ .other) (lit : Lit) (raw : Abs → Int) (s : Pad)
    (hs : create cfg lit raw = some s) :
    s.groups ≠ [] ∧ (∀ i < s.groups.length, ∃ g ∈ s.groups, getGroup s.groups i = some g ∧ g.index = i) ∧ (∀ g ∈ s.groups, g.index < s.groups.length) ∧
    ∀ g ∈ s.groups, g.mode < g.numModes := by
  obtain ⟨hg, R, _, _⟩ := create_rel cfg lit raw s hs
  have found : ∀ i < s.groups.length, (∃ g ∈ s.groups, g.index = i) → ∃ g ∈ s.groups, getGroup s.groups i = some g ∧ g.index = i := by
    rintro i hi ⟨g, hm, he⟩
    unfold getGroup
    rw [if_neg (by omega)]
    cases hf : s.groups.find? (fun g => g.index == i) with
    | none =>
      rw [List.find?_eq_none] at hf
      exact absurd (by simpa using he) (hf g hm)
    | some x => exact ⟨x, List.mem_of_find?_eq_some hf, rfl, by simpa using List.find?_some hf⟩
  rcases (groups_cases cfg lit _ hg).2 with h | ⟨_, h⟩
  · obtain ⟨w, hw, hne, _, _, _, _, _, _, k1, k2, k3⟩ := fromLeds_spec cfg lit _ h
    have hlen := k3 (hk w hw)
    have hpos : 0 < w.leds.length := List.length_pos_of_ne_nil hne
    refine ⟨fun h0 => ?_, fun i hi => found i hi ?_, fun g hm => ?_, fun g hm => (R.ok.mode g hm).1⟩
    · rw [h0, List.length_nil] at hlen; omega
    · have hi' : i < w.leds.length := by omega
      obtain ⟨g, h1, h2, _⟩ := k2 i w.leds[i] (by simp [hi']) (hk w hw _ (by simp))
      exact ⟨g, h1, h2⟩
    · rw [hlen]; exact (k1 g hm).1
  · refine ⟨by rw [h]; simp, fun i hi => found i hi ?_, fun g hm => ?_, fun g hm => (R.ok.mode g hm).1⟩
    · rw [h] at hi ⊢
      simp only [List.length_singleton] at hi
      exact ⟨fallback, by simp, by show 0 = i; omega⟩
    · rw [h] at hm ⊢
      simp only [List.mem_singleton] at hm
      rw [hm]; exact Nat.zero_lt_one

example : duoCfg.byId = duoCfg.byPath ∧ duoPad.groups.length = 2 ∧ (duoPad.groups.map Group.mode) = [1, 0] := ⟨rfl, by decide +kernel, by decide +kernel⟩

/-! ### Assertions -/

/-- The LEDs libwacom lists are next to the rings and strips the kernel has. -/
def Listed (cfg : Cfg) : Prop := ∀ w, cfg.byPath = some w → w.leds ≠ [] →
  (cfg.has .ring1 = true → .ring ∈ w.leds) ∧ (cfg.has .ring2 = true → .ring2 ∈ w.leds) ∧
  (cfg.has .strip1 = true → .strip ∈ w.leds) ∧ (cfg.has .strip2 = true → .strip2 ∈ w.leds)

theorem pad_is_covered (cfg : Cfg) (hd : cfg.byId = cfg.byPath) (hl : Listed cfg) (lit : Lit) (raw : Abs → Int) (s : Pad)
    (hs : create cfg lit raw = some s) : Covered cfg s.groups := by
  obtain ⟨hg, _, _, _⟩ := create_rel cfg lit raw s hs
  refine ⟨fun n hn => ?_, fun n hn => ?_, fun n hn => ?_⟩
  · obtain ⟨g, h1, h2, _⟩ := (pad_buttons_have_one_group cfg hd lit raw s hs).1 n hn
    exact ⟨g, h1, h2⟩
  · rcases (groups_cases cfg lit _ hg).2 with h | ⟨_, h⟩
    · obtain ⟨w, hw, hne, _, _, _, _, _, k, _, _, _⟩ := fromLeds_spec cfg lit _ h
      obtain ⟨l1, l2, _, _⟩ := hl w hw hne
      have hn' := hn
      unfold Cfg.numRings at hn'
      split at hn'
      · rename_i h1
        split at hn'
        · rename_i h2
          rcases (by omega : n = 0 ∨ n = 1) with rfl | rfl
          · obtain ⟨g, hm, hb⟩ := k .ring (l1 h1) (by simp)
            have hb : g.rings 0 = true := hb
            exact ⟨g, hm, by simp [Group.hasRing, hn, hb]⟩
          · obtain ⟨g, hm, hb⟩ := k .ring2 (l2 h2) (by simp)
            have hb : g.rings 1 = true := hb
            exact ⟨g, hm, by simp [Group.hasRing, hn, hb]⟩
        · have : n = 0 := by omega
          subst this
          obtain ⟨g, hm, hb⟩ := k .ring (l1 h1) (by simp)
          have hb : g.rings 0 = true := hb
          exact ⟨g, hm, by simp [Group.hasRing, hn, hb]⟩
      · omega
    · rw [h]; exact ⟨fallback, by simp, by simp [Group.hasRing, hn, fallback]⟩
  · rcases (groups_cases cfg lit _ hg).2 with h | ⟨_, h⟩
    · obtain ⟨w, hw, hne, _, _, _, _, _, k, _, _, _⟩ := fromLeds_spec cfg lit _ h
      obtain ⟨_, _, l1, l2⟩ := hl w hw hne
      have hn' := hn
      unfold Cfg.numStrips at hn'
      split at hn'
      · rename_i h1
        split at hn'
        · rename_i h2
          rcases (by omega : n = 0 ∨ n = 1) with rfl | rfl
          · obtain ⟨g, hm, hb⟩ := k .strip (l1 h1) (by simp)
            have hb : g.strips 0 = true := hb
            exact ⟨g, hm, by simp [Group.hasStrip, hn, hb]⟩
          · obtain ⟨g, hm, hb⟩ := k .strip2 (l2 h2) (by simp)
            have hb : g.strips 1 = true := hb
            exact ⟨g, hm, by simp [Group.hasStrip, hn, hb]⟩
        · have : n = 0 := by omega
          subst this
          obtain ⟨g, hm, hb⟩ := k .strip (l1 h1) (by simp)
          have hb : g.strips 0 = true := hb
          exact ⟨g, hm, by simp [Group.hasStrip, hn, hb]⟩
      · omega
    · rw [h]; exact ⟨fallback, by simp, by simp [Group.hasStrip, hn, fallback]⟩

/-- If the kernel and libwacom agree about the pad, no assertion fails, whatever happens. -/
theorem pad_assertions_hold (cfg : Cfg) (hd : cfg.byId = cfg.byPath) (hl : Listed cfg) (hp : Paired cfg) (lit : Lit) (raw : Abs → Int) (s : Pad)
    (hs : create cfg lit raw = some s) (ops : List Op) (ho : ∀ op ∈ ops, Possible cfg op) : (run cfg s ops).1.aborted = false := by
  obtain ⟨_, R, _, ha⟩ := create_rel cfg lit raw s hs
  exact run_alive cfg ops s.groups (pad_is_covered cfg hd hl lit raw s hs) hp s _ _ _ R ho ha (create_view cfg lit raw s hs)

example : duoCfg.byId = duoCfg.byPath ∧ Listed duoCfg ∧ Paired duoCfg ∧ ∀ op ∈ duoOps, Possible duoCfg op := by
  refine ⟨rfl, ?_, ⟨by decide, by decide⟩, ?_⟩
  · intro w hw _
    injection hw with hw
    subst hw
    exact ⟨by decide, by decide, by decide, by decide⟩
  · intro op hop
    simp only [duoOps, List.mem_cons, List.not_mem_nil, or_false] at hop
    rcases hop with rfl | rfl | rfl | rfl | rfl | rfl | rfl | rfl | rfl <;> simp [Possible, duoCfg]

/-! ### Rings and strips -/

/-- A frame makes one event for each ring and strip it has an event of, and no other: it tells -1 if the last `ABS_MISC` is 0 (and came
since the last such event), and the place of the finger otherwise, on the side of the hand the pad was used with before the frame. -/
theorem pad_positions (cfg : Cfg) (lit : Lit) (raw : Abs → Int) (s : Pad) (hs : create cfg lit raw = some s) (ops : List Op) (op : Op)
    (ho : ∀ o ∈ ops ++ [op], Possible cfg o) (ha : (run cfg s (ops ++ [op])).1.aborted = false) (seen : Seen)
    (hseen : seen = ops.foldl Seen.step { val := raw }) :
    ∃ news, (run cfg s (ops ++ [op])).2 = (run cfg s ops).2 ++ news ∧ match op with
      | .frame evs => (news.filterMap axisOf).map Prod.fst = (if seen.keys.opened then axes.filter (moved evs) else []) ∧
          ∀ a p, (a, p) ∈ news.filterMap axisOf →
            if (seen.misc || moved evs .misc) && (evs.foldl hearsAbs seen.val) .misc == 0 then p.value = -1
            else Shows cfg seen.left a ((evs.foldl hearsAbs seen.val) a) p.value
      | _ => news.filterMap axisOf = [] := by
  rw [run_append] at ha ⊢
  simp only [run, List.append_nil] at ha ⊢
  have ha1 : (run cfg s ops).1.aborted = false := by
    cases hx : (run cfg s ops).1.aborted with
    | false => rfl
    | true => rw [step_aborted cfg _ op hx] at ha; dsimp only at ha; rw [hx] at ha; cases ha
  have V := run_view cfg ops s _ _ (fun o h => ho o (by simp [h])) (create_view cfg lit raw s hs) ha1
  rw [← hseen] at V
  have k := (step_view cfg _ op (ho op (by simp)) seen _ V ha).2
  have hopen : (run cfg s ops).1.opened = seen.keys.opened := V.rest.opened
  refine ⟨_, rfl, ?_⟩
  cases op with
  | frame evs =>
    dsimp only at k ⊢
    rw [hopen] at k
    rw [k]
    split
    · refine ⟨by rw [List.map_map]; exact List.map_id _, fun a p hap => ?_⟩
      obtain ⟨b, hb, he⟩ := List.mem_map.1 hap
      injection he with e1 e2
      subst e1
      split
      · rename_i hup
        rw [if_pos hup] at e2
        rw [← e2]; rfl
      · rename_i hup
        rw [if_neg hup] at e2
        rw [← e2]
        exact place_shows cfg seen.left b (List.mem_filter.1 hb).1 _
    · exact ⟨rfl, fun a p h => (by cases h)⟩
  | suspend => exact k
  | resume raw => exact k
  | setLeft b => exact k
  | setDisabled b => exact k
  | leds l => exact k

section

attribute [local irreducible] List.range codes

/-- Once no key is down, the pad is used with the hand the client wants; until then with the hand it was used with. -/
theorem pad_hand_changes_with_nothing_down (cfg : Cfg) (lit : Lit) (raw : Abs → Int) (s : Pad) (hs : create cfg lit raw = some s) (ops : List Op) (op : Op)
    (ho : ∀ o ∈ ops ++ [op], Possible cfg o) (ha : (run cfg s (ops ++ [op])).1.aborted = false) :
    (run cfg s (ops ++ [op])).1.left = if ∃ c < 768, ((ops ++ [op]).foldl Keys.step {}).down c = true then (run cfg s ops).1.left
      else (run cfg s (ops ++ [op])).1.wantLeft := by
  have V := run_view cfg _ s _ _ ho (create_view cfg lit raw s hs) ha
  have ha1 : (run cfg s ops).1.aborted = false := by
    rw [run_append] at ha
    simp only [run] at ha
    cases hx : (run cfg s ops).1.aborted with
    | false => rfl
    | true => rw [step_aborted cfg _ op hx] at ha; dsimp only at ha; rw [hx] at ha; cases ha
  have V1 := run_view cfg ops s _ _ (fun o h => ho o (by simp [h])) (create_view cfg lit raw s hs) ha1
  have kk : ∀ (os : List Op) (v : Seen), (os.foldl Seen.step v).keys = os.foldl Keys.step v.keys := by
    intro os
    induction os with
    | nil => intro v; rfl
    | cons o os ih => intro v; rw [List.foldl_cons, List.foldl_cons, ih]; rfl
  have hk := kk (ops ++ [op]) { val := raw }
  rw [V.left, V1.left, V.want]
  rw [List.foldl_append, List.foldl_cons, List.foldl_nil] at hk ⊢
  rw [List.foldl_append, List.foldl_cons, List.foldl_nil] at hk ⊢
  rw [← hk]
  generalize ops.foldl Seen.step { val := raw } = v
  have hl : (v.step op).left = if (List.range 768).any (v.step op).keys.down then v.left else (v.step op).want := by
    have hh : (v.hears op).left = v.left := by
      unfold Seen.hears
      split
      · split <;> rfl
      · split <;> rfl
      · rfl
      · rfl
    unfold Seen.step
    dsimp only
    rw [hh]
  rw [hl]
  have hiff : (List.range 768).any (v.step op).keys.down = true ↔ ∃ c < 768, (v.step op).keys.down c = true := by
    simp only [List.any_eq_true, List.mem_range]
  by_cases hx : ∃ c < 768, (v.step op).keys.down c = true
  · rw [if_pos hx, if_pos (hiff.2 hx)]
  · rw [if_neg hx, if_neg (fun h => hx (hiff.1 h))]

end

example : (run duoCfg duoPad (duoOps.take 4)).1.left = false ∧ (run duoCfg duoPad (duoOps.take 4)).1.wantLeft = true := by decide +kernel

/-! ### What goes wrong -/

/-- A pad whose only ring is `ABS_THROTTLE`, or whose only strip is `ABS_RY`, ends the process when it is touched. -/
theorem second_ring_alone_aborts :
    ∃ s, create { has := fun a => decide (a = .ring2 ∨ a = .strip2), max := fun _ => 71 } (fun _ _ => none) (fun _ => 0) = some s ∧
      (run { has := fun a => decide (a = .ring2 ∨ a = .strip2), max := fun _ => 71 } s [.frame [.abs .ring2 5]]).1.aborted = true ∧
      (run { has := fun a => decide (a = .ring2 ∨ a = .strip2), max := fun _ => 71 } s [.frame [.abs .strip2 4]]).1.aborted = true :=
  ⟨_, rfl, by decide +kernel, by decide +kernel⟩

/-- A pad with a strip and LEDs next to its ring only. -/
def unlisted : Cfg :=
  { byId := some { buttons := [{ code := 256, toggle := true, group := some 0 }], leds := [.ring], ringModes := 2 },
    byPath := some { buttons := [{ code := 256, toggle := true, group := some 0 }], leds := [.ring], ringModes := 2 },
    has := fun a => decide (a = .ring1 ∨ a = .strip1), max := fun _ => 71 }

/-- So does a pad with a ring or strip that no LEDs are next to. -/
theorem unlisted_strip_aborts :
    ∃ s, create unlisted (fun _ m => some m) (fun _ => 0) = some s ∧ (run unlisted s [.frame [.abs .strip1 4]]).1.aborted = true :=
  ⟨_, rfl, by decide +kernel⟩

/-- A pad whose first button has no code; the others are on the other side. -/
def shifted : Cfg :=
  { byId := some { buttons := [{ code := 0, side := 0, toggle := true, group := some 0 }, { code := 257, side := 1, toggle := true, group := some 1 }, { code := 258, side := 1 }], leds := [.ring, .ring2], ringModes := 2, ring2Modes := 2 },
    byPath := some { buttons := [{ code := 0, side := 0, toggle := true, group := some 0 }, { code := 257, side := 1, toggle := true, group := some 1 }, { code := 258, side := 1 }], leds := [.ring, .ring2], ringModes := 2, ring2Modes := 2 } }

/-- Buttons without a code are not numbered, but count for the groups: the button that switches the second group here is said to be in the
first one, and the next button to be the switch of the second one. -/
theorem codeless_buttons_shift_groups :
    ∃ s, create shifted (fun _ m => some m) (fun _ => 0) = some s ∧ shifted.map 257 = .button 0 ∧
      (run shifted s [.frame [.key 257 1]]).2 = [.button 0 true 0 1] ∧
      (s.groups.filter (fun g => g.isToggle shifted 1)).map Group.index = [1] ∧ shifted.map 258 = .button 1 :=
  ⟨_, rfl, by decide +kernel, by decide +kernel, by decide +kernel, by decide +kernel⟩

/-- A disabled pad goes on to send events. -/
theorem disabled_pad_sends_events : (run duoCfg duoPad [.setDisabled true, .frame [.key 257 1]]).2 = [.button 1 true 0 0] := by decide +kernel

/-- A finger that leaves a ring is told as one that comes to its left end, if the kernel sends no `ABS_MISC`. -/
theorem finger_leaves_unnoticed : (run duoCfg duoPad [.frame [.abs .ring1 36], .frame [.abs .ring1 0]]).2 =
    [.ring 0 (.angle 90) 0 0, .ring 0 (.angle 270) 0 0] := by decide +kernel

/-- An `ABS_MISC` of 0 that comes without a ring makes the next finger on the ring a finger that leaves. -/
theorem finger_comes_unnoticed : (run duoCfg duoPad [.frame [.abs .misc 0], .frame [.abs .ring1 36]]).2 = [.ring 0 .up 0 0] := by decide +kernel

/-- A pad with a kind of LEDs this version does not know, before its ring. -/
def gapped : Cfg :=
  { byId := some { buttons := [{ code := 256, toggle := true, group := some 1 }], leds := [.other, .ring], ringModes := 2 },
    byPath := some { buttons := [{ code := 256, toggle := true, group := some 1 }], leds := [.other, .ring], ringModes := 2 } }

/-- Its only group has number 1, and no client can get it. -/
theorem unknown_leds_hide_groups :
    ∃ s, create gapped (fun _ m => some m) (fun _ => 0) = some s ∧ s.groups.map Group.index = [1] ∧ (getGroup s.groups 0).isNone = true ∧ (getGroup s.groups 1).isNone = true :=
  ⟨_, rfl, by decide +kernel, by decide +kernel, by decide +kernel⟩

end Libinput.Pad
