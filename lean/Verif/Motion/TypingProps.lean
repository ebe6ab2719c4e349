import Verif.Motion.Palm
import Verif.Motion.Demo
/-
C42: while the user types, or uses the trackpoint, the touchpad does nothing.
-/
namespace Libinput.Motion
open Touch (St)

/-! ### Typing -/

theorem key_still (s : Pad) (now k code : Nat) (press : Bool) : ∀ o ∈ (step s (.key now k code press)).2, o.acts = false := by
  have := step_core s (.key now k code press) 0 trivial (fun _ _ _ _ => nofun)
  exact this.2

theorem dwt_press (d : Dwt) (now k code : Nat) (hk : k ∈ d.paired) (he : d.enabled = true) (ht : Types code) (hm : d.active = true ∨ d.mods = []) :
    dwtStep d (.key now k code true) = { d with active := true, last := now, keys := code :: d.keys, timer := some (now + if d.active then 500000 else 200000) } := by
  obtain ⟨t1, t2⟩ := (types_iff code).1 ht
  simp only [dwtStep, if_pos hk, he, t1, t2]
  by_cases ha : d.active = true
  · simp [ha]
  · rcases hm with hm | hm
    · exact absurd hm ha
    · simp [ha, hm]

/-- A key is pressed at the time `T`: a key that counts as typing, on a keyboard that belongs to the touchpad, while
disabling is switched on, and either typing was already going on or no modifier is held.  Then no event moves the pointer,
scrolls, or begins or continues a gesture, until 200 ms later, or 500 ms later if typing was already going on: until then the
timer does not go off.  (`rest` goes on until any time; its timers go off before that moment, and its keys come after
`T`.  The keyboard is not taken away.) -/
theorem typing_stops_touchpad (s : Pad) (T k code : Nat) (hk : k ∈ s.dwt.paired) (he : s.dwt.enabled = true) (ht : Types code)
    (hm : s.dwt.active = true ∨ s.dwt.mods = []) (rest : List Op)
    (h1 : ∀ now, .keyTimeout now ∈ rest → now < T + if s.dwt.active then 500000 else 200000)
    (h2 : ∀ op ∈ rest, NotBefore T op) (h3 : ∀ j, .unpair j ∉ rest) :
    ∀ o ∈ (run s (.key T k code true :: rest)).2, o.acts = false := by
  intro o ho
  simp only [run, List.mem_append] at ho
  rcases ho with ho | ho
  · exact key_still s T k code true o ho
  · obtain ⟨w, ew⟩ : ∃ x, x = (if s.dwt.active then 500000 else 200000) := ⟨_, rfl⟩
    rw [← ew] at h1
    have hw : w ≤ 500000 := by rw [ew]; split <;> omega
    refine run_still (fun t => t.dwt.active = true ∧ ∃ e, t.dwt.timer = some e ∧ T + w ≤ e) (fun t ht => .inl ht.1) rest _ ?_ ?_ o ho
    · rw [step_dwt, dwt_press s.dwt T k code hk he ht hm]
      exact ⟨rfl, _, rfl, by rw [ew]; exact Nat.le_refl _⟩
    · intro op hop t ⟨ha, e, het, hle⟩
      rw [step_dwt]
      cases op with
      | key now j c press =>
        have hb : T ≤ now := h2 _ hop
        simp only [dwtStep]
        split
        · repeat' split
          all_goals first
            | exact ⟨ha, e, het, hle⟩
            | exact ⟨ha, _, rfl, by omega⟩
            | (next hx _ => exact absurd ha hx)
            | (next hx => exact absurd ha hx)
        · exact ⟨ha, e, het, hle⟩
      | unpair j => exact absurd hop (h3 j)
      | keyTimeout now =>
        have := h1 now hop
        simp only [dwtStep, due, het]
        rw [if_neg (by simp; omega)]
        exact ⟨ha, e, het, hle⟩
      | _ => exact ⟨ha, e, het, hle⟩

/-- A finger moves the pointer; it does not if a key is pressed before, but it does again after the timer. -/
example : (run (demo .twoFinger) (.pair 0 :: demoSwipe 1)).2.any Out.acts = true ∧
    0 ∈ (run (demo .twoFinger) [.pair 0]).1.dwt.paired ∧ (run (demo .twoFinger) [.pair 0]).1.dwt.enabled = true ∧ Types 30 ∧ (run (demo .twoFinger) [.pair 0]).1.dwt.mods = [] ∧
    (∀ o ∈ (run (run (demo .twoFinger) [.pair 0]).1 (.key 500 0 30 true :: demoSwipe 1)).2, o.acts = false) ∧
    (run (run (demo .twoFinger) [.pair 0]).1 ([.key 100 0 30 true, .key 150 0 30 false, .keyTimeout 200100] ++ demoSwipe 1)).2.any Out.acts = true :=
  ⟨by decide +kernel, by decide +kernel, by decide +kernel, by decide, by decide +kernel,
    typing_stops_touchpad _ 500 0 30 (by decide +kernel) (by decide +kernel) (by decide) (.inr (by decide +kernel)) _
      (by intro now h; simp [demoSwipe, demoFrame] at h) (by intro op h; simp only [demoSwipe, demoFrame, List.mem_cons, List.not_mem_nil, or_false] at h; rcases h with rfl | rfl | rfl | rfl <;> trivial)
      (by intro j h; simp [demoSwipe, demoFrame] at h),
    by decide +kernel⟩

/-- The touchpad stays disabled as long as the key is held: the timer is armed again and again.  (Disabling is not switched
off and the keyboard is not taken away.) -/
theorem typing_held (s : Pad) (T k code : Nat) (hk : k ∈ s.dwt.paired) (he : s.dwt.enabled = true) (ht : Types code)
    (hm : s.dwt.active = true ∨ s.dwt.mods = []) (rest : List Op)
    (h1 : ∀ now j, .key now j code false ∉ rest) (h2 : .setDwt false ∉ rest) (h3 : ∀ j, .unpair j ∉ rest) :
    ∀ o ∈ (run s (.key T k code true :: rest)).2, o.acts = false := by
  intro o ho
  simp only [run, List.mem_append] at ho
  rcases ho with ho | ho
  · exact key_still s T k code true o ho
  · refine run_still (fun t => t.dwt.active = true ∧ t.dwt.enabled = true ∧ code ∈ t.dwt.keys) (fun t ht => .inl ht.1) rest _ ?_ ?_ o ho
    · rw [step_dwt, dwt_press s.dwt T k code hk he ht hm]
      exact ⟨rfl, he, by simp⟩
    · intro op hop t ⟨ha, hen, hc⟩
      rw [step_dwt]
      cases op with
      | key now j c press =>
        simp only [dwtStep]
        split
        · split
          · next hp =>
            subst hp
            have : c ≠ code := fun e => h1 now j (e ▸ hop)
            exact ⟨ha, hen, by simp [hc, Ne.symm this]⟩
          · repeat' split
            all_goals first
              | exact ⟨ha, hen, hc⟩
              | exact ⟨rfl, hen, by simp [hc]⟩
              | exact ⟨ha, hen, by simp [hc]⟩
        · exact ⟨ha, hen, hc⟩
      | unpair j => exact absurd hop (h3 j)
      | keyTimeout now =>
        simp only [dwtStep]
        have hne : t.dwt.keys ≠ [] := fun e => by rw [e] at hc; cases hc
        split
        · rw [if_pos ⟨hen, hne⟩]; exact ⟨ha, hen, hc⟩
        · exact ⟨ha, hen, hc⟩
      | setDwt b =>
        cases b with
        | false => exact absurd hop h2
        | true => exact ⟨ha, rfl, hc⟩
      | _ => exact ⟨ha, hen, hc⟩

/-- The key is held for seconds, and the timer goes off twice. -/
example : (run (run (demo .twoFinger) [.pair 0]).1 ([.key 100 0 30 true, .keyTimeout 200100, .keyTimeout 700100] ++ demoSwipe 1)).1.dwt.active = true := by decide +kernel

/-- What is known of the keyboard: a key in the mask is held on a keyboard that belongs to the touchpad; while the touchpad
is disabled the timer is armed. -/
structure Heard (d : Dwt) (hs : List (Nat × Nat)) (T : Nat) : Prop where
  keys : ∀ c ∈ d.keys, Types c ∧ ∃ k ∈ d.paired, (k, c) ∈ hs
  timer : d.active = true → ∃ e, d.timer = some e ∧ e ≤ T + 500000

theorem heard_run (T : Nat) : ∀ (ops : List Op) (d : Dwt) (hs : List (Nat × Nat)), Heard d hs T → (∀ j, .unpair j ∉ ops) →
    (∀ now k c b, .key now k c b ∈ ops → now ≤ T) → (∀ now, .keyTimeout now ∈ ops → now ≤ T) → Heard (ops.foldl dwtStep d) (held hs ops) T
  | [], d, hs, h, _, _, _ => h
  | op :: ops, d, hs, h, h1, h2, h3 => by
    have rest := fun d' hs' (k : Heard d' hs' T) => heard_run T ops d' hs' k (fun j hj => h1 j (by simp [hj])) (fun now k c b hb => h2 now k c b (by simp [hb]))
      (fun now hn => h3 now (by simp [hn]))
    rw [List.foldl_cons]
    cases op with
    | key now k c b =>
      have hle : now ≤ T := h2 now k c b (by simp)
      cases b with
      | false =>
        refine rest _ _ ?_
        simp only [dwtStep]
        split
        · rw [if_pos trivial]
          refine ⟨fun x hx => ?_, h.timer⟩
          simp only [List.mem_filter, bne_iff_ne, ne_eq] at hx
          obtain ⟨x1, j, j1, j2⟩ := h.keys x hx.1
          exact ⟨x1, j, j1, by simp [j2, hx.2]⟩
        · next hk =>
          refine ⟨fun x hx => ?_, h.timer⟩
          obtain ⟨x1, j, j1, j2⟩ := h.keys x hx
          exact ⟨x1, j, j1, by simp [j2]; intro e; exact absurd (e ▸ j1) hk⟩
      | true =>
        refine rest _ _ ?_
        have more : Heard d ((k, c) :: hs) T := ⟨fun x hx => by obtain ⟨x1, j, j1, j2⟩ := h.keys x hx; exact ⟨x1, j, j1, by simp [j2]⟩, h.timer⟩
        simp only [dwtStep]
        split
        · next hk =>
          rw [if_neg (by decide)]
          split
          · exact more
          · split
            · exact more
            · next hi =>
              split
              · exact ⟨more.keys, more.timer⟩
              · next hmod =>
                have ht : Types c := (types_iff c).2 ⟨by simpa using hi, by simpa using hmod⟩
                have keys : ∀ x ∈ c :: d.keys, Types x ∧ ∃ j ∈ d.paired, (j, x) ∈ (k, c) :: hs := by
                  intro x hx
                  rw [List.mem_cons] at hx
                  rcases hx with rfl | hx
                  · exact ⟨ht, k, hk, by simp⟩
                  · exact more.keys x hx
                split
                · exact ⟨keys, fun _ => ⟨_, rfl, by omega⟩⟩
                · split
                  · exact more
                  · exact ⟨keys, fun _ => ⟨_, rfl, by omega⟩⟩
        · exact more
    | pair k =>
      refine rest _ _ ?_
      simp only [dwtStep]
      refine ⟨fun x hx => ?_, h.timer⟩
      obtain ⟨x1, j, j1, j2⟩ := h.keys x hx
      exact ⟨x1, j, by simp [j1], j2⟩
    | unpair k => exact absurd (by simp) (h1 k)
    | keyTimeout now =>
      have hle : now ≤ T := h3 now (by simp)
      refine rest _ _ ?_
      simp only [dwtStep]
      split
      · split
        · exact ⟨h.keys, fun _ => ⟨_, rfl, by omega⟩⟩
        · exact ⟨h.keys, fun hx => by cases hx⟩
      · exact h
    | setDwt b => exact rest _ _ ⟨h.keys, h.timer⟩
    | _ => exact rest _ _ h

/-- The touchpad works again once typing ends.  `T`: the time of the last event of a keyboard.  Then the touchpad is
disabled by typing only if a timer is armed that goes off within 500 ms; and when it goes off with no typing key held any more,
the touchpad is not disabled any more.  (No keyboard that belongs to the touchpad was taken away.) -/
theorem typing_ends (c : Config) (n : Nat) (m : Method) (dwt areas : Bool) (ops : List Op) (T : Nat) (h1 : ∀ j, .unpair j ∉ ops)
    (h2 : ∀ now k code b, .key now k code b ∈ ops → now ≤ T) (h3 : ∀ now, .keyTimeout now ∈ ops → now ≤ T) :
    ((run (init c n m dwt areas) ops).1.dwt.active = true → ∃ e, (run (init c n m dwt areas) ops).1.dwt.timer = some e ∧ e ≤ T + 500000) ∧
      ((∀ p ∈ held [] ops, ¬ Types p.2) → ∀ now, T + 500000 ≤ now → (run (init c n m dwt areas) (ops ++ [.keyTimeout now])).1.dwt.active = false) := by
  have h := heard_run T ops { enabled := dwt } [] ⟨(fun x hx => by cases hx), (fun hx => by cases hx)⟩ h1 h2 h3
  have e : (run (init c n m dwt areas) ops).1.dwt = ops.foldl dwtStep { enabled := dwt } := run_dwt ops _
  refine ⟨fun ha => by rw [e] at ha ⊢; exact h.timer ha, fun hh now hn => ?_⟩
  have e2 : (run (init c n m dwt areas) (ops ++ [.keyTimeout now])).1.dwt = dwtStep (ops.foldl dwtStep { enabled := dwt }) (.keyTimeout now) := by
    rw [run_dwt, List.foldl_append]; rfl
  rw [e2]
  generalize ops.foldl dwtStep { enabled := dwt } = d at h
  have hk : d.keys = [] := by
    cases ek : d.keys with
    | nil => rfl
    | cons x xs =>
      obtain ⟨x1, k, _, x2⟩ := h.keys x (by rw [ek]; simp)
      exact absurd x1 (hh _ x2)
  simp only [dwtStep]
  split
  · rw [if_neg (fun k => k.2 hk)]
  · next hd =>
    cases ha : d.active with
    | false => rfl
    | true =>
      obtain ⟨e, he, hle⟩ := h.timer ha
      simp only [due, he, decide_eq_true_eq] at hd
      omega

/-- Typing disables the touchpad, and the key is up before the timer goes off. -/
example : (run (init demoConfig 5 .twoFinger true false) [.pair 0, .key 100 0 30 true, .key 150 0 30 false]).1.dwt.active = true ∧
    (∀ p ∈ held [] [.pair 0, .key 100 0 30 true, .key 150 0 30 false], ¬ Types p.2) ∧
    (run (init demoConfig 5 .twoFinger true false) ([.pair 0, .key 100 0 30 true, .key 150 0 30 false] ++ [.keyTimeout 500150])).1.dwt.active = false :=
  ⟨by decide +kernel, by decide,
    (typing_ends demoConfig 5 .twoFinger true false [.pair 0, .key 100 0 30 true, .key 150 0 30 false] 150 (by intro j h; simp at h)
      (by intro now k c b h; simp at h; omega) (by intro now h; simp at h)).2 (by decide) 500150 (by decide)⟩

/-- Nothing but typing disables the touchpad in this way: not the keys from F1 on, not the modifiers, not a keyboard that
does not belong to the touchpad, and nothing at all while disabling is switched off. -/
theorem only_typing_disables (c : Config) (n : Nat) (m : Method) (dwt areas : Bool) (ops : List Op)
    (h : (∀ now k code, .key now k code true ∈ ops → ¬ Types code ∨ .pair k ∉ ops) ∨ (dwt = false ∧ .setDwt true ∉ ops)) :
    (run (init c n m dwt areas) ops).1.dwt.active = false := by
  rw [run_dwt]
  show (ops.foldl dwtStep { enabled := dwt }).active = false
  rcases h with h | ⟨rfl, h⟩
  · have main : ∀ (ps : List Op) (d : Dwt), (∀ op ∈ ps, op ∈ ops) → (∀ k ∈ d.paired, .pair k ∈ ops) → d.active = false → (ps.foldl dwtStep d).active = false := by
      intro ps
      induction ps with
      | nil => intro d _ _ ha; exact ha
      | cons op ps ih =>
        intro d hp hk ha
        rw [List.foldl_cons]
        have hop := hp op (by simp)
        have rest := fun d' hk' ha' => ih d' (fun x hx => hp x (by simp [hx])) hk' ha'
        cases op with
        | key now k code b =>
          simp only [dwtStep]
          split
          · next hin =>
            split
            · exact rest _ hk ha
            · next hb =>
              have hb' : b = true := by simpa using hb
              subst hb'
              have ht : ¬ Types code := by
                rcases h now k code hop with h | h
                · exact h
                · exact absurd (hk k hin) h
              rw [types_iff] at ht
              split
              · exact rest _ hk ha
              · split
                · exact rest _ hk ha
                · split
                  · exact rest _ hk ha
                  · next x y => exact absurd ⟨by simpa using x, by simpa using y⟩ ht
          · exact rest _ hk ha
        | pair k =>
          refine rest _ ?_ ha
          intro j hj
          simp only [dwtStep, List.mem_cons] at hj
          rcases hj with rfl | hj
          · exact hop
          · exact hk j hj
        | unpair k =>
          simp only [dwtStep]
          split
          · refine rest _ ?_ rfl
            intro j hj
            simp only [List.mem_filter] at hj
            exact hk j hj.1
          · exact rest _ hk ha
        | keyTimeout now =>
          simp only [dwtStep]
          split
          · split
            · exact rest _ hk ha
            · exact rest _ hk rfl
          · exact rest _ hk ha
        | setDwt b => exact rest _ hk ha
        | _ => exact rest _ hk ha
    exact main ops _ (fun _ h => h) (fun k hk => by cases hk) rfl
  · have main : ∀ (ps : List Op) (d : Dwt), .setDwt true ∉ ps → d.enabled = false → d.active = false → (ps.foldl dwtStep d).active = false := by
      intro ps
      induction ps with
      | nil => intro d _ _ ha; exact ha
      | cons op ps ih =>
        intro d hp he ha
        rw [List.foldl_cons]
        have rest := fun d' he' ha' => ih d' (fun hx => hp (by simp [hx])) he' ha'
        cases op with
        | key now k code b =>
          simp only [dwtStep]
          split
          · split
            · exact rest _ he ha
            · exact rest _ he ha
          · exact rest _ he ha
        | unpair k =>
          simp only [dwtStep]
          split
          · exact rest _ he rfl
          · exact rest _ he ha
        | keyTimeout now =>
          simp only [dwtStep]
          split
          · split
            · exact rest _ he ha
            · exact rest _ he rfl
          · exact rest _ he ha
        | setDwt b =>
          cases b with
          | true => exact absurd (by simp) hp
          | false => exact rest _ rfl ha
        | _ => exact rest _ he ha
    exact main ops _ h rfl rfl

/-- F1 and left shift are not typing. -/
example : (run (init demoConfig 5 .twoFinger true false) [.pair 0, .key 100 0 59 true, .key 150 0 42 true]).1.dwt.active = false :=
  only_typing_disables demoConfig 5 .twoFinger true false _ (.inl (by
    intro now k c h
    simp at h
    rcases h with ⟨_, _, rfl⟩ | ⟨_, _, rfl⟩ <;> exact .inl (by decide)))

/-- A key pressed while a modifier is held does not disable the touchpad: shortcuts are not typing.  The modifier was
pressed while disabling was switched on, on a keyboard that belongs to the touchpad, and was not released since. -/
theorem shortcut_does_not_disable (s : Pad) (T k code : Nat) (hk : k ∈ s.dwt.paired) (he : s.dwt.enabled = true) (hm : code ∈ modifiers)
    (rest : List Op) (h1 : ∀ now j, .key now j code false ∉ rest) (t : Pad) (et : t = (run s (.key T k code true :: rest)).1) (hn : t.dwt.active = false)
    (now j c : Nat) : (step t (.key now j c true)).1.dwt.active = false ∧ (step t (.key now j c true)).2 = [] := by
  have hmods : code ∈ t.dwt.mods := by
    rw [et, run_dwt, List.foldl_cons]
    have hmod := (modifier_iff code).2 hm
    have hig : isIgnoredKey code = false := by unfold isIgnoredKey; rw [if_pos hmod]
    have e0 : dwtStep s.dwt (.key T k code true) = { s.dwt with mods := code :: s.dwt.mods } := by
      simp only [dwtStep, if_pos hk, he, hig, hmod]
      simp
    rw [e0]
    have main : ∀ (ps : List Op) (d : Dwt), (∀ now j, .key now j code false ∉ ps) → code ∈ d.mods → code ∈ (ps.foldl dwtStep d).mods := by
      intro ps
      induction ps with
      | nil => intro d _ h; exact h
      | cons op ps ih =>
        intro d hp h
        rw [List.foldl_cons]
        have rest := fun d' h' => ih d' (fun x y hx => hp x y (by simp [hx])) h'
        cases op with
        | key now j c b =>
          simp only [dwtStep]
          split
          · split
            · next hb =>
              subst hb
              have : c ≠ code := fun e => hp now j (by simp [e])
              exact rest _ (by simp [h, Ne.symm this])
            · repeat' split
              all_goals first
                | exact rest _ h
                | exact rest _ (by simp [h])
          · exact rest _ h
        | unpair k =>
          simp only [dwtStep]
          split <;> exact rest _ h
        | keyTimeout now =>
          simp only [dwtStep]
          split
          · split <;> exact rest _ h
          · exact rest _ h
        | _ => exact rest _ h
    exact main rest _ h1 (by simp)
  have hne : t.dwt.mods ≠ [] := fun e => by rw [e] at hmods; cases hmods
  constructor
  · rw [step_dwt]
    simp only [dwtStep, hn]
    repeat' split
    all_goals first
      | exact hn
      | rfl
      | (next hx => exact absurd hx (by decide))
      | (next hx => exact absurd hne hx)
  · simp only [step]
    split
    · unfold Pad.keyEvent
      rw [if_neg (by decide)]
      split
      · rfl
      · split
        · rfl
        · split
          · rfl
          · split
            · rfl
            · rfl
    · rfl

/-- Control and C: the touchpad goes on working. -/
example : (step (run (run (demo .twoFinger) [.pair 0]).1 [.key 100 0 29 true]).1 (.key 200 0 46 true)).1.dwt.active = false :=
  (shortcut_does_not_disable (run (demo .twoFinger) [.pair 0]).1 100 0 29 (by decide +kernel) (by decide +kernel) (by decide) [] (by intro _ _ h; cases h) _ rfl (by decide +kernel) 200 0 46).1

/-! ### Touches that begin while typing -/

theorem palmDetect_begin (s : Pad) (t : Finger) (v : View) (now : Nat) (hst : t.st = .begin) (hp : t.palm = .none) (hd : s.dwt.enabled = true ∧ s.dwt.active = true ∨ s.trk.active = true ∧ s.cfg.monitorTrackpoint = true) :
    (s.palmDetect t v now).palmTime = t.palmTime ∧
      ((s.palmDetect t v now).palm = .pressure ∨ (s.palmDetect t v now).palm = .arbitration ∨ ((s.palmDetect t v now).palm = .typing ∧ s.dwt.active = true) ∨
        ((s.palmDetect t v now).palm = .trackpoint ∧ s.trk.active = true ∧ ¬ (s.dwt.enabled = true ∧ s.dwt.active = true))) := by
  have e1 : s.palmPressure t = (t, false) ∨ s.palmPressure t = ({ t with palm := .pressure }, true) := by
    unfold Pad.palmPressure
    split
    · exact .inl rfl
    · rw [if_neg (by rw [hp]; simp)]
      simp only
      split
      · exact .inr rfl
      · rw [hp]; exact .inl rfl
  unfold Pad.palmDetect
  rcases e1 with e1 | e1
  · simp only [e1, Bool.false_eq_true, if_false]
    unfold Pad.palmArb
    by_cases ha : s.arb = true
    · simp only [if_pos ha, if_true]; exact ⟨trivial, .inr (.inl trivial)⟩
    · simp only [if_neg ha, Bool.false_eq_true, if_false]
      by_cases hb : s.dwt.enabled = true ∧ s.dwt.active = true
      · have e2 : s.palmDwt t = ({ t with palm := .typing, palmFirst := t.pos }, true) := by
          unfold Pad.palmDwt
          rw [if_pos ⟨hb.1, hb.2, hst⟩]
        simp only [e2, if_true]
        exact ⟨trivial, .inr (.inr (.inl ⟨trivial, hb.2⟩))⟩
      · have e2 : s.palmDwt t = (t, false) := by
          unfold Pad.palmDwt
          rw [if_neg (fun k => hb ⟨k.1, k.2.1⟩), if_neg (by rw [hst]; simp)]
        rcases hd with hd | hd
        · exact absurd hd hb
        · have e3 : s.palmTrk t = ({ t with palm := .trackpoint }, true) := by
            unfold Pad.palmTrk
            rw [if_neg (by rw [hd.2]; simp), if_pos ⟨hp, hst, hd.1⟩]
          simp only [e2, e3, Bool.false_eq_true, if_false, if_true]
          exact ⟨trivial, .inr (.inr (.inr ⟨trivial, hd.1, hb⟩))⟩
  · simp only [e1, if_true]; exact ⟨trivial, .inl trivial⟩

theorem take_begin (t : Finger) (v : View) (now : Nat) (h : v.st = .begin) (ht : t.palm = .none ∨ t.st = .none) :
    (t.take v now).palm = .none ∧ (t.take v now).palmTime = now ∧ (t.take v now).st = .begin := by
  unfold Finger.take
  simp only [h]
  refine ⟨?_, trivial, trivial⟩
  by_cases hs : t.st = .none
  · simp only [if_pos hs]
  · simp only [if_neg hs]
    rcases ht with ht | ht
    · exact ht
    · exact absurd ht hs

/-- A touch begins while the touchpad is disabled, and later on something keeps it a palm. -/
theorem begin_ignored (s : Pad) (hn : Numbered s) (T : Nat) (vs : List View) (g : Frame) (hov : Nat → Bool) (i : Nat) (t : Finger) (v : View)
    (ht : s.touches[i]? = some t) (hnew : t.palm = .none ∨ t.st = .none) (hv : vs[i]? = some v) (hb : v.st = .begin) (hd : v.dirty = true)
    (hbusy : s.dwt.enabled = true ∧ s.dwt.active = true ∨ s.trk.active = true ∧ s.cfg.monitorTrackpoint = true) (rest : List Op) (hs : ∀ op ∈ rest, StaysDown i op)
    (hq : ∀ a b, rest = a ++ b → ∀ p : PCore, p.palmTime = T → (p.palm = .pressure ∨ p.palm = .arbitration ∨ (p.palm = .typing ∧ s.dwt.active = true) ∨
      (p.palm = .trackpoint ∧ s.trk.active = true ∧ ¬ (s.dwt.enabled = true ∧ s.dwt.active = true))) →
        Kept (a.foldl dwtStep s.dwt) (a.foldl (trkStep s.cfg.monitorTrackpoint) s.trk) p) :
    ∀ o ∈ (run s (.frame T vs g hov :: rest)).2, ¬ o.by i := by
  obtain ⟨u, h1, h2, h3, _, h4⟩ := judge_handled s vs g T i t v ht hv
  have tk := take_begin t v T hb hnew
  have tkd : (t.take v T).dirty = true := (congrArg ECore.dirty (take_ecore t v T)).trans hd
  obtain ⟨s2, t2, k1, _, k3, k4⟩ := h4.1 ⟨by rw [tk.2.2]; simp, tkd⟩
  obtain ⟨b1, b2, _⟩ := bare_palm k3
  have b1p : t2.palm = .none := (congrArg PCore.palm b1).trans tk.1
  have b1t : t2.palmTime = T := (congrArg PCore.palmTime b1).trans tk.2.1
  obtain ⟨d1, d2⟩ := palmDetect_begin s2 t2 v T (b2.trans tk.2.2) b1p (by rw [k1.dwt, k1.trk, k1.cfg]; exact hbusy)
  rw [k1.dwt, k1.trk] at d2
  rw [b1t] at d1
  generalize s2.palmDetect t2 v T = r at k4 d1 d2
  have u1 : u.palmTime = T := (congrArg PCore.palmTime k4).trans d1
  have u2 : u.palm = r.palm := congrArg PCore.palm k4
  rw [← u2] at d2
  have hp : u.palm ≠ .none := by
    rcases d2 with h | h | h | h <;> first | (rw [h]; simp; done) | (rw [h.1]; simp; done)
  obtain ⟨w, w1, w2, w3, w4⟩ := frame_handled s vs g hov T i u h1
  have e : (step s (.frame T vs g hov)).1 = (s.frame vs g hov T).1 := rfl
  have ed : (step s (.frame T vs g hov)).1.dwt = s.dwt := step_dwt s _
  have et : (step s (.frame T vs g hov)).1.trk = s.trk := step_trk s _
  have ec : (step s (.frame T vs g hov)).1.cfg = s.cfg := (shape_step s _).cfg
  have hfol : ∀ p, Follows w.pcore p → p.palmTime = T ∧ (p.palm = .pressure ∨ p.palm = .arbitration ∨ (p.palm = .typing ∧ s.dwt.active = true) ∨
      (p.palm = .trackpoint ∧ s.trk.active = true ∧ ¬ (s.dwt.enabled = true ∧ s.dwt.active = true))) := by
    intro p hp
    rw [w2] at hp
    rcases hp with rfl | rfl
    · exact ⟨u1, d2⟩
    · exact ⟨u1, .inr (.inl rfl)⟩
  have kq : ∀ a b, rest = a ++ b → ∀ p, Follows w.pcore p → Kept (run (step s (.frame T vs g hov)).1 a).1.dwt (run (step s (.frame T vs g hov)).1 a).1.trk p := by
    intro a b hab p hp
    rw [run_dwt, run_trk, ed, et, ec]
    exact hq a b hab p (hfol p hp).1 (hfol p hp).2
  have main := run_kept rest (step s (.frame T vs g hov)).1 i w (numbered_shape (shape_step s _) hn) ⟨w1, w4 (.inl (h3.trans hb))⟩
    (kq [] rest rfl _ (.inl rfl)) hs kq
  intro o ho
  simp only [run, List.mem_append] at ho
  rcases ho with ho | ho
  · exact frame_not_by s vs g hov T i u hn h1 hp o ho
  · exact main.1 o ho

theorem active_stays : ∀ (ops : List Op) (d : Dwt), (∀ now, .keyTimeout now ∉ ops) → (∀ j, .unpair j ∉ ops) → d.active = true → (ops.foldl dwtStep d).active = true
  | [], _, _, _, h => h
  | op :: ops, d, h1, h2, h => by
    rw [List.foldl_cons]
    refine active_stays ops _ (fun n hn => h1 n (by simp [hn])) (fun n hn => h2 n (by simp [hn])) ?_
    cases op with
    | key now k c b =>
      simp only [dwtStep]
      repeat' split
      all_goals first | exact h | rfl
    | unpair j => exact absurd (by simp) (h2 j)
    | keyTimeout now => exact absurd (by simp) (h1 now)
    | _ => exact h

theorem last_after (T : Nat) : ∀ (ops : List Op) (d : Dwt), (∀ op ∈ ops, NotBefore T op) → T ≤ d.last → T ≤ (ops.foldl dwtStep d).last
  | [], _, _, h => h
  | op :: ops, d, h1, h => by
    rw [List.foldl_cons]
    refine last_after T ops _ (fun x hx => h1 x (by simp [hx])) ?_
    have hop := h1 op (by simp)
    cases op with
    | key now k c b =>
      have hop : T ≤ now := hop
      simp only [dwtStep]
      repeat' split
      all_goals first | exact h | exact hop
    | unpair j => simp only [dwtStep]; split <;> exact h
    | keyTimeout now =>
      have hop : T ≤ now := hop
      simp only [dwtStep]
      repeat' split
      all_goals first | exact h | exact hop
    | _ => exact h

/-- A touch that begins while the user is typing, before the last key is pressed, is ignored until it is lifted: it
moves nothing, even when the touchpad is enabled again.  `T`: when the touch begins; then a key is pressed after more of
whatever may happen (`a`), and anything may happen after that (`b`) as long as the touch stays down. -/
theorem touch_while_typing_ignored (c : Config) (n : Nat) (m : Method) (dwt areas : Bool) (ops : List Op) (s : Pad) (es : s = (run (init c n m dwt areas) ops).1)
    (hact : s.dwt.enabled = true ∧ s.dwt.active = true)
    (T : Nat) (hT : T ≠ 0) (vs : List View) (g : Frame) (hov : Nat → Bool) (i : Nat) (t : Finger) (v : View)
    (ht : s.touches[i]? = some t) (hnew : t.st = .none) (hv : vs[i]? = some v) (hb : v.st = .begin) (hd : v.dirty = true)
    (a b : List Op) (ha1 : ∀ now, .keyTimeout now ∉ a) (ha2 : ∀ j, .unpair j ∉ a)
    (now k code : Nat) (hk : k ∈ (run s (.frame T vs g hov :: a)).1.dwt.paired) (hen : (run s (.frame T vs g hov :: a)).1.dwt.enabled = true) (hc : Types code)
    (hs : ∀ op ∈ a ++ .key now k code true :: b, StaysDown i op) (hnow : T ≤ now) (hb1 : ∀ op ∈ b, NotBefore T op) :
    ∀ o ∈ (run s (.frame T vs g hov :: (a ++ .key now k code true :: b))).2, ¬ o.by i := by
  have hn : Numbered s := by rw [es]; exact numbered_run ops c n m dwt areas
  refine begin_ignored s hn T vs g hov i t v ht (.inr hnew) hv hb hd (.inl hact) _ hs ?_
  intro x y hxy p hp1 hp2
  have hdwt : ∀ q, p.palm = .typing → (q.active = true ∨ T ≤ q.last) → Kept q (x.foldl (trkStep s.cfg.monitorTrackpoint) s.trk) p := by
    intro q h1 h2
    refine .inr (.inr (.inr (.inl ⟨h1, ?_⟩)))
    rw [hp1]
    rcases h2 with h2 | h2
    · exact .inl h2
    · exact .inr ⟨hT, h2⟩
  rcases hp2 with h | h | ⟨h, _⟩ | h
  · exact .inl h
  · exact .inr (.inr (.inl h))
  · refine hdwt _ h ?_
    rcases List.append_eq_append_iff.1 hxy with ⟨z, hz1, hz2⟩ | ⟨z, hz1, hz2⟩
    · cases z with
      | nil =>
        left
        rw [hz1, List.append_nil]
        exact active_stays a _ ha1 ha2 hact.2
      | cons z0 z =>
        right
        simp only [List.cons_append, List.cons.injEq] at hz2
        obtain ⟨hz2, hz3⟩ := hz2
        rw [hz1, ← hz2, List.foldl_append, List.foldl_cons]
        refine last_after T z _ (fun op hop => hb1 op (by rw [hz3]; simp [hop])) ?_
        have e0 : (run s (.frame T vs g hov :: a)).1.dwt = a.foldl dwtStep s.dwt := by rw [run_dwt]; rfl
        rw [e0] at hk hen
        rw [dwt_press _ now k code hk hen hc (.inl (active_stays a _ ha1 ha2 hact.2))]
        exact hnow
    · left
      refine active_stays x _ (fun n hn => ha1 n (by rw [hz1]; simp [hn])) (fun n hn => ha2 n (by rw [hz1]; simp [hn])) hact.2
  · exact absurd hact h.2.2

/-- A palm rests on the touchpad while the user types: a key at 100, the palm at 500, another key at 1500.  The key is
released and the timer goes off, so the touchpad works again; but the palm still moves nothing, while a new finger does. -/
example : let s := (run (init demoConfig 5 .twoFinger true false) [.pair 0, .key 100 0 30 true]).1
    let rest : List Op := [.key 1500 0 31 true, .key 1600 0 31 false, .key 1600 0 30 false, .keyTimeout 501500, demoFrame 600000 [at_ .update 300 300] { dy := 10 },
      demoFrame 610000 [at_ .update 300 200] { dy := 10 }, demoFrame 620000 [at_ .update 300 100] { dy := 10 }]
    (∀ o ∈ (run s (demoFrame 500 [at_ .begin 300 400] :: ([] ++ rest))).2, ¬ o.by 0) ∧
      (run s (demoFrame 500 [at_ .begin 300 400] :: rest)).1.dwt.active = false ∧
      ∃ o ∈ (run s (rest ++ demoSwipe 1)).2, o.by 0 := by
  refine ⟨?_, by decide +kernel, ?_⟩
  · refine touch_while_typing_ignored demoConfig 5 .twoFinger true false [.pair 0, .key 100 0 30 true] _ rfl (by decide +kernel) 500 (by decide) _ _ _ 0 _ _ rfl
      (by decide +kernel) rfl rfl rfl [] _ (by intro _ h; cases h) (by intro _ h; cases h) 1500 0 31 (by decide +kernel) (by decide +kernel) (by decide) ?_ (by decide) ?_
    · intro op h
      simp only [List.nil_append, List.mem_cons, List.not_mem_nil, or_false] at h
      rcases h with rfl | rfl | rfl | rfl | rfl | rfl | rfl <;> first | trivial | exact ⟨_, rfl, rfl⟩
    · intro op h
      simp only [List.mem_cons, List.not_mem_nil, or_false] at h
      rcases h with rfl | rfl | rfl | rfl | rfl | rfl <;> simp [NotBefore, demoFrame]
  · decide +kernel

/-! ### The trackpoint -/

theorem trk_other (mon : Bool) (k : Trackpoint) (op : Op) (h1 : ∀ now, op ≠ .trackpoint now) (h2 : ∀ now, op ≠ .trkTimeout now) : trkStep mon k op = k := by
  cases op with
  | trackpoint now => exact absurd rfl (h1 now)
  | trkTimeout now => exact absurd rfl (h2 now)
  | _ => rfl

/-- At least `n` events of the trackpoint came, the timer is armed and goes off at `T + 40000` or later. -/
theorem trk_counts (mon : Bool) (T : Nat) : ∀ (ops : List Op) (k : Trackpoint) (n e : Nat), n ≤ k.count → k.timer = some e → T + 40000 ≤ e → (∀ op ∈ ops, NotBefore T op) →
    (∀ now, .trkTimeout now ∈ ops → now < T + 40000) → n ≤ (ops.foldl (trkStep mon) k).count ∧ ∃ e, (ops.foldl (trkStep mon) k).timer = some e ∧ T + 40000 ≤ e
  | [], k, n, e, h1, h2, h3, _, _ => ⟨h1, e, h2, h3⟩
  | op :: ops, k, n, e, h1, h2, h3, h4, h5 => by
    rw [List.foldl_cons]
    have hop := h4 op (by simp)
    have rest := fun k' e' a b c => trk_counts mon T ops k' n e' a b c (fun x hx => h4 x (by simp [hx])) (fun x hx => h5 x (by simp [hx]))
    cases op with
    | trackpoint now =>
      have hop : T ≤ now := hop
      simp only [trkStep]
      split
      · split
        · exact rest _ (now + 40000) (by simp only; omega) rfl (by omega)
        · exact rest _ (now + 300000) (by simp only; omega) rfl (by omega)
      · exact rest _ e h1 h2 h3
    | trkTimeout now =>
      have := h5 now (by simp)
      simp only [trkStep, due, h2]
      rw [if_neg (by simp; omega)]
      exact rest _ e h1 h2 h3
    | _ => exact rest _ e h1 h2 h3

theorem trk_event (k : Trackpoint) (now : Nat) : (trkStep true k (.trackpoint now)).count = k.count + 1 ∧
    (∃ e, (trkStep true k (.trackpoint now)).timer = some e ∧ now + 40000 ≤ e) ∧ (2 ≤ k.count → (trkStep true k (.trackpoint now)).active = true ∧ (trkStep true k (.trackpoint now)).timer = some (now + 300000)) := by
  simp only [trkStep, if_true]
  split
  · exact ⟨rfl, ⟨_, rfl, Nat.le_refl _⟩, fun h => by omega⟩
  · exact ⟨rfl, ⟨_, rfl, by omega⟩, fun _ => ⟨rfl, rfl⟩⟩

/-- Three events of the trackpoint disable the touchpad for 300 ms, if each came before the timer of the one before it went off.
Events of the trackpoint in between are allowed.  A single nudge is not enough: `few_nudges_do_not_disable`. -/
theorem trackpoint_stops_touchpad (s : Pad) (hm : s.cfg.monitorTrackpoint = true) (T1 T2 T3 : Nat) (a b rest : List Op)
    (ha : ∀ op ∈ a, NotBefore T1 op) (ha2 : ∀ now, .trkTimeout now ∈ a → now < T1 + 40000) (hb : ∀ op ∈ b, NotBefore T2 op) (hb2 : ∀ now, .trkTimeout now ∈ b → now < T2 + 40000)
    (hr : ∀ op ∈ rest, NotBefore T3 op) (hr2 : ∀ now, .trkTimeout now ∈ rest → now < T3 + 300000)
    (t : Pad) (et : t = (run s (.trackpoint T1 :: (a ++ .trackpoint T2 :: b))).1) :
    ∀ o ∈ (run t (.trackpoint T3 :: rest)).2, o.acts = false := by
  have hcount : 2 ≤ t.trk.count := by
    rw [et, run_trk, hm, List.foldl_cons, List.foldl_append, List.foldl_cons]
    obtain ⟨p1, ⟨e1, p2, p3⟩, _⟩ := trk_event s.trk T1
    obtain ⟨q1, _⟩ := trk_counts true T1 a _ 1 e1 (by rw [p1]; omega) p2 p3 ha ha2
    obtain ⟨r1, ⟨e2, r2, r3⟩, _⟩ := trk_event (a.foldl (trkStep true) (trkStep true s.trk (.trackpoint T1))) T2
    exact (trk_counts true T2 b _ 2 e2 (by rw [r1]; omega) r2 r3 hb hb2).1
  have hmt : t.cfg.monitorTrackpoint = true := by rw [et, (shape_run _ s).cfg]; exact hm
  intro o ho
  simp only [run, List.mem_append] at ho
  rcases ho with ho | ho
  · exact (step_core t (.trackpoint T3) 0 trivial (fun _ _ _ _ => nofun)).2 o ho
  · refine run_still (fun u => u.cfg.monitorTrackpoint = true ∧ u.trk.active = true ∧ ∃ e, u.trk.timer = some e ∧ T3 + 300000 ≤ e ∧ 2 ≤ u.trk.count) (fun u hu => .inr hu.2.1) rest _ ?_ ?_ o ho
    · refine ⟨by rw [(shape_step t _).cfg]; exact hmt, ?_⟩
      rw [step_trk, hmt]
      obtain ⟨p1, _, p2⟩ := trk_event t.trk T3
      exact ⟨(p2 hcount).1, _, (p2 hcount).2, Nat.le_refl _, by rw [p1]; omega⟩
    · intro op hop u ⟨hu1, hu2, e, hu3, hu4, hu5⟩
      refine ⟨by rw [(shape_step u _).cfg]; exact hu1, ?_⟩
      rw [step_trk, hu1]
      cases op with
      | trackpoint now =>
        have hx : T3 ≤ now := hr _ hop
        obtain ⟨p1, _, p2⟩ := trk_event u.trk now
        exact ⟨(p2 hu5).1, _, (p2 hu5).2, by omega, by rw [p1]; omega⟩
      | trkTimeout now =>
        have := hr2 now hop
        simp only [trkStep, due, hu3]
        rw [if_neg (by simp; omega)]
        exact ⟨hu2, e, hu3, hu4, hu5⟩
      | _ => exact ⟨hu2, e, hu3, hu4, hu5⟩

/-- Three events at 100, 200 and 300 stop a finger; two do not. -/
example : (run (demo .twoFinger) ([.trackpoint 100, .trackpoint 200] ++ demoSwipe 1)).2.any Out.acts = true ∧
    ∀ o ∈ (run (run (demo .twoFinger) (.trackpoint 100 :: ([] ++ .trackpoint 200 :: []))).1 (.trackpoint 300 :: demoSwipe 1)).2, o.acts = false :=
  ⟨by decide +kernel,
    trackpoint_stops_touchpad (demo .twoFinger) rfl 100 200 300 [] [] (demoSwipe 1) (by intro _ h; cases h) (by intro _ h; cases h) (by intro _ h; cases h) (by intro _ h; cases h)
      (by intro op h; simp only [demoSwipe, demoFrame, List.mem_cons, List.not_mem_nil, or_false] at h; rcases h with rfl | rfl | rfl | rfl <;> trivial)
      (by intro now h; simp [demoSwipe, demoFrame] at h) _ rfl⟩

/-- Fewer than three events of the trackpoint do not disable the touchpad; nor do any, if it does not belong to the
touchpad. -/
theorem few_nudges_do_not_disable (c : Config) (n : Nat) (m : Method) (dwt areas : Bool) (ops : List Op) (h : nudges ops ≤ 2 ∨ c.monitorTrackpoint = false) :
    (run (init c n m dwt areas) ops).1.trk.active = false := by
  rw [run_trk]
  show (ops.foldl (trkStep c.monitorTrackpoint) {}).active = false
  have main : ∀ (ops : List Op) (k : Trackpoint), k.active = false → (k.count + nudges ops ≤ 2 ∨ c.monitorTrackpoint = false) → (ops.foldl (trkStep c.monitorTrackpoint) k).active = false := by
    intro ops
    induction ops with
    | nil => intro k h _; exact h
    | cons op ops ih =>
      intro k h1 h2
      rw [List.foldl_cons]
      cases op with
      | trackpoint now =>
        simp only [nudges] at h2
        simp only [trkStep]
        split
        · next hm =>
          have h2 : k.count + (nudges ops + 1) ≤ 2 := by
            rcases h2 with h2 | h2
            · exact h2
            · rw [hm] at h2; cases h2
          rw [if_pos (by omega)]
          exact ih _ h1 (.inl (by simp only; omega))
        · next hm => exact ih _ h1 (.inr (by simpa using hm))
      | trkTimeout now =>
        simp only [nudges] at h2
        simp only [trkStep]
        split
        · exact ih _ rfl (h2.imp (fun h2 => by simp only; omega) id)
        · exact ih _ h1 h2
      | _ => exact ih _ h1 h2
  exact main ops {} rfl (h.imp (fun h => by simpa using h) id)

/-- The touchpad works again 300 ms after the trackpoint was used last: while it is disabled a timer is armed that goes off
by then, and when it does the touchpad is not disabled any more. -/
theorem trackpoint_ends (c : Config) (n : Nat) (m : Method) (dwt areas : Bool) (ops : List Op) (T : Nat) (h : ∀ now, .trackpoint now ∈ ops → now ≤ T) :
    ((run (init c n m dwt areas) ops).1.trk.active = true → ∃ e, (run (init c n m dwt areas) ops).1.trk.timer = some e ∧ e ≤ T + 300000) ∧
      ∀ now, T + 300000 ≤ now → (run (init c n m dwt areas) (ops ++ [.trkTimeout now])).1.trk.active = false := by
  have main : ∀ (ops : List Op) (k : Trackpoint), (∀ now, .trackpoint now ∈ ops → now ≤ T) → (k.active = true → ∃ e, k.timer = some e ∧ e ≤ T + 300000) →
      (ops.foldl (trkStep c.monitorTrackpoint) k).active = true → ∃ e, (ops.foldl (trkStep c.monitorTrackpoint) k).timer = some e ∧ e ≤ T + 300000 := by
    intro ops
    induction ops with
    | nil => intro k _ h; exact h
    | cons op ops ih =>
      intro k h1 h2
      rw [List.foldl_cons]
      have rest := fun k' h' => ih k' (fun x hx => h1 x (by simp [hx])) h'
      cases op with
      | trackpoint now =>
        have := h1 now (by simp)
        simp only [trkStep]
        split
        · split
          · exact rest _ (fun _ => ⟨_, rfl, by omega⟩)
          · exact rest _ (fun _ => ⟨_, rfl, by omega⟩)
        · exact rest _ h2
      | trkTimeout now =>
        simp only [trkStep]
        split
        · exact rest _ (fun hx => by cases hx)
        · exact rest _ h2
      | _ => exact rest _ h2
  have e : ∀ ops, (run (init c n m dwt areas) ops).1.trk = ops.foldl (trkStep c.monitorTrackpoint) {} := fun ops => run_trk ops _
  rw [e]
  have k := main ops {} h (fun hx => by cases hx)
  refine ⟨k, fun now hn => ?_⟩
  rw [e, List.foldl_append]
  generalize ops.foldl (trkStep c.monitorTrackpoint) {} = q at k
  show (trkStep c.monitorTrackpoint q (.trkTimeout now)).active = false
  simp only [trkStep]
  split
  · rfl
  · next hd =>
    cases ha : q.active with
    | false => rfl
    | true =>
      obtain ⟨e, he, hle⟩ := k ha
      simp only [due, he, decide_eq_true_eq] at hd
      omega

example : (run (demo .twoFinger) [.trackpoint 100, .trackpoint 200, .trackpoint 300]).1.trk.active = true ∧
    (run (demo .twoFinger) ([.trackpoint 100, .trackpoint 200, .trackpoint 300] ++ [.trkTimeout 300300])).1.trk.active = false :=
  ⟨by decide +kernel, (trackpoint_ends demoConfig 5 .twoFinger true false [.trackpoint 100, .trackpoint 200, .trackpoint 300] 300 (by intro now h; simp at h; omega)).2 300300 (by decide)⟩

theorem trk_active_stays (mon : Bool) : ∀ (ops : List Op) (k : Trackpoint), (∀ now, .trkTimeout now ∉ ops) → k.active = true ∧ 2 ≤ k.count →
    (ops.foldl (trkStep mon) k).active = true ∧ 2 ≤ (ops.foldl (trkStep mon) k).count
  | [], _, _, h => h
  | op :: ops, k, h1, h => by
    rw [List.foldl_cons]
    refine trk_active_stays mon ops _ (fun n hn => h1 n (by simp [hn])) ?_
    cases op with
    | trackpoint now =>
      simp only [trkStep]
      split
      · rw [if_neg (by omega)]; exact ⟨rfl, by simp only; omega⟩
      · exact h
    | trkTimeout now => exact absurd (by simp) (h1 now)
    | _ => exact h

theorem trk_last_after (mon : Bool) (T : Nat) : ∀ (ops : List Op) (k : Trackpoint), (∀ op ∈ ops, NotBefore T op) → T ≤ k.last → T ≤ (ops.foldl (trkStep mon) k).last
  | [], _, _, h => h
  | op :: ops, k, h1, h => by
    rw [List.foldl_cons]
    refine trk_last_after mon T ops _ (fun x hx => h1 x (by simp [hx])) ?_
    have hop := h1 op (by simp)
    cases op with
    | trackpoint now =>
      have hop : T ≤ now := hop
      simp only [trkStep]
      repeat' split
      all_goals first | exact h | exact hop
    | trkTimeout now =>
      simp only [trkStep]
      split <;> exact h
    | _ => exact h

/-- While the trackpoint has disabled the touchpad, it has been used at least three times. -/
theorem trk_count_run (mon : Bool) : ∀ (ops : List Op) (k : Trackpoint), (k.active = true → 2 ≤ k.count) → (ops.foldl (trkStep mon) k).active = true → 2 ≤ (ops.foldl (trkStep mon) k).count
  | [], _, h => h
  | op :: ops, k, h => by
    rw [List.foldl_cons]
    refine trk_count_run mon ops _ ?_
    cases op with
    | trackpoint now =>
      simp only [trkStep]
      split
      · split
        · intro hx; have := h hx; simp only; omega
        · intro _; simp only; omega
      · exact h
    | trkTimeout now =>
      simp only [trkStep]
      split
      · intro hx; cases hx
      · exact h
    | _ => exact h

/-- The same for the trackpoint: a touch that begins while it is used is ignored until it is lifted. -/
theorem touch_while_trackpoint_ignored (c : Config) (n : Nat) (m : Method) (dwt areas : Bool) (ops : List Op) (s : Pad) (es : s = (run (init c n m dwt areas) ops).1)
    (hm : c.monitorTrackpoint = true) (hact : s.trk.active = true) (hdwt : s.dwt.active = false)
    (T : Nat) (hT : T ≠ 0) (vs : List View) (g : Frame) (hov : Nat → Bool) (i : Nat) (t : Finger) (v : View)
    (ht : s.touches[i]? = some t) (hnew : t.st = .none) (hv : vs[i]? = some v) (hb : v.st = .begin) (hd : v.dirty = true)
    (a b : List Op) (ha1 : ∀ now, .trkTimeout now ∉ a) (now : Nat)
    (hs : ∀ op ∈ a ++ .trackpoint now :: b, StaysDown i op) (hnow : T ≤ now) (hb1 : ∀ op ∈ b, NotBefore T op) :
    ∀ o ∈ (run s (.frame T vs g hov :: (a ++ .trackpoint now :: b))).2, ¬ o.by i := by
  have hn : Numbered s := by rw [es]; exact numbered_run ops c n m dwt areas
  have hc : s.cfg.monitorTrackpoint = true := by rw [es, (shape_run _ _).cfg]; exact hm
  have h2 : 2 ≤ s.trk.count := by
    rw [es, run_trk] at hact ⊢
    exact trk_count_run _ ops _ (fun h => by cases h) hact
  refine begin_ignored s hn T vs g hov i t v ht (.inr hnew) hv hb hd (.inr ⟨hact, hc⟩) _ hs ?_
  intro x y hxy p hp1 hp2
  rcases hp2 with h | h | ⟨_, h⟩ | ⟨h, _⟩
  · exact .inl h
  · exact .inr (.inr (.inl h))
  · rw [hdwt] at h; cases h
  · refine .inr (.inr (.inr (.inr ⟨h, ?_⟩)))
    rw [hp1]
    rcases List.append_eq_append_iff.1 hxy with ⟨z, hz1, hz2⟩ | ⟨z, hz1, hz2⟩
    · cases z with
      | nil =>
        left
        rw [hz1, List.append_nil]
        exact (trk_active_stays _ a _ ha1 ⟨hact, h2⟩).1
      | cons z0 z =>
        refine .inr ⟨hT, ?_⟩
        simp only [List.cons_append, List.cons.injEq] at hz2
        obtain ⟨hz2, hz3⟩ := hz2
        rw [hz1, ← hz2, List.foldl_append, List.foldl_cons]
        refine trk_last_after _ T z _ (fun op hop => hb1 op (by rw [hz3]; simp [hop])) ?_
        simp only [trkStep, hc, if_true]
        split <;> exact hnow
    · left
      exact (trk_active_stays _ x _ (fun n hn => ha1 n (by rw [hz1]; simp [hn])) ⟨hact, h2⟩).1

/-- The same palm while the trackpoint is used. -/
example : let s := (run (init demoConfig 5 .twoFinger true false) [.trackpoint 100, .trackpoint 200, .trackpoint 300]).1
    let rest : List Op := [.trackpoint 1500, .trkTimeout 301500, demoFrame 600000 [at_ .update 300 300] { dy := 10 }, demoFrame 610000 [at_ .update 300 200] { dy := 10 }]
    (∀ o ∈ (run s (demoFrame 500 [at_ .begin 300 400] :: ([] ++ rest))).2, ¬ o.by 0) ∧
      (run s (demoFrame 500 [at_ .begin 300 400] :: rest)).1.trk.active = false ∧ ∃ o ∈ (run s (rest ++ demoSwipe 1)).2, o.by 0 := by
  refine ⟨?_, by decide +kernel, ?_⟩
  · refine touch_while_trackpoint_ignored demoConfig 5 .twoFinger true false [.trackpoint 100, .trackpoint 200, .trackpoint 300] _ rfl rfl (by decide +kernel) (by decide +kernel) 500 (by decide) _ _ _ 0 _ _ rfl
      (by decide +kernel) rfl rfl rfl [] _ (by intro _ h; cases h) 1500 ?_ (by decide) ?_
    · intro op h
      simp only [List.nil_append, List.mem_cons, List.not_mem_nil, or_false] at h
      rcases h with rfl | rfl | rfl | rfl <;> first | trivial | exact ⟨_, rfl, rfl⟩
    · intro op h
      simp only [List.mem_cons, List.not_mem_nil, or_false] at h
      rcases h with rfl | rfl | rfl <;> simp [NotBefore, demoFrame]
  · decide +kernel

/-! ### Tapping -/

theorem tapOff_step (s : Pad) (op : Op) (h1 : ∀ now, op ≠ .keyTimeout now) (h2 : ∀ now, op ≠ .trkTimeout now) (h : s.tapOff = true) : (step s op).1.tapOff = true := by
  cases op with
  | frame now vs g hov => exact (apart_frame s vs g hov now).tapOff.trans h
  | clear now vs g => exact (apart_clear s vs g now).tapOff.trans h
  | key now k code press =>
    simp only [step]
    split
    · unfold Pad.keyEvent
      repeat' split
      all_goals first | exact h | rfl
    · exact h
  | unpair k =>
    simp only [step, Pad.unpair]
    split <;> exact h
  | keyTimeout now => exact absurd rfl (h1 now)
  | trackpoint now =>
    simp only [step]
    split
    · unfold Pad.trkEvent
      simp only
      split
      · exact h
      · split
        · exact h
        · rfl
    · exact h
  | trkTimeout now => exact absurd rfl (h2 now)
  | gestTimeout now =>
    simp only [step]
    split
    · unfold Pad.gestTimeout
      simp only
      split
      · exact h
      · exact ((sends_gest s { s.gest with timer := none }).trans ((sends_gestEnd { s with gest := { s.gest with timer := none } } now true))).tapOff.trans h
    · exact h
  | edgeTimeout now i =>
    simp only [step]
    split
    · unfold Pad.edgeTimeout
      split <;> exact h
    · exact h
  | arbitrate now vs g =>
    simp only [step]
    split
    · exact h
    · exact (apart_clear { s with arbTimer := none } vs g now).tapOff.trans h
  | arbitrateEnd now => simp only [step]; split <;> exact h
  | arbTimeout now => simp only [step]; split <;> exact h
  | setMethod now m =>
    simp only [step]
    unfold Pad.setMethod
    split
    · exact h
    · exact ((same_each s Finger.edgeStop).apart.trans (sends_stopTwoFinger (s.each Finger.edgeStop).1 now).apart).tapOff.trans h
  | _ => exact h

/-- When typing begins tapping is suspended too, and stays so until a timer goes off: the one of the keyboard or the one
of the trackpoint. -/
theorem typing_suspends_tapping (s : Pad) (T k code : Nat) (hk : k ∈ s.dwt.paired) (he : s.dwt.enabled = true) (ht : Types code)
    (hm : s.dwt.active = false) (hmod : s.dwt.mods = []) (rest : List Op) (h1 : ∀ now, .keyTimeout now ∉ rest) (h2 : ∀ now, .trkTimeout now ∉ rest) :
    (run s (.key T k code true :: rest)).1.tapOff = true := by
  have main : ∀ (ops : List Op) (s : Pad), (∀ now, .keyTimeout now ∉ ops) → (∀ now, .trkTimeout now ∉ ops) → s.tapOff = true → (run s ops).1.tapOff = true := by
    intro ops
    induction ops with
    | nil => intro s _ _ h; exact h
    | cons op ops ih =>
      intro s h1 h2 h
      exact ih _ (fun n hn => h1 n (by simp [hn])) (fun n hn => h2 n (by simp [hn]))
        (tapOff_step s op (fun n hn => h1 n (by simp [hn])) (fun n hn => h2 n (by simp [hn])) h)
  refine main rest _ h1 h2 ?_
  obtain ⟨t1, t2⟩ := (types_iff code).1 ht
  simp only [step, if_pos hk]
  unfold Pad.keyEvent
  rw [if_neg (by decide), if_neg (by rw [he]; decide), if_neg (by rw [t1]; decide), if_neg (by rw [t2]; decide), if_neg (by rw [hm]; decide), if_neg (by rw [hmod]; simp)]
  rfl

example : (run (run (demo .twoFinger) [.pair 0]).1 (.key 500 0 30 true :: demoSwipe 1)).1.tapOff = true :=
  typing_suspends_tapping _ 500 0 30 (by decide +kernel) (by decide +kernel) (by decide) (by decide +kernel) (by decide +kernel) _
    (by intro now h; simp [demoSwipe, demoFrame] at h) (by intro now h; simp [demoSwipe, demoFrame] at h)

/-! ### Where the code falls short -/

/-- A keyboard that goes away while a key is held: the key is never seen to be released.  The next time the user types, on
another keyboard, the touchpad is disabled and stays so: every time the timer goes off it is armed again, although no
key is held any more. -/
theorem key_held_by_a_removed_keyboard (ts : List Nat) :
    let ops : List Op := [.pair 0, .key 1000 0 30 true, .unpair 0, .pair 1, .key 2000 1 31 true, .key 3000 1 31 false] ++ ts.map .keyTimeout
    (∀ p ∈ held [] ops, p = (0, 30)) ∧ 0 ∉ (run (demo .twoFinger) ops).1.dwt.paired ∧ (run (demo .twoFinger) ops).1.dwt.active = true ∧ (run (demo .twoFinger) ops).1.tapOff = true := by
  intro ops
  refine ⟨?_, ?_⟩
  · have : ∀ (ts : List Nat) (l : List (Nat × Nat)), held l (ts.map .keyTimeout) = l := by
      intro ts
      induction ts with
      | nil => intro l; rfl
      | cons t ts ih => intro l; exact ih l
    intro p hp
    have e : held [] ops = [(0, 30)] := by
      show held _ _ = _
      simp only [ops, List.cons_append, List.nil_append, held]
      rw [this]; decide
    rw [e] at hp
    simpa using hp
  · have main : ∀ (ts : List Nat) (s : Pad), s.dwt.enabled = true → s.dwt.active = true → 30 ∈ s.dwt.keys → 0 ∉ s.dwt.paired → s.tapOff = true →
        0 ∉ (run s (ts.map .keyTimeout)).1.dwt.paired ∧ (run s (ts.map .keyTimeout)).1.dwt.active = true ∧ (run s (ts.map .keyTimeout)).1.tapOff = true := by
      intro ts
      induction ts with
      | nil => intro s _ h _ h2 h3; exact ⟨h2, h, h3⟩
      | cons t ts ih =>
        intro s h1 h2 h3 h4 h5
        have hne : s.dwt.keys ≠ [] := fun e => by rw [e] at h3; cases h3
        simp only [List.map_cons, run, step]
        split
        · simp only [Pad.keyTimeout, if_pos (⟨h1, hne⟩ : s.dwt.enabled = true ∧ s.dwt.keys ≠ [])]
          exact ih _ h1 h2 h3 h4 h5
        · exact ih s h1 h2 h3 h4 h5
    have e : run (demo .twoFinger) ops = _ := run_append _ _ _
    rw [e]
    exact main ts _ (by decide +kernel) (by decide +kernel) (by decide +kernel) (by decide +kernel) (by decide +kernel)

/-- The same with a modifier: typing on the other keyboard does not disable the touchpad any more, whatever is typed, as
long as the modifier is not pressed and released again. -/
theorem modifier_held_by_a_removed_keyboard (ops : List Op) (h : ∀ now j, .key now j 29 false ∉ ops) :
    (run (demo .twoFinger) ([.pair 0, .key 1000 0 29 true, .unpair 0, .pair 1] ++ ops)).1.dwt.active = false := by
  rw [run_append]
  have main : ∀ (ops : List Op) (s : Pad), (∀ now j, .key now j 29 false ∉ ops) → s.dwt.active = false → 29 ∈ s.dwt.mods → (run s ops).1.dwt.active = false := by
    intro ops
    induction ops with
    | nil => intro s _ h _; exact h
    | cons op ops ih =>
      intro s h1 h2 h3
      have hne : s.dwt.mods ≠ [] := fun e => by rw [e] at h3; cases h3
      refine ih _ (fun n j hn => h1 n j (by simp [hn])) ?_ ?_
      · rw [step_dwt]
        cases op with
        | key now k c b =>
          simp only [dwtStep, h2]
          repeat' split
          all_goals first
            | exact h2
            | rfl
            | (next hx => exact absurd hx (by decide))
            | (next hx => exact absurd hne hx)
        | unpair k => simp only [dwtStep]; split <;> first | rfl | exact h2
        | keyTimeout now => simp only [dwtStep]; repeat' split
                            all_goals first | exact h2 | rfl
        | _ => exact h2
      · rw [step_dwt]
        cases op with
        | key now k c b =>
          simp only [dwtStep]
          split
          · split
            · next hb =>
              subst hb
              have : c ≠ 29 := fun e => h1 now k (by simp [e])
              simp [h3, Ne.symm this]
            · repeat' split
              all_goals first | exact h3 | (simp [h3]; done)
          · exact h3
        | unpair k => simp only [dwtStep]; split <;> exact h3
        | keyTimeout now => simp only [dwtStep]; repeat' split
                            all_goals exact h3
        | _ => exact h3
  exact main ops _ h (by decide +kernel) (by decide +kernel)

/-- Tapping is resumed by the timer of the trackpoint even while the user types. -/
theorem trackpoint_resumes_tapping_while_typing :
    ∃ ops : List Op, (run (demo .twoFinger) ops).1.dwt.active = true ∧ (run (demo .twoFinger) ops).1.tapOff = false :=
  ⟨[.pair 0, .trackpoint 1000, .trackpoint 2000, .trackpoint 3000, .key 4000 0 30 true, .trkTimeout 303000], by decide +kernel⟩

end Libinput.Motion
