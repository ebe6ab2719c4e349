import Verif.Mouse.Plain
set_option linter.unusedSimpArgs false
set_option linter.unusedVariables false
/-
Plain devices over whole histories; suspending at any moment; wheel events.
-/
namespace Libinput.Mouse
open Libinput.Spec Libinput.Alt Libinput.Mouse.Spec
open Libinput.Buttons (Call Ev Stop Counts)
open Libinput.Debounce (DInv Fired)

variable {R : Type}

theorem quiet_same {d d' : Dev R} {w w' : World} {L L' : Nat → Bool} (h : Quiet d w L) (hL : L' = L)
    (hw : NoneHeld w' → NoneHeld w) (h1 : d'.lhWant = d.lhWant) (h2 : d'.lh = d.lh) : Quiet d' w' L' := by
  intro hz hn
  rw [h1, h2]
  exact h (fun c => by rw [← hL]; exact hz c) (hw hn)

theorem step_plain (A : Scroll.Arith R) {lw : Bool} {m : Mode} {has : Nat → Bool} {d : Dev R} {w : World} {L : Nat → Bool}
    (op : Op R) (h : I m has d w L) (hp : Plain lw d) (hq : Quiet d w L) (hc : CarefulOp has w op) (hm : ModeOp m op)
    (h1 : op ≠ .setMiddle true) (h2 : op ≠ .setScrollMethod true) :
    ∃ out d' L', step A d op = ⟨out, .ok d'⟩ ∧ I m has d' (stepWorld w op) L' ∧ Plain (wantLeft lw op) d' ∧
      Quiet d' (stepWorld w op) L' ∧ (d'.lh = d.lh ∨ NoneHeld w ∨ NoneHeld (stepWorld w op)) := by
  obtain ⟨out, d', L', he, hi, hl, hLL⟩ := step_history A op h hc hm
  have hp' : Plain (wantLeft lw op) d' := plain_step A hp op h1 h2 d' (by rw [he])
  refine ⟨out, d', L', he, hi, hp', ?_, hl⟩
  have hscroll : ∀ cfg, d' = changeScroll { d with scWant := cfg } → NoneHeld (stepWorld w op) = NoneHeld w → L' = L →
      Quiet d' (stepWorld w op) L' := by
    intro cfg hd hn hL
    have hf := changeScroll_fields { d with scWant := cfg }
    subst hd
    exact quiet_same hq hL (fun h => by rw [hn] at h; exact h) hf.2.2.1 hf.2.2.2.1
  cases op with
  | frame t keys wheel rel => exact quiet_frame A hp h hq hc he hp' hi
  | debounceTimers now => exact fun hz hn => quiet_fire A hp h.j h.mid hq he hp' hi.j.held hz hn
  | middleTimer now =>
    have hL : L' = L := by
      rcases hLL with h | ⟨_, _, _, _, h⟩ | ⟨_, h⟩
      · exact h
      · cases h
      · cases h
    obtain ⟨o, d1, e1, _, hs⟩ := held_middleTimer A now h.j.held
    have : d' = d1 := by
      have e2 : step A d (.middleTimer now) = ⟨o, .ok d1⟩ := e1
      rw [he] at e2
      simp only [Res.mk.injEq, Except.ok.injEq] at e2
      exact e2.2
    subst this
    exact quiet_same hq hL (fun h => h) hs.lhWant hs.lh
  | scrollTimer now =>
    have hL : L' = L := by
      rcases hLL with h | ⟨_, _, _, _, h⟩ | ⟨_, h⟩
      · exact h
      · cases h
      · cases h
    simp only [step, ret, Res.mk.injEq, Except.ok.injEq] at he
    obtain ⟨_, rfl⟩ := he
    exact quiet_same hq hL (fun h => h) rfl rfl
  | setLeftHanded on =>
    simp only [step, ret, Res.mk.injEq, Except.ok.injEq] at he
    obtain ⟨_, rfl⟩ := he
    intro _ hn
    refine changeLeftHanded_free ?_
    rw [any_iff (d := { d with lhWant := on }) h.j.deb.hw h.j.phys]
    rintro ⟨c, hcc⟩
    have := hn c
    simp only [stepWorld] at this
    rw [this] at hcc; cases hcc
  | setMiddle on =>
    have hL : L' = L := by
      rcases hLL with h | ⟨_, _, _, _, h⟩ | ⟨_, h⟩
      · exact h
      · cases h
      · cases h
    simp only [step, ret, Res.mk.injEq, Except.ok.injEq] at he
    obtain ⟨_, rfl⟩ := he
    exact quiet_same hq hL (fun h => h) rfl rfl
  | setScrollMethod on =>
    simp only [step, ret, Res.mk.injEq, Except.ok.injEq] at he
    refine hscroll _ he.2.symm rfl ?_
    rcases hLL with h | ⟨_, _, _, _, h⟩ | ⟨_, h⟩
    · exact h
    · cases h
    · cases h
  | setScrollButton b =>
    simp only [step, ret, Res.mk.injEq, Except.ok.injEq] at he
    refine hscroll _ he.2.symm rfl ?_
    rcases hLL with h | ⟨_, _, _, _, h⟩ | ⟨_, h⟩
    · exact h
    · cases h
    · cases h
  | setScrollLock on =>
    simp only [step, ret, Res.mk.injEq, Except.ok.injEq] at he
    refine hscroll _ he.2.symm rfl ?_
    rcases hLL with h | ⟨_, _, _, _, h⟩ | ⟨_, h⟩
    · exact h
    · cases h
    · cases h
  | suspend t =>
    have hL : L' = L := by
      rcases hLL with h | ⟨_, _, _, _, h⟩ | ⟨_, h⟩
      · exact h
      · cases h
      · cases h
    obtain ⟨hn, hs⟩ := hc
    have hL0 : L = fun _ => false := funext fun c => (h.set hs c).trans (hn c)
    subst hL0
    obtain ⟨o, cnt', e, _⟩ := suspend_rest A t h.j.held
    have e2 : step A d (.suspend t) = _ := e
    rw [he] at e2
    simp only [Res.mk.injEq, Except.ok.injEq] at e2
    obtain ⟨_, rfl⟩ := e2
    exact quiet_same hq hL (fun _ => hn) rfl rfl

/-- Everything known about a plain device after a careful history. -/
theorem run_plain (A : Scroll.Arith R) {m : Mode} {has : Nat → Bool} (ops : List (Op R)) :
    ∀ {lw : Bool} {d : Dev R} {w : World} {L : Nat → Bool}, I m has d w L → Plain lw d → Quiet d w L →
    Careful has w ops → (∀ op ∈ ops, ModeOp m op) → .setMiddle true ∉ ops → .setScrollMethod true ∉ ops →
    ∃ out d' L', run A d ops = ⟨out, .ok d'⟩ ∧ I m has d' (ops.foldl stepWorld w) L' ∧
      Plain (ops.foldl wantLeft lw) d' ∧ Quiet d' (ops.foldl stepWorld w) L' := by
  induction ops with
  | nil => intro lw d w L h hp hq _ _ _ _; exact ⟨[], d, L, rfl, h, hp, hq⟩
  | cons op ops ih =>
    intro lw d w L h hp hq hc hm h1 h2
    obtain ⟨out, d1, L1, e1, i1, p1, q1, _⟩ := step_plain A op h hp hq hc.1 (hm op (by simp))
      (fun he => h1 (by simp [he])) (fun he => h2 (by simp [he]))
    obtain ⟨out2, d2, L2, e2, r⟩ := ih i1 p1 q1 hc.2 (fun o ho => hm o (by simp [ho]))
      (fun he => h1 (by simp [he])) (fun he => h2 (by simp [he]))
    unfold run at e2 ⊢
    exact ⟨out ++ out2, d2, L2, by simp only [each, e1, Res.bind, e2], r⟩

theorem careful_append {has : Nat → Bool} (a b : List (Op R)) : ∀ w,
    Careful has w (a ++ b) ↔ Careful has w a ∧ Careful has (a.foldl stepWorld w) b := by
  induction a with
  | nil => intro w; simp [Careful]
  | cons x xs ih => intro w; simp [Careful, ih, and_assoc]

theorem run_snoc (A : Scroll.Arith R) {d d1 : Dev R} {ops : List (Op R)} {out : List (Out R)} (op : Op R)
    (h : run A d ops = ⟨out, .ok d1⟩) :
    run A d (ops ++ [op]) = ⟨out ++ (step A d1 op).out, (step A d1 op).next⟩ := by
  unfold run at h ⊢
  rw [each_append, h]
  simp only [Res.bind, each_one]

/-! ### Suspending at any moment -/

/-- What suspending needs: nothing but buttons and keys is down, each once, the scroll button is not, the
device is right-handed, and at most one button goes up while a change of settings is outstanding. -/
structure Ready (d : Dev R) : Prop where
  one : ∀ c, d.cnt c ≤ 1
  kind : ∀ c, d.cnt c ≠ 0 → getKeyType c = .key ∨ (getKeyType c = .button ∧ ¬ (d.sc.onButton = true ∧ c = d.sc.button))
  right : d.lh = false ∧ d.lhWant = false
  alone : Steady d ∨ ∀ a b, getKeyType a = .button → getKeyType b = .button → d.cnt a ≠ 0 → d.cnt b ≠ 0 → a = b

theorem kt_lt {c : Nat} (h : getKeyType c ≠ .none) : c < Buttons.KEY_CNT := by
  cases hk : getKeyType c with
  | none => exact absurd hk h
  | key => exact key_lt hk
  | button =>
    unfold getKeyType at hk
    simp only [Buttons.KEY_CNT]
    repeat' split at hk
    all_goals first | (cases hk; done) | omega

theorem callbacks_cnt (d : Dev R) : (callbacks d).cnt = d.cnt := by
  unfold callbacks changeScroll changeLeftHanded
  repeat' split
  all_goals rfl

theorem callbacks_right {d : Dev R} (h : d.lh = false ∧ d.lhWant = false) :
    (callbacks d).lh = false ∧ (callbacks d).lhWant = false := by
  have e : changeLeftHanded d = d := by unfold changeLeftHanded; rw [if_pos (h.2.trans h.1.symm)]
  have hf := changeScroll_fields d
  unfold callbacks
  rw [e, hf.2.2.1, hf.2.2.2.1]
  exact h

theorem release_all (A : Scroll.Arith R) (t : Nat) (codes : List Nat) : ∀ (d : Dev R), Ready d →
    (∀ c, d.cnt c ≠ 0 → c ∈ codes) →
    ∃ out d', releasePressed A t codes d = ⟨out, .ok d'⟩ ∧ ∀ c, d'.cnt c = 0 := by
  induction codes with
  | nil =>
    intro d _ h
    refine ⟨[], d, rfl, fun c => ?_⟩
    by_cases hc : d.cnt c = 0
    · exact hc
    · have := h c hc; simp at this
  | cons c codes ih =>
    intro d hr h
    unfold releasePressed
    by_cases hz : d.cnt c = 0
    · rw [if_pos hz]
      refine ih d hr ?_
      intro x hx
      rcases List.mem_cons.mp (h x hx) with rfl | hm
      · exact absurd hz hx
      · exact hm
    · rw [if_neg hz]
      have h1 : d.cnt c = 1 := by have := hr.one c; omega
      -- continue after `c` is at zero
      have hcont : ∀ (d1 : Dev R) (out : List (Out R)), Ready d1 → d1.cnt = (fun x => if x = c then 0 else d.cnt x) →
          ∃ o d', (⟨out, .ok d1⟩ : Res R).bind (fun d => if d.cnt c ≠ 0 then ret d else releasePressed A t codes d) =
            ⟨o, .ok d'⟩ ∧ ∀ c, d'.cnt c = 0 := by
        intro d1 out hr1 hc1
        obtain ⟨o2, d2, e2, z2⟩ := ih d1 hr1 (by
          intro x hx
          rw [hc1] at hx
          by_cases hxc : x = c
          · simp [hxc] at hx
          · simp only [hxc, if_false] at hx
            rcases List.mem_cons.mp (h x hx) with h | h
            · exact absurd h hxc
            · exact h)
        refine ⟨out ++ o2, d2, ?_, z2⟩
        simp only [Res.bind]
        rw [if_neg (by rw [hc1]; simp), e2]
      have hbase : ∀ cnt' : Counts, cnt' = (fun x => if x = c then 0 else d.cnt x) → Ready { d with cnt := cnt' } := by
        intro cnt' hcnt
        subst hcnt
        refine ⟨?_, ?_, hr.right, ?_⟩
        · intro x; simp only; split
          · omega
          · exact hr.one x
        · intro x hx; simp only at hx; split at hx
          · exact absurd rfl hx
          · exact hr.kind x hx
        · rcases hr.alone with hs | hs
          · exact Or.inl hs
          · refine Or.inr fun a b ha hb ha2 hb2 => ?_
            simp only at ha2 hb2
            split at ha2
            · exact absurd rfl ha2
            · split at hb2
              · exact absurd rfl hb2
              · exact hs a b ha hb ha2 hb2
      rcases hr.kind c hz with hk | ⟨hk, hns⟩
      · obtain ⟨⟨cnt', evs⟩, hp⟩ := (Buttons.post_ok_iff d.cnt t c false).mpr ⟨key_lt hk, by simp [h1]⟩
        obtain ⟨_, _, h3⟩ := post_pointwise hp
        simp only [Bool.false_eq_true, if_false, h1] at h3
        simp only [hk]
        unfold notifyKey
        rw [hp]
        exact hcont { d with cnt := cnt' } _ (hbase cnt' h3) h3
      · obtain ⟨⟨cnt', evs⟩, hp⟩ := (Buttons.post_ok_iff d.cnt t c false).mpr ⟨kt_lt (by rw [hk]; simp), by simp [h1]⟩
        obtain ⟨_, _, h3⟩ := post_pointwise hp
        simp only [Bool.false_eq_true, if_false, h1] at h3
        have hlh : toLeftHanded d.lh c = c := by simp [toLeftHanded, hr.right.1]
        have hcond : (d.sc.onButton && c == d.sc.button) = false := by
          rw [Bool.eq_false_iff]; intro hh; simp at hh; exact hns hh
        have hn : notifyButton A d ⟨t, toLeftHanded d.lh c, false⟩ = postButton d t c false := by
          rw [hlh]
          unfold notifyButton ButtonScroll.notifyButton
          simp only [hcond, Bool.false_eq_true, if_false, each_one, deliver]
        simp only [hk, hn]
        unfold postButton
        rw [hp]
        simp only
        have hcb : Ready (callbacks { d with cnt := cnt' }) := by
          have hb := hbase cnt' h3
          rcases hr.alone with hs | hs
          · rw [callbacks_steady (d := { d with cnt := cnt' }) hs]; exact hb
          · have hno : ∀ x, getKeyType x = .button → cnt' x = 0 := by
              intro x hx
              rw [h3]
              simp only
              split
              · rfl
              · rename_i hne
                by_cases hxz : d.cnt x = 0
                · exact hxz
                · exact absurd (hs x c hx hk hxz hz) hne
            refine ⟨?_, ?_, callbacks_right hb.right, ?_⟩
            · rw [callbacks_cnt]; exact hb.one
            · rw [callbacks_cnt]
              intro x hx
              rcases hb.kind x hx with h | ⟨h, _⟩
              · exact Or.inl h
              · exact absurd (hno x h) hx
            · rw [callbacks_cnt]
              exact Or.inr fun a b ha _ ha2 _ => absurd (hno a ha) ha2
        split
        · exact hcont (callbacks { d with cnt := cnt' }) _ hcb (by rw [callbacks_cnt]; exact h3)
        · exact hcont { d with cnt := cnt' } _ (hbase cnt' h3) h3

/-- Use counts with at most one source for the middle button. -/
theorem mb_one {s : MiddleButton.State} {w : MiddleButton.Spec.World} {cnt : Counts} (hi : MiddleButton.Inv s w cnt)
    (h : w.eff = false ∨ w.held BTN_MIDDLE = false) : ∀ c, cnt c ≤ 1 := by
  intro c
  cases he : w.eff with
  | false =>
    obtain ⟨_, _, _, hc⟩ := hi.off he
    rw [hc]; simp only; cases w.held c <;> simp
  | true =>
    have hm : w.held BTN_MIDDLE = false := by
      rcases h with h | h
      · rw [he] at h; cases h
      · exact h
    obtain ⟨_, _, hc, _⟩ := hi.on he
    rw [hc]
    unfold MiddleButton.expected
    split
    · split
      · cases w.held c <;> simp
      · omega
    · split
      · split
        · cases w.held c <;> simp
        · omega
      · split
        · rename_i h3
          rw [h3, hm]; split <;> simp
        · cases w.held c <;> simp

/-- One physical button makes at most one logical one. -/
theorem mb_alone {s : MiddleButton.State} {w : MiddleButton.Spec.World} {cnt : Counts} (hi : MiddleButton.Inv s w cnt)
    (h : ∀ a b, w.held a = true → w.held b = true → a = b) : ∀ a b, cnt a ≠ 0 → cnt b ≠ 0 → a = b := by
  have hkey : ∀ a, cnt a ≠ 0 → w.held a = true := by
    intro a ha
    cases he : w.eff with
    | false =>
      obtain ⟨_, _, _, hc⟩ := hi.off he
      rw [hc] at ha
      cases hh : w.held a with
      | true => rfl
      | false => simp [hh] at ha
    | true =>
      obtain ⟨_, hph, hc, _⟩ := hi.on he
      rw [hc] at ha
      unfold MiddleButton.expected at ha
      cases hh : w.held a with
      | true => rfl
      | false =>
        rw [hh] at ha
        split at ha
        · split at ha <;> simp at ha
        · split at ha
          · split at ha <;> simp at ha
          · split at ha
            · split at ha
              · rename_i hst
                rw [hst] at hph
                simp only [MiddleButton.Phys] at hph
                have := h _ _ hph.1 hph.2
                simp [BTN_LEFT, BTN_RIGHT] at this
              · simp at ha
            · simp at ha
  intro a b ha hb
  exact h a b (hkey a ha) (hkey b hb)

/-- A right-handed device after a careful history is ready to be suspended. -/
theorem ready_of {m : Mode} {d : Dev R} {w : World} {L : Nat → Bool} (h : J m d w L)
    (hr : d.lh = false ∧ d.lhWant = false) (hm : d.mb.enabled = false ∨ L BTN_MIDDLE = false) : Ready d := by
  obtain ⟨mw, me, vc, hk⟩ := h.held
  have hone := mb_one hk.mb (by
    rcases hm with hm | hm
    · left; have := hk.mb.eff; simp only at this ⊢; rw [← this]; exact hm
    · right; simp only [hr.1]; exact hm)
  have hcnt := hk.core.cnt
  refine ⟨?_, ?_, hr, ?_⟩
  · intro c
    rw [hcnt c]
    split
    · cases d.keyHw c <;> simp
    · split
      · omega
      · exact hone c
  · intro c hc
    rw [hcnt c] at hc
    by_cases hkk : getKeyType c = .key
    · exact Or.inl hkk
    · rw [if_neg hkk] at hc
      split at hc
      · exact absurd rfl hc
      · rename_i hns
        refine Or.inr ⟨?_, hns⟩
        -- only buttons are counted
        have hh : 0x110 ≤ c ∧ c < 0x120 := by
          have hrng := hk.rng
          cases he : me with
          | false =>
            obtain ⟨_, _, _, hv⟩ := hk.mb.off he
            rw [hv] at hc
            cases hl : L (toLeftHanded d.lh c) with
            | false => simp [hl] at hc
            | true =>
              have := toLeftHanded_range d.lh (hrng _ hl)
              rw [toLeftHanded_invol] at this; exact this
          | true =>
            obtain ⟨_, _, hv, _⟩ := hk.mb.on he
            rw [hv] at hc
            unfold MiddleButton.expected at hc
            by_cases h1 : c = BTN_LEFT
            · subst h1; simp [BTN_LEFT]
            · by_cases h2 : c = BTN_RIGHT
              · subst h2; simp [BTN_RIGHT]
              · by_cases h3 : c = BTN_MIDDLE
                · subst h3; simp [BTN_MIDDLE]
                · rw [if_neg h1, if_neg h2, if_neg h3] at hc
                  cases hl : L (toLeftHanded d.lh c) with
                  | false => simp [hl] at hc
                  | true =>
                    have := toLeftHanded_range d.lh (hrng _ hl)
                    rw [toLeftHanded_invol] at this; exact this
        exact mouse_button hh
  · rcases none_or_some w.hand.phys with hnone | hsome
    · refine Or.inr fun a b ha hb ha2 hb2 => ?_
      have hu : ∀ x, L x = true → x = d.deb.deb.code := by
        intro x hx
        by_cases hc : x = d.deb.deb.code
        · exact hc
        · have := h.deb.inv.other x hc
          rw [hx, hnone x] at this; cases this
      have hb' : ∀ x, getKeyType x = .button → d.cnt x ≠ 0 → vc x ≠ 0 := by
        intro x hx h2
        rw [hcnt x, if_neg (by rw [hx]; simp)] at h2
        split at h2
        · exact absurd rfl h2
        · exact h2
      refine mb_alone hk.mb ?_ a b (hb' a ha ha2) (hb' b hb hb2)
      intro x y hx hy
      simp only [hr.1] at hx hy
      have h1 := hu _ hx
      have h2 := hu _ hy
      simpa [toLeftHanded] using h1.trans h2.symm
    · exact Or.inl (Or.inr ((any_iff h.deb.hw h.phys).mpr hsome))

theorem suspend_any (A : Scroll.Arith R) (t : Nat) {d : Dev R} (h : Ready d) :
    ∃ out d', suspend A d t = ⟨out, .ok d'⟩ ∧ ∀ c, d'.cnt c = 0 := by
  unfold suspend
  have hmem : ∀ c, d.cnt c ≠ 0 → c ∈ List.range Buttons.KEY_CNT := by
    intro c hc
    refine List.mem_range.mpr (kt_lt ?_)
    rcases h.kind c hc with hk | ⟨hk, _⟩ <;> rw [hk] <;> simp
  generalize List.range Buttons.KEY_CNT = codes at *
  obtain ⟨out, d', he, hz⟩ := release_all A t codes d h hmem
  rw [he]
  exact ⟨_, _, rfl, hz⟩

end Libinput.Mouse
