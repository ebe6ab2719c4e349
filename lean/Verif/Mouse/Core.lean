import Verif.Mouse.Gate
import Verif.Mouse.Spec
import Verif.Debounce.Lemmas
import Verif.MiddleButton.Lemmas
set_option linter.unusedSimpArgs false
set_option linter.unusedVariables false
/-
From debounced button notifications to the use counts: what one notification does.
-/
namespace Libinput.Mouse
open Libinput.Spec Libinput.Alt
open Libinput.Buttons (Call Ev Stop Counts post_ok_edges post_ok_iff exec)

variable {R : Type}

/-- The configuration callbacks after a release. -/
def callbacks (d : Dev R) : Dev R := changeScroll (changeLeftHanded d)

/-- The callbacks change nothing now: no change is outstanding, or a button is held. -/
def Steady (d : Dev R) : Prop :=
  (d.lhWant = d.lh ∧ d.scWant.onButton = d.sc.onButton ∧ d.scWant.button = d.sc.button ∧ d.scWant.lock = d.scLock) ∨
  anyButtonDown d = true

theorem callbacks_steady {d : Dev R} (h : Steady d) : callbacks d = d := by
  have h1 : changeLeftHanded d = d := by
    unfold changeLeftHanded
    rcases h with ⟨h, _⟩ | h
    · simp [h]
    · simp [h]
  unfold callbacks
  rw [h1]
  unfold changeScroll
  rcases h with ⟨_, h⟩ | h
  · simp [h]
  · simp [h]

/-- Parts of the device no button notification touches. -/
structure SameCfg (d d' : Dev R) : Prop where
  has : d'.has = d.has
  deb : d'.deb = d.deb
  keyHw : d'.keyHw = d.keyHw
  lh : d'.lh = d.lh
  lhWant : d'.lhWant = d.lhWant
  on : d'.sc.onButton = d.sc.onButton
  btn : d'.sc.button = d.sc.button
  scLock : d'.scLock = d.scLock
  scWant : d'.scWant = d.scWant

theorem SameCfg.refl (d : Dev R) : SameCfg d d := ⟨rfl, rfl, rfl, rfl, rfl, rfl, rfl, rfl, rfl⟩

theorem SameCfg.trans {a b c : Dev R} (h1 : SameCfg a b) (h2 : SameCfg b c) : SameCfg a c :=
  ⟨h2.has.trans h1.has, h2.deb.trans h1.deb, h2.keyHw.trans h1.keyHw, h2.lh.trans h1.lh,
   h2.lhWant.trans h1.lhWant, h2.on.trans h1.on, h2.btn.trans h1.btn, h2.scLock.trans h1.scLock,
   h2.scWant.trans h1.scWant⟩

theorem SameCfg.any {d d' : Dev R} (h : SameCfg d d') : anyButtonDown d' = anyButtonDown d := by
  unfold anyButtonDown; rw [h.has, h.deb]

theorem SameCfg.steady {d d' : Dev R} (h : SameCfg d d') (hs : Steady d) : Steady d' := by
  unfold Steady
  rw [h.lhWant, h.lh, h.scWant, h.on, h.btn, h.scLock, h.any]
  exact hs

/-- How the button lock relates to the logical state of the scroll button. -/
def LockOk (l : ButtonScroll.Lock) (n : Nat) : Prop :=
  match l with
  | .disabled => True
  | .idle | .firstUp => n = 0
  | .firstDown | .secondDown => n = 1

/-- The use counts of the device, given the use counts `vc` there would be without on-button scrolling:
the scroll button is swallowed, keyboard keys have their own. -/
structure Core (d : Dev R) (vc : Counts) : Prop where
  cnt : ∀ c, d.cnt c = if getKeyType c = .key then (d.keyHw c).toNat
    else if d.sc.onButton = true ∧ c = d.sc.button then 0 else vc c
  lock : d.sc.onButton = true → LockOk d.sc.lock (vc d.sc.button)

theorem post_pointwise {cnt cnt' : Counts} {t c : Nat} {p : Bool} {evs : List Ev}
    (h : Buttons.post cnt t c p = .ok (cnt', evs)) :
    c < Buttons.KEY_CNT ∧ (if p then cnt c ≠ 255 else cnt c ≠ 0) ∧
    cnt' = fun k => if k = c then (if p then cnt c + 1 else cnt c - 1) else cnt k := by
  have h1 := (post_ok_iff cnt t c p).mp ⟨_, h⟩
  obtain ⟨_, _, h2⟩ := post_ok_edges h
  refine ⟨h1.1, h1.2, ?_⟩
  funext k
  have := h2 k
  by_cases hk : k = c
  · subst hk
    cases p <;> simp at this h1 ⊢ <;> omega
  · have hk' : ¬ c = k := fun h => hk h.symm
    simp [hk, hk'] at this ⊢; omega

/-- Posting a press: no callbacks run. -/
theorem postButton_press (d : Dev R) (t c : Nat) (hc : c < Buttons.KEY_CNT) (h : d.cnt c ≠ 255) :
    ∃ out, postButton d t c true =
      ⟨out, .ok { d with cnt := fun k => if k = c then d.cnt c + 1 else d.cnt k }⟩ := by
  obtain ⟨⟨cnt', evs⟩, hr⟩ := (post_ok_iff d.cnt t c true).mpr ⟨hc, by simpa using h⟩
  obtain ⟨_, _, h3⟩ := post_pointwise hr
  refine ⟨evs.map .button, ?_⟩
  unfold postButton
  rw [hr]
  simp [h3]

/-- Posting a release: the callbacks run if the release reached the caller. -/
theorem postButton_release (d : Dev R) (t c : Nat) (hc : c < Buttons.KEY_CNT) (h : d.cnt c ≠ 0) :
    ∃ out d2, postButton d t c false = ⟨out, .ok d2⟩ ∧
      (d2 = { d with cnt := fun k => if k = c then d.cnt c - 1 else d.cnt k } ∨
       d2 = callbacks { d with cnt := fun k => if k = c then d.cnt c - 1 else d.cnt k }) := by
  obtain ⟨⟨cnt', evs⟩, hr⟩ := (post_ok_iff d.cnt t c false).mpr ⟨hc, by simpa using h⟩
  obtain ⟨_, _, h3⟩ := post_pointwise hr
  simp only [Bool.false_eq_true, if_false] at h3
  refine ⟨evs.map .button, _, by unfold postButton; rw [hr], ?_⟩
  subst h3
  simp only
  split
  · exact Or.inr rfl
  · exact Or.inl rfl

theorem each_one {α : Type} (f : Dev R → α → Res R) (a : α) (d : Dev R) : each f [a] d = f d a := by
  simp only [each, Res.bind, ret]
  cases h : (f d a).next with
  | error e => simp [← h]
  | ok d1 => simp [← h]

theorem each_append {α : Type} (f : Dev R → α → Res R) (a b : List α) (d : Dev R) :
    each f (a ++ b) d = (each f a d).bind (each f b) := by
  induction a generalizing d with
  | nil => simp [each, Res.bind, ret]
  | cons x xs ih =>
    simp only [List.cons_append, each]
    unfold Res.bind
    cases h : (f d x).next with
    | error e => rfl
    | ok d1 =>
      simp only [ih]
      unfold Res.bind
      cases h2 : (each f xs d1).next <;> simp

/-- The outcome of a notification towards the use counts: `d1` without callbacks, `d2` with. -/
def Outcome (d : Dev R) (vc' : Counts) (release : Bool) (r : Res R) : Prop :=
  ∃ out d1 d2, r = ⟨out, .ok d2⟩ ∧ Core d1 vc' ∧ SameCfg d d1 ∧ d1.mb = d.mb ∧ d1.inhibited = d.inhibited ∧
    (d.sc.lock = .disabled → d1.sc.lock = .disabled) ∧
    (d2 = d1 ∨ (release = true ∧ d2 = callbacks d1))

theorem outcome_of {d : Dev R} {vc' : Counts} {rel : Bool} (d1 : Dev R) (out : List (Out R)) {r : Res R}
    (hr : r = ⟨out, .ok d1⟩) (h1 : Core d1 vc') (h2 : SameCfg d d1) (h3 : d1.mb = d.mb)
    (h4 : d1.inhibited = d.inhibited) (h5 : d.sc.lock = .disabled → d1.sc.lock = .disabled) :
    Outcome d vc' rel r := ⟨out, d1, d1, hr, h1, h2, h3, h4, h5, Or.inl rfl⟩

theorem key_ne_button {a b : Nat} (ha : getKeyType a = .button) (hb : getKeyType b = .key) : b ≠ a := by
  rintro rfl; rw [ha] at hb; cases hb

/-- The part below the lock. -/
theorem unlocked_outcome (A : Scroll.Arith R) (d0 d : Dev R) (vc vc' : Counts) (t : Nat) (p : Bool)
    (hon : d.sc.onButton = true) (hc : Core d0 vc) (hs : SameCfg d0 d) (hmb : d.mb = d0.mb)
    (hinh : d.inhibited = d0.inhibited) (hcnt : d.cnt = d0.cnt)
    (hbtn : getKeyType d.sc.button = .button) (hlt : d.sc.button < Buttons.KEY_CNT)
    (hlk : LockOk d.sc.lock (vc' d.sc.button)) (hdis : d0.sc.lock = .disabled → d.sc.lock = .disabled)
    (hvc : ∀ c, c ≠ d.sc.button → vc' c = vc c) :
    Outcome d0 vc' (!p) (each deliver (ButtonScroll.unlockedButton A d.sc t p).2
      { d with sc := (ButtonScroll.unlockedButton A d.sc t p).1 }) := by
  have hcore : ∀ d1 : Dev R, d1.cnt = d.cnt → d1.sc.onButton = d.sc.onButton → d1.sc.button = d.sc.button →
      d1.sc.lock = d.sc.lock → d1.keyHw = d.keyHw → Core d1 vc' := by
    intro d1 h1 h2 h3 h4 h5
    refine ⟨?_, ?_⟩
    · intro c
      rw [h1, hcnt, hc.cnt c, h2, h3, h5, hs.keyHw, hs.on, hs.btn]
      split
      · rfl
      · split
        · rfl
        · rename_i hk hn
          refine (hvc c ?_).symm
          intro he
          exact hn ⟨hs.on ▸ hon, he ▸ hs.btn⟩
    · intro _
      rw [h4, h3]; exact hlk
  have hz : d.cnt d.sc.button = 0 := by
    have hb0 : getKeyType d0.sc.button = .button := hs.btn ▸ hbtn
    have ho0 : d0.sc.onButton = true := hs.on ▸ hon
    rw [hcnt, hc.cnt, hs.btn]
    simp [hb0, ho0]
  unfold ButtonScroll.unlockedButton
  cases p with
  | true =>
    simp only [if_true, each]
    exact outcome_of _ [] rfl (hcore _ rfl rfl rfl rfl rfl) ⟨hs.has, hs.deb, hs.keyHw, hs.lh, hs.lhWant, hs.on, hs.btn, hs.scLock, hs.scWant⟩
      hmb hinh hdis
  | false =>
    simp only [Bool.false_eq_true, if_false]
    have hax : ∀ (os : List (Scroll.Out R)) (d : Dev R),
        each deliver (os.map .axis) d = ⟨os.map .axis, .ok d⟩ := by
      intro os
      induction os with
      | nil => intro d; rfl
      | cons o os ih => intro d; simp only [List.map_cons, each, deliver, Res.bind, ih, List.singleton_append]
    have hclick : ∀ sc2 : ButtonScroll.State R, sc2.onButton = d.sc.onButton → sc2.button = d.sc.button →
        sc2.lock = d.sc.lock →
        Outcome d0 vc' true (each deliver [.button ⟨d.sc.downTime, d.sc.button, true⟩, .button ⟨t, d.sc.button, false⟩]
          { d with sc := sc2 }) := by
      intro sc2 e1 e2 e3
      obtain ⟨o1, h1⟩ := postButton_press { d with sc := sc2 } d.sc.downTime d.sc.button hlt (by simp only [hz]; omega)
      obtain ⟨o2, d2, h2, h3⟩ := postButton_release
        { { d with sc := sc2 } with cnt := fun k => if k = d.sc.button then d.cnt d.sc.button + 1 else d.cnt k }
        t d.sc.button hlt (by simp)
      have hback : (fun k => if k = d.sc.button then (if True then d.cnt d.sc.button + 1 else d.cnt d.sc.button) - 1
          else (if k = d.sc.button then d.cnt d.sc.button + 1 else d.cnt k)) = d.cnt := by
        funext k
        by_cases hk : k = d.sc.button
        · subst hk; simp
        · simp [hk]
      refine ⟨o1 ++ o2, { d with sc := sc2 }, d2, ?_, hcore _ rfl e1 e2 e3 rfl,
        ⟨hs.has, hs.deb, hs.keyHw, hs.lh, hs.lhWant, e1.trans hs.on, e2.trans hs.btn, hs.scLock, hs.scWant⟩,
        hmb, hinh, fun h => e3.trans (hdis h), ?_⟩
      · simp only [each, deliver]
        rw [h1]
        simp only [Res.bind]
        rw [h2]
        simp [ret]
      · simp only [hback] at h3
        rcases h3 with h3 | h3
        · exact Or.inl h3
        · exact Or.inr ⟨rfl, h3⟩
    split
    · exact outcome_of _ [] rfl (hcore _ rfl rfl rfl rfl rfl)
        ⟨hs.has, hs.deb, hs.keyHw, hs.lh, hs.lhWant, hs.on, hs.btn, hs.scLock, hs.scWant⟩ hmb hinh hdis
    · exact hclick _ rfl rfl rfl
    · exact hclick _ rfl rfl rfl
    · simp only [hax]
      exact outcome_of _ _ rfl (hcore _ rfl rfl rfl rfl rfl)
        ⟨hs.has, hs.deb, hs.keyHw, hs.lh, hs.lhWant, hs.on, hs.btn, hs.scLock, hs.scWant⟩ hmb hinh hdis

/-- One call of `evdev_pointer_notify_button`. -/
theorem notify_outcome (A : Scroll.Arith R) (d : Dev R) (vc vc' : Counts) (c : Call) (evs : List Ev)
    (hc : Core d vc) (hp : Buttons.post vc c.time c.code c.pressed = .ok (vc', evs))
    (hb : getKeyType c.code = .button)
    (hl : d.sc.onButton = true → c.code = d.sc.button → d.sc.lock ≠ .disabled →
      vc c.code = if c.pressed then 0 else 1) :
    Outcome d vc' (!c.pressed) (notifyButton A d c) := by
  obtain ⟨hlt, hne, hv⟩ := post_pointwise hp
  have hother : ∀ x, x ≠ c.code → vc' x = vc x := by intro x hx; rw [hv]; simp [hx]
  unfold notifyButton ButtonScroll.notifyButton
  by_cases hon : d.sc.onButton = true ∧ c.code = d.sc.button
  · obtain ⟨h1, h2⟩ := hon
    simp only [h1, h2, beq_self_eq_true, Bool.and_self, if_true]
    unfold ButtonScroll.scrollButton
    have hlock := hc.lock h1
    have hvb : vc' d.sc.button = if c.pressed then vc c.code + 1 else vc c.code - 1 := by
      rw [hv]; simp [h2]
    have hun : ∀ l, (d.sc.lock = .disabled → l = .disabled) → LockOk l (vc' d.sc.button) →
        Outcome d vc' (!c.pressed) (each deliver
          (ButtonScroll.unlockedButton A { d.sc with lock := l } c.time c.pressed).2
          { d with sc := (ButtonScroll.unlockedButton A { d.sc with lock := l } c.time c.pressed).1 }) := by
      intro l hdl hlo
      exact unlocked_outcome A d { d with sc := { d.sc with lock := l } } vc vc' c.time c.pressed h1 hc
        ⟨rfl, rfl, rfl, rfl, rfl, rfl, rfl, rfl, rfl⟩ rfl rfl rfl (h2 ▸ hb) (h2 ▸ hlt) hlo hdl
        (fun x hx => hother x (by rw [h2]; exact hx))
    have hquiet : ∀ l, (d.sc.lock = .disabled → l = .disabled) → LockOk l (vc' d.sc.button) →
        Outcome d vc' (!c.pressed) (each deliver [] { d with sc := { d.sc with lock := l } }) := by
      intro l hdl hlo
      refine outcome_of { d with sc := { d.sc with lock := l } } [] rfl ⟨?_, fun _ => hlo⟩ ⟨rfl, rfl, rfl, rfl, rfl, rfl, rfl, rfl, rfl⟩ rfl rfl hdl
      intro x
      show d.cnt x = _
      rw [hc.cnt x]
      split
      · rfl
      · split
        · rfl
        · rename_i hk hn
          refine (hother x ?_).symm
          intro he
          exact hn ⟨h1, he.trans h2⟩
    have hcase := hl h1 h2
    cases hlk : d.sc.lock with
    | disabled =>
      simp only
      have := hun .disabled (fun h => rfl) trivial
      have he : { d.sc with lock := .disabled } = d.sc := by
        cases hsc : d.sc; rw [hsc] at hlk; simp at hlk; subst hlk; rfl
      rw [he] at this
      exact this
    | idle =>
      rw [hlk] at hlock hun
      have hcase := hcase (by rw [hlk]; simp)
      simp only [LockOk] at hlock
      rw [← h2] at hlock
      cases hpr : c.pressed with
      | false => rw [hpr, hlock] at hcase; simp at hcase
      | true =>
        simp only [if_true]
        rw [hpr] at hun
        exact hun .firstDown (by simp) (by rw [hvb, hpr, hlock]; simp [LockOk])
    | firstDown =>
      rw [hlk] at hlock hquiet
      have hcase := hcase (by rw [hlk]; simp)
      simp only [LockOk] at hlock
      rw [← h2] at hlock
      cases hpr : c.pressed with
      | true => rw [hpr, hlock] at hcase; simp at hcase
      | false =>
        simp only [Bool.false_eq_true, if_false]
        rw [hpr] at hquiet
        exact hquiet .firstUp (by simp) (by rw [hvb, hpr, hlock]; simp [LockOk])
    | firstUp =>
      rw [hlk] at hlock hquiet
      have hcase := hcase (by rw [hlk]; simp)
      simp only [LockOk] at hlock
      rw [← h2] at hlock
      cases hpr : c.pressed with
      | false => rw [hpr, hlock] at hcase; simp at hcase
      | true =>
        simp only [if_true]
        rw [hpr] at hquiet
        exact hquiet .secondDown (by simp) (by rw [hvb, hpr, hlock]; simp [LockOk])
    | secondDown =>
      rw [hlk] at hlock hun
      have hcase := hcase (by rw [hlk]; simp)
      simp only [LockOk] at hlock
      rw [← h2] at hlock
      cases hpr : c.pressed with
      | true => rw [hpr, hlock] at hcase; simp at hcase
      | false =>
        simp only [Bool.false_eq_true, if_false]
        rw [hpr] at hun
        exact hun .idle (by simp) (by rw [hvb, hpr, hlock]; simp [LockOk])
  · have hcond : (d.sc.onButton && c.code == d.sc.button) = false := by
      rw [Bool.eq_false_iff]
      intro h
      simp at h
      exact hon h
    simp only [hcond, Bool.false_eq_true, if_false]
    rw [each_one]
    simp only [deliver]
    have hcc : d.cnt c.code = vc c.code := by
      rw [hc.cnt]
      simp only [hb, reduceCtorEq, if_false, hon]
    have hcore : ∀ n, n = vc' c.code → Core { d with cnt := fun k => if k = c.code then n else d.cnt k } vc' := by
      intro n hn
      refine ⟨?_, ?_⟩
      · intro x
        simp only
        by_cases hx : x = c.code
        · subst hx
          simp only [if_true, hb, reduceCtorEq, if_false, hon, hn]
        · simp only [hx, if_false]
          rw [hc.cnt x, hother x hx]
      · intro h1
        show LockOk d.sc.lock (vc' d.sc.button)
        rw [hother _ (fun he => hon ⟨h1, he.symm⟩)]
        exact hc.lock h1
    have hsc : ({ d with sc := d.sc } : Dev R) = d := rfl
    rw [hsc]
    cases hpr : c.pressed with
    | true =>
      rw [hpr] at hne hv
      simp only [if_true] at hne hv
      obtain ⟨out, ho⟩ := postButton_press d c.time c.code hlt (by rw [hcc]; exact hne)
      rw [ho]
      exact ⟨out, _, _, rfl, hcore _ (by rw [hcc, hv]; simp), ⟨rfl, rfl, rfl, rfl, rfl, rfl, rfl, rfl, rfl⟩, rfl, rfl,
        fun h => h, Or.inl rfl⟩
    | false =>
      rw [hpr] at hne hv
      simp only [Bool.false_eq_true, if_false] at hne hv
      obtain ⟨out, d2, ho, hd2⟩ := postButton_release d c.time c.code hlt (by rw [hcc]; exact hne)
      rw [ho]
      refine ⟨out, _, d2, rfl, hcore (d.cnt c.code - 1) (by rw [hcc, hv]; simp), ⟨rfl, rfl, rfl, rfl, rfl, rfl, rfl, rfl, rfl⟩, rfl, rfl,
        fun h => h, ?_⟩
      rcases hd2 with h | h
      · exact Or.inl h
      · exact Or.inr ⟨rfl, h⟩

/-- The events of code `b` among the calls alternate, starting from logical count `n` (0 or 1). -/
def Lone (b : Nat) : Nat → List Call → Prop
  | _, [] => True
  | n, c :: cs =>
    if c.code = b then n = (if c.pressed then 0 else 1) ∧ Lone b (if c.pressed then 1 else 0) cs
    else Lone b n cs

/-- Only the last call may be a release. -/
def LastRelease : List Call → Prop
  | [] => True
  | [_] => True
  | c :: cs => c.pressed = true ∧ LastRelease cs

theorem exec_cons_split {vc vc' : Counts} {c : Call} {cs : List Call} (h : exec vc (c :: cs) = some vc') :
    ∃ vc1 evs, Buttons.post vc c.time c.code c.pressed = .ok (vc1, evs) ∧ exec vc1 cs = some vc' := by
  simp only [exec] at h
  split at h
  · cases h
  · rename_i vc1 evs heq
    exact ⟨vc1, evs, heq, h⟩

theorem lone_step {b : Nat} {vc vc1 : Counts} {c : Call} {cs : List Call} {evs : List Ev}
    (hp : Buttons.post vc c.time c.code c.pressed = .ok (vc1, evs)) (h : Lone b (vc b) (c :: cs)) :
    (c.code = b → vc c.code = if c.pressed then 0 else 1) ∧ Lone b (vc1 b) cs := by
  obtain ⟨_, _, hv⟩ := post_pointwise hp
  simp only [Lone] at h
  by_cases hc : c.code = b
  · simp only [hc, if_true] at h
    refine ⟨fun _ => by rw [hc]; exact h.1, ?_⟩
    have : vc1 b = if c.pressed then 1 else 0 := by
      rw [hv]
      simp only [hc, if_true]
      cases hpr : c.pressed <;> simp [hpr] at h ⊢ <;> omega
    rw [this]; exact h.2
  · simp only [hc, if_false] at h
    refine ⟨fun h => absurd h hc, ?_⟩
    have : vc1 b = vc b := by rw [hv]; simp [Ne.symm hc]
    rw [this]; exact h

/-- A sequence of calls while the callbacks do nothing. -/
theorem calls_steady (A : Scroll.Arith R) (cs : List Call) : ∀ (d : Dev R) (vc vc' : Counts),
    Core d vc → exec vc cs = some vc' → (∀ c ∈ cs, getKeyType c.code = .button) → Steady d →
    (d.sc.onButton = true → d.sc.lock ≠ .disabled → Lone d.sc.button (vc d.sc.button) cs) →
    ∃ out d1, each (notifyButton A) cs d = ⟨out, .ok d1⟩ ∧ Core d1 vc' ∧ SameCfg d d1 ∧ d1.mb = d.mb ∧
      d1.inhibited = d.inhibited ∧ (d.sc.lock = .disabled → d1.sc.lock = .disabled) := by
  induction cs with
  | nil =>
    intro d vc vc' hc he hb hs hl
    simp only [exec, Option.some.injEq] at he
    subst he
    exact ⟨[], d, rfl, hc, SameCfg.refl d, rfl, rfl, fun h => h⟩
  | cons c cs ih =>
    intro d vc vc' hc he hb hs hl
    obtain ⟨vc1, evs, hp, he2⟩ := exec_cons_split he
    have hl' := fun h1 h2 => lone_step hp (hl h1 h2)
    obtain ⟨out, d1, d2, hr, hc1, hs1, hm1, hi1, hk1, h2⟩ := notify_outcome A d vc vc1 c evs hc hp (hb c (by simp))
      (fun h1 h2 h3 => (hl' h1 h3).1 h2)
    have hd2 : d2 = d1 := by
      rcases h2 with h | ⟨_, h⟩
      · exact h
      · rw [h, callbacks_steady (hs1.steady hs)]
    subst hd2
    obtain ⟨out2, d3, hr2, hc3, hs3, hm3, hi3, hk3⟩ := ih d2 vc1 vc' hc1 he2 (fun x hx => hb x (List.mem_cons_of_mem _ hx))
      (hs1.steady hs) (by
        intro h1 h2
        rw [hs1.btn]
        refine (hl' (hs1.on ▸ h1) ?_).2
        intro h; exact h2 (hk1 h))
    refine ⟨out ++ out2, d3, ?_, hc3, hs1.trans hs3, hm3.trans hm1, hi3.trans hi1, fun h => hk3 (hk1 h)⟩
    simp only [each, hr, Res.bind, hr2]

/-- A sequence of calls of which only the last is a release. -/
theorem calls_last (A : Scroll.Arith R) (cs : List Call) : ∀ (d : Dev R) (vc vc' : Counts),
    Core d vc → exec vc cs = some vc' → (∀ c ∈ cs, getKeyType c.code = .button) → LastRelease cs →
    (d.sc.onButton = true → d.sc.lock ≠ .disabled → Lone d.sc.button (vc d.sc.button) cs) →
    Outcome d vc' true (each (notifyButton A) cs d) := by
  induction cs with
  | nil =>
    intro d vc vc' hc he hb hs hl
    simp only [exec, Option.some.injEq] at he
    subst he
    exact ⟨[], d, d, rfl, hc, SameCfg.refl d, rfl, rfl, fun h => h, Or.inl rfl⟩
  | cons c cs ih =>
    intro d vc vc' hc he hb hs hl
    obtain ⟨vc1, evs, hp, he2⟩ := exec_cons_split he
    have hl' := fun h1 h2 => lone_step hp (hl h1 h2)
    obtain ⟨out, d1, d2, hr, hc1, hs1, hm1, hi1, hk1, h2⟩ := notify_outcome A d vc vc1 c evs hc hp (hb c (by simp))
      (fun h1 h2 h3 => (hl' h1 h3).1 h2)
    cases cs with
    | nil =>
      simp only [exec, Option.some.injEq] at he2
      subst he2
      rw [each_one]
      refine ⟨out, d1, d2, hr, hc1, hs1, hm1, hi1, hk1, ?_⟩
      rcases h2 with h | ⟨_, h⟩
      · exact Or.inl h
      · exact Or.inr ⟨rfl, h⟩
    | cons c2 cs2 =>
      have hd2 : d2 = d1 := by
        rcases h2 with h | ⟨h, _⟩
        · exact h
        · rw [hs.1] at h; cases h
      subst hd2
      obtain ⟨out2, d3, d4, hr2, hc3, hs3, hm3, hi3, hk3, h4⟩ := ih d2 vc1 vc' hc1 he2
        (fun x hx => hb x (List.mem_cons_of_mem _ hx)) hs.2 (by
          intro h1 h2
          rw [hs1.btn]
          refine (hl' (hs1.on ▸ h1) ?_).2
          intro h; exact h2 (hk1 h))
      refine ⟨out ++ out2, d3, d4, ?_, hc3, hs1.trans hs3, hm3.trans hm1, hi3.trans hi1, fun h => hk3 (hk1 h), h4⟩
      simp only [each] at hr2 ⊢
      simp only [hr, Res.bind]
      simp only [Res.bind] at hr2
      rw [hr2]

end Libinput.Mouse
