import Verif.Mouse.Model
import Verif.Buttons.Lemmas
set_option linter.unusedSimpArgs false
set_option linter.unusedVariables false
/-
Whatever happens upstream, the use counts make the events sent to the caller alternate.
-/
namespace Libinput.Mouse
open Libinput.Spec Libinput.Alt
open Libinput.Buttons (Call Ev Stop Counts post_ok_edges)

variable {R : Type}

/-- The button and key edges among the events sent. -/
def edges (os : List (Out R)) : List (Edge Nat) :=
  os.filterMap fun o => match o with
    | .button e => some e.edge
    | .key e => some e.edge
    | _ => none

theorem edges_append (a b : List (Out R)) : edges (a ++ b) = edges a ++ edges b := by
  simp [edges]

theorem edges_button (es : List Ev) : edges (es.map (Out.button (R := R))) = es.map Ev.edge := by
  induction es with
  | nil => rfl
  | cons e es ih => simp [edges] at ih ⊢; exact ih

theorem edges_key (es : List Ev) : edges (es.map (Out.key (R := R))) = es.map Ev.edge := by
  induction es with
  | nil => rfl
  | cons e es ih => simp [edges] at ih ⊢; exact ih

/-- Codes whose use count is not zero. -/
def down (cnt : Counts) : Nat → Bool := fun k => decide (0 < cnt k)

/-- Every button event has a button code, every key event a key code. -/
def KindOk (os : List (Out R)) : Prop :=
  (∀ e, .button e ∈ os → getKeyType e.code = .button) ∧ (∀ e, .key e ∈ os → getKeyType e.code = .key)

theorem kindOk_nil : KindOk ([] : List (Out R)) := by simp [KindOk]

theorem kindOk_append {a b : List (Out R)} (ha : KindOk a) (hb : KindOk b) : KindOk (a ++ b) := by
  refine ⟨fun e he => ?_, fun e he => ?_⟩
  · rcases List.mem_append.mp he with h | h
    · exact ha.1 e h
    · exact hb.1 e h
  · rcases List.mem_append.mp he with h | h
    · exact ha.2 e h
    · exact hb.2 e h

/-- A debouncer only ever reports the code of a button. -/
def DebCode (s : Debounce.State) : Prop :=
  getKeyType s.code = .button ∨
  ((s.st = .isUp ∨ s.st = .disabled) ∧ s.timer = none ∧ s.timerShort = none)

/-- The effect of a piece of the program on what the caller sees. -/
structure Gate (d : Dev R) (r : Res R) : Prop where
  val : Valid (down d.cnt) (edges r.out)
  aft : ∀ d', r.next = .ok d' → after (down d.cnt) (edges r.out) = down d'.cnt
  kind : KindOk r.out
  deb : ∀ d', r.next = .ok d' → DebCode d'.deb.deb

theorem gate_ret {d d' : Dev R} (hc : d'.cnt = d.cnt) (hd : DebCode d'.deb.deb) : Gate d (ret d') := by
  refine ⟨trivial, ?_, kindOk_nil, ?_⟩
  · intro x hx
    simp only [ret, Except.ok.injEq] at hx
    subst hx
    simp [ret, edges, hc]
  · intro x hx
    simp only [ret, Except.ok.injEq] at hx
    subst hx; exact hd

theorem gate_error {d : Dev R} {e : Stop} : Gate d ⟨[], .error e⟩ :=
  ⟨trivial, by intro _ h; simp at h, kindOk_nil, by intro _ h; simp at h⟩

theorem gate_bind {d : Dev R} {r : Res R} {f : Dev R → Res R} (h : Gate d r)
    (hf : ∀ d', r.next = .ok d' → Gate d' (f d')) : Gate d (r.bind f) := by
  unfold Res.bind
  cases hn : r.next with
  | error e => exact ⟨h.val, by intro _ h; simp at h, h.kind, by intro _ h; simp at h⟩
  | ok d' =>
    have h2 := hf d' hn
    refine ⟨?_, ?_, kindOk_append h.kind h2.kind, h2.deb⟩
    · simp only [edges_append]
      rw [valid_append]
      exact ⟨h.val, by rw [h.aft d' hn]; exact h2.val⟩
    · intro d2 hd2
      simp only [edges_append]
      rw [after_append, h.aft d' hn]
      exact h2.aft d2 hd2

theorem gate_each {α : Type} {f : Dev R → α → Res R} (P : Dev R → Prop) (l : List α) (Q : α → Prop)
    (hQ : ∀ a ∈ l, Q a)
    (hf : ∀ d a, P d → Q a → Gate d (f d a) ∧ ∀ d', (f d a).next = .ok d' → P d') :
    ∀ d, P d → DebCode d.deb.deb → Gate d (each f l d) ∧ ∀ d', (each f l d).next = .ok d' → P d' := by
  induction l with
  | nil =>
    intro d hp hd
    refine ⟨gate_ret rfl hd, ?_⟩
    intro d' h
    simp only [each, ret, Except.ok.injEq] at h
    subst h; exact hp
  | cons a as ih =>
    intro d hp hd
    obtain ⟨h1, h2⟩ := hf d a hp (hQ a (by simp))
    have ih' := ih (fun x hx => hQ x (List.mem_cons_of_mem _ hx))
    refine ⟨?_, ?_⟩
    · exact gate_bind h1 (fun d' hd' => (ih' d' (h2 d' hd') (h1.deb d' hd')).1)
    · intro d' h
      simp only [each, Res.bind] at h
      cases hn : (f d a).next with
      | error e => simp [hn] at h
      | ok d1 =>
        simp only [hn] at h
        exact (ih' d1 (h2 d1 hn) (h1.deb d1 hn)).2 d' h

/-! ### The pieces -/

@[simp] theorem changeLeftHanded_cnt (d : Dev R) : (changeLeftHanded d).cnt = d.cnt := by
  unfold changeLeftHanded; split <;> (try split) <;> rfl
@[simp] theorem changeLeftHanded_deb (d : Dev R) : (changeLeftHanded d).deb = d.deb := by
  unfold changeLeftHanded; split <;> (try split) <;> rfl
@[simp] theorem changeScroll_cnt (d : Dev R) : (changeScroll d).cnt = d.cnt := by
  unfold changeScroll; split <;> (try split) <;> rfl
@[simp] theorem changeScroll_deb (d : Dev R) : (changeScroll d).deb = d.deb := by
  unfold changeScroll; split <;> (try split) <;> rfl

theorem post_codes {cnt cnt' : Counts} {t c : Nat} {p : Bool} {evs : List Ev}
    (h : Buttons.post cnt t c p = .ok (cnt', evs)) : ∀ e ∈ evs, e.code = c := by
  unfold Buttons.post at h
  split at h
  · cases h
  · split at h <;> cases h <;> simp

theorem postButton_gate (d : Dev R) (t code : Nat) (press : Bool) (hb : getKeyType code = .button)
    (hd : DebCode d.deb.deb) : Gate d (postButton d t code press) := by
  unfold postButton
  cases h : Buttons.post d.cnt t code press with
  | error e => exact gate_error
  | ok r =>
    obtain ⟨cnt, evs⟩ := r
    obtain ⟨hv, ha, _⟩ := post_ok_edges h
    simp only
    refine ⟨?_, ?_, ⟨?_, ?_⟩, ?_⟩
    · simp only [edges_button]; exact hv
    · intro d' hd'
      simp only [Except.ok.injEq] at hd'
      subst hd'
      simp only [edges_button]
      refine ha.trans ?_
      funext k
      split <;> simp [down]
    · intro e he
      simp only [List.mem_map, Out.button.injEq] at he
      obtain ⟨x, hx, rfl⟩ := he
      rw [post_codes h x hx]; exact hb
    · intro e he; simp at he
    · intro d' hd'
      simp only [Except.ok.injEq] at hd'
      subst hd'
      split <;> simpa using hd

theorem notifyKey_gate (d : Dev R) (t code : Nat) (press : Bool) (hb : getKeyType code = .key)
    (hd : DebCode d.deb.deb) : Gate d (notifyKey d t code press) := by
  unfold notifyKey
  cases h : Buttons.post d.cnt t code press with
  | error e => exact gate_error
  | ok r =>
    obtain ⟨cnt, evs⟩ := r
    obtain ⟨hv, ha, _⟩ := post_ok_edges h
    simp only
    refine ⟨?_, ?_, ⟨?_, ?_⟩, ?_⟩
    · simp only [edges_key]; exact hv
    · intro d' hd'
      simp only [Except.ok.injEq] at hd'
      subst hd'
      simp only [edges_key]
      exact ha
    · intro e he; simp at he
    · intro e he
      simp only [List.mem_map, Out.key.injEq] at he
      obtain ⟨x, hx, rfl⟩ := he
      rw [post_codes h x hx]; exact hb
    · intro d' hd'
      simp only [Except.ok.injEq] at hd'
      subst hd'
      exact hd

/-- What the scroll stage hands on for a button has that button's code. -/
theorem scroll_codes (A : Scroll.Arith R) (s : ButtonScroll.State R) (t code : Nat) (press : Bool)
    {s' : ButtonScroll.State R} {os : List (ButtonScroll.Out R)}
    (h : ButtonScroll.notifyButton A s t code press = some (s', os)) :
    ∀ c, .button c ∈ os → c.code = code := by
  have hu : ∀ s2 : ButtonScroll.State R, s2.button = code →
      ∀ c, ButtonScroll.Out.button c ∈ (ButtonScroll.unlockedButton A s2 t press).2 → c.code = code := by
    intro s2 hs2 c hc
    unfold ButtonScroll.unlockedButton at hc
    split at hc
    · simp at hc
    · split at hc
      · simp at hc
      · simp at hc; rcases hc with rfl | rfl <;> exact hs2
      · simp at hc; rcases hc with rfl | rfl <;> exact hs2
      · simp at hc
  unfold ButtonScroll.notifyButton at h
  split at h
  · rename_i hcond
    have hb : s.button = code := by simp at hcond; exact hcond.2.symm
    unfold ButtonScroll.scrollButton at h
    split at h
    · simp only [Option.some.injEq] at h
      intro c hc
      exact hu s hb c (by rw [h]; exact hc)
    · split at h
      · simp only [Option.some.injEq] at h
        intro c hc
        exact hu { s with lock := .firstDown } hb c (by rw [h]; exact hc)
      · cases h
    · split at h
      · cases h
      · simp only [Option.some.injEq, Prod.mk.injEq] at h
        intro c hc; rw [← h.2] at hc; cases hc
    · split at h
      · simp only [Option.some.injEq, Prod.mk.injEq] at h
        intro c hc; rw [← h.2] at hc; cases hc
      · cases h
    · split at h
      · cases h
      · simp only [Option.some.injEq] at h
        intro c hc
        exact hu { s with lock := .idle } hb c (by rw [h]; exact hc)
  · simp only [Option.some.injEq, Prod.mk.injEq] at h
    intro c hc
    rw [← h.2] at hc
    simp at hc; rw [hc]

theorem deliver_gate (d : Dev R) (o : ButtonScroll.Out R)
    (hb : ∀ c, o = .button c → getKeyType c.code = .button) (hd : DebCode d.deb.deb) :
    Gate d (deliver d o) := by
  cases o with
  | button c => exact postButton_gate d _ _ _ (hb c rfl) hd
  | axis o => exact ⟨trivial, by intro d' h; simp [deliver] at h; subst h; simp [deliver, edges],
      by simp [deliver, KindOk], by intro d' h; simp [deliver] at h; subst h; exact hd⟩
  | motion t dx dy => exact ⟨trivial, by intro d' h; simp [deliver] at h; subst h; simp [deliver, edges],
      by simp [deliver, KindOk], by intro d' h; simp [deliver] at h; subst h; exact hd⟩

theorem delivers_gate (os : List (ButtonScroll.Out R)) (d : Dev R)
    (hb : ∀ c, .button c ∈ os → getKeyType c.code = .button) (hd : DebCode d.deb.deb) :
    Gate d (each deliver os d) :=
  (gate_each (fun d => DebCode d.deb.deb) os (fun o => ∀ c, o = .button c → getKeyType c.code = .button)
    (fun o ho c hc => hb c (hc ▸ ho))
    (fun d o hp hq => ⟨deliver_gate d o hq hp, fun d' h => (deliver_gate d o hq hp).deb d' h⟩) d hd hd).1

/-- Changing parts of the device the gate does not look at. -/
theorem gate_upd {d d2 : Dev R} {r : Res R} (hc : d2.cnt = d.cnt) (h : Gate d2 r) : Gate d r :=
  ⟨by rw [← hc]; exact h.val, by rw [← hc]; exact h.aft, h.kind, h.deb⟩

theorem notifyButton_gate (A : Scroll.Arith R) (d : Dev R) (c : Call) (hb : getKeyType c.code = .button)
    (hd : DebCode d.deb.deb) : Gate d (notifyButton A d c) := by
  unfold notifyButton
  cases h : ButtonScroll.notifyButton A d.sc c.time c.code c.pressed with
  | none => exact gate_error
  | some r =>
    obtain ⟨sc, os⟩ := r
    exact gate_upd (d2 := { d with sc := sc }) rfl (delivers_gate os _
      (fun x hx => by rw [scroll_codes A d.sc _ _ _ h x hx]; exact hb) hd)

theorem calls_gate (A : Scroll.Arith R) (cs : List Call) (d : Dev R)
    (hb : ∀ c ∈ cs, getKeyType c.code = .button) (hd : DebCode d.deb.deb) :
    Gate d (each (notifyButton A) cs d) :=
  (gate_each (fun d => DebCode d.deb.deb) cs (fun c => getKeyType c.code = .button) hb
    (fun d c hp hq => ⟨notifyButton_gate A d c hq hp, fun d' h => (notifyButton_gate A d c hq hp).deb d' h⟩)
    d hd hd).1

/-- Middle-button emulation only reports left, right, middle or the button itself. -/
theorem mb_codes (s : MiddleButton.State) (t code : Nat) (press : Bool) :
    ∀ c ∈ (MiddleButton.physicalButton s t code press).2,
      c.code = code ∨ c.code = BTN_LEFT ∨ c.code = BTN_RIGHT ∨ c.code = BTN_MIDDLE := by
  have hh : ∀ (s : MiddleButton.State) ev, ∀ c ∈ (MiddleButton.handle s t ev).2.1,
      c.code = BTN_LEFT ∨ c.code = BTN_RIGHT ∨ c.code = BTN_MIDDLE := by
    intro s ev c hc
    rcases s with ⟨en, want, st, tm, mask, ft, er⟩
    cases st <;> cases ev <;>
      simp [MiddleButton.handle, MiddleButton.idleH, MiddleButton.ldownH, MiddleButton.rdownH,
        MiddleButton.middleH, MiddleButton.lupPendingH, MiddleButton.rupPendingH,
        MiddleButton.passthroughH, MiddleButton.ignoreLRH, MiddleButton.ignoreLH,
        MiddleButton.ignoreRH] at hc <;>
      (try (rcases hc with rfl | rfl <;> simp)) <;> (try (subst hc; simp))
  have hf : ∀ c ∈ (MiddleButton.filterButton s t code press).2.1,
      c.code = BTN_LEFT ∨ c.code = BTN_RIGHT ∨ c.code = BTN_MIDDLE := by
    intro c hc
    unfold MiddleButton.filterButton at hc
    split at hc
    · cases hc
    · split at hc
      · cases hc
      · simp only at hc
        split at hc
        · simp only at hc
          rcases List.mem_append.mp hc with h | h
          · exact hh _ _ c h
          · exact hh _ _ c h
        · exact hh _ _ c hc
  intro c hc
  unfold MiddleButton.physicalButton at hc
  simp only at hc
  split at hc
  · exact Or.inr (hf c hc)
  · simp only [List.mem_append, List.mem_singleton] at hc
    rcases hc with h | rfl
    · exact Or.inr (hf c h)
    · exact Or.inl rfl

theorem mb_fire_codes (s : MiddleButton.State) (now : Nat) :
    ∀ c ∈ (MiddleButton.fire s now).2, c.code = BTN_LEFT ∨ c.code = BTN_RIGHT := by
  intro c hc
  unfold MiddleButton.fire at hc
  split at hc
  · cases hc
  · split at hc
    · rcases s with ⟨en, want, st, tm, mask, ft, er⟩
      cases st <;>
        simp [MiddleButton.handle, MiddleButton.idleH, MiddleButton.ldownH, MiddleButton.rdownH,
          MiddleButton.middleH, MiddleButton.lupPendingH, MiddleButton.rupPendingH,
          MiddleButton.passthroughH, MiddleButton.ignoreLRH, MiddleButton.ignoreLH,
          MiddleButton.ignoreRH] at hc <;>
        (subst hc; simp)
    · cases hc

theorem physicalButton_gate (A : Scroll.Arith R) (d : Dev R) (t code : Nat) (press : Bool)
    (hb : getKeyType code = .button) (hd : DebCode d.deb.deb) : Gate d (physicalButton A d t code press) := by
  unfold physicalButton
  simp only
  refine gate_upd ?_ (calls_gate A _ _ ?_ ?_)
  · split <;> rfl
  · intro c hc
    rcases mb_codes _ t code press c hc with h | h | h | h <;> rw [h]
    · exact hb
    · rfl
    · rfl
    · rfl
  · split <;> exact hd

theorem toLeftHanded_button (lh : Bool) {c : Nat} (h : getKeyType c = .button) :
    getKeyType (toLeftHanded lh c) = .button := by
  unfold toLeftHanded
  split
  · split
    · rfl
    · split
      · rfl
      · exact h
  · exact h

theorem notes_gate (A : Scroll.Arith R) (ns : List Debounce.Notify) (d : Dev R)
    (hb : ∀ n ∈ ns, getKeyType n.code = .button) (hd : DebCode d.deb.deb) :
    Gate d (each (debounced A) ns d) :=
  (gate_each (fun d => DebCode d.deb.deb) ns (fun n => getKeyType n.code = .button) hb
    (fun d n hp hq => ⟨physicalButton_gate A d _ _ _ (toLeftHanded_button _ hq) hp,
      fun d' h => (physicalButton_gate A d _ _ _ (toLeftHanded_button _ hq) hp).deb d' h⟩)
    d hd hd).1

/-! ### The debouncer only reports buttons -/

open Debounce in
theorem handle_code (s : Debounce.State) (ev : DEv) (t : Nat) :
    (handle s ev t).1.code = s.code ∧ (∀ n ∈ (handle s ev t).2, n.code = s.code) := by
  rcases s with ⟨st, code, time, tm, ts, sp, bugs⟩
  cases st <;> cases ev <;> cases sp <;>
    simp [handle, isUpH, isDownH, isDownWaitingH, isUpDelayingH, isUpDelayingSpuriousH,
      isUpDetectingSpuriousH, isDownDetectingSpuriousH, isUpWaitingH, isDownDelayingH, disabledH,
      quiet, note, setSt, setTimer, setTime, setTimerShort, logBug, cancelTimer, cancelTimerShort,
      enableSpurious]

open Debounce in
/-- `OTHERBUTTON` does nothing to a debouncer at rest. -/
theorem handle_other_rest {s : Debounce.State} (t : Nat)
    (h : (s.st = .isUp ∨ s.st = .disabled) ∧ s.timer = none ∧ s.timerShort = none) :
    handle s .otherButton t = (s, []) := by
  rcases s with ⟨st, code, time, tm, ts, sp, bugs⟩
  simp only at h
  obtain ⟨h1 | h1, h2, h3⟩ := h <;> subst h1 h2 h3 <;> rfl

open Debounce in
theorem loop_code (hw : Nat → Bool) (t : Nat) (multi : Bool) (cs : List Nat)
    (hcs : ∀ c ∈ cs, getKeyType c = .button) (s : Debounce.State) (fl : Bool) (hs : DebCode s) :
    DebCode (loop hw t multi cs s fl).1 ∧ ∀ n ∈ (loop hw t multi cs s fl).2, getKeyType n.code = .button := by
  induction cs generalizing s fl with
  | nil => exact ⟨hs, by simp [loop]⟩
  | cons c cs ih =>
    have hc := hcs c (by simp)
    unfold loop
    simp only
    generalize (if (fl && s.st != .disabled) = true then setSt s (if hw c = true then DSt.isUp else DSt.isDown) else s) = s1
    have h1 := handle_code { s1 with code := c } (if hw c = true then .press else .release) t
    generalize handle { s1 with code := c } (if hw c = true then .press else .release) t = r1 at *
    have h2 : ∀ r2 : Debounce.State × List Debounce.Notify, r2 = (if multi = true then handle r1.1 .otherButton t else (r1.1, [])) →
        r2.1.code = c ∧ ∀ n ∈ r2.2, n.code = c := by
      intro r2 hr
      split at hr
      · have := handle_code r1.1 .otherButton t
        subst hr
        exact ⟨this.1.trans h1.1, fun n hn => (this.2 n hn).trans h1.1⟩
      · subst hr; exact ⟨h1.1, by simp⟩
    have h2 := h2 _ rfl
    generalize (if multi = true then handle r1.1 .otherButton t else (r1.1, [])) = r2 at *
    have h3 := ih (fun x hx => hcs x (List.mem_cons_of_mem _ hx)) r2.1
      (if multi = true then true else if (fl && s.st != .disabled) = true then false else fl)
      (Or.inl (by rw [h2.1]; exact hc))
    refine ⟨h3.1, ?_⟩
    intro n hn
    simp only [List.mem_append] at hn
    rcases hn with (hn | hn) | hn
    · rw [h1.2 n hn]; exact hc
    · rw [h2.2 n hn]; exact hc
    · exact h3.2 n hn

open Debounce in
theorem handleState_code (s : Debounce.State) (hw last : Nat → Bool) (t : Nat) (hs : DebCode s) :
    DebCode (handleState s hw last t).1 ∧ ∀ n ∈ (handleState s hw last t).2, getKeyType n.code = .button := by
  have hch : ∀ c ∈ changedButtons hw last, getKeyType c = .button := by
    intro c hc
    have := List.mem_of_mem_take hc
    simp only [List.mem_filter, buttonCodes, isButton, beq_iff_eq] at this
    exact this.1.2
  unfold handleState
  generalize changedButtons hw last = ch at *
  simp only
  split
  · rcases hs with hs | hs
    · have h1 := handle_code s .otherButton t
      have h2 := loop_code hw t (decide (1 < ch.length)) _ hch
        (handle s .otherButton t).1 true (Or.inl (by rw [h1.1]; exact hs))
      refine ⟨h2.1, ?_⟩
      intro n hn
      rcases List.mem_append.mp hn with hn | hn
      · rw [h1.2 n hn]; exact hs
      · exact h2.2 n hn
    · rw [handle_other_rest t hs]
      have h2 := loop_code hw t (decide (1 < ch.length)) _ hch s true (Or.inr hs)
      exact ⟨h2.1, by simpa using h2.2⟩
  · exact loop_code hw t _ _ hch s false hs

open Debounce in
theorem fire_code (s : Debounce.State) (now : Nat) (hs : DebCode s) :
    DebCode (fire s now).1 ∧ ∀ n ∈ (fire s now).2, getKeyType n.code = .button := by
  rcases hs with hs | ⟨hst, ht, hts⟩
  · have h1 : (fireShort s now).1.code = s.code ∧ ∀ n ∈ (fireShort s now).2, n.code = s.code := by
      unfold fireShort
      split
      · exact ⟨rfl, by simp⟩
      · split
        · exact handle_code (cancelTimerShort s) .timeoutShort now
        · exact ⟨rfl, by simp⟩
    have h2 : ∀ s2 : Debounce.State, (fireLong s2 now).1.code = s2.code ∧ ∀ n ∈ (fireLong s2 now).2, n.code = s2.code := by
      intro s2
      unfold fireLong
      split
      · exact ⟨rfl, by simp⟩
      · split
        · exact handle_code (cancelTimer s2) .timeout now
        · exact ⟨rfl, by simp⟩
    have h3 := h2 (fireShort s now).1
    refine ⟨Or.inl ?_, ?_⟩
    · show getKeyType (fireLong (fireShort s now).1 now).1.code = _
      rw [h3.1, h1.1]; exact hs
    · intro n hn
      rcases List.mem_append.mp hn with hn | hn
      · rw [h1.2 n hn]; exact hs
      · rw [h3.2 n hn, h1.1]; exact hs
  · have : fire s now = (s, []) := by simp [fire, fireShort, fireLong, ht, hts]
    rw [this]
    exact ⟨Or.inr ⟨hst, ht, hts⟩, by simp⟩

/-! ### Operations -/

theorem debounceTimers_gate (A : Scroll.Arith R) (d : Dev R) (now : Nat) (hd : DebCode d.deb.deb) :
    Gate d (debounceTimers A d now) := by
  have h := fire_code d.deb.deb now hd
  exact gate_upd (d2 := { d with deb := { d.deb with deb := (Debounce.fire d.deb.deb now).1 } }) rfl
    (notes_gate A _ _ h.2 h.1)

theorem processKey_gate (t : Nat) (d : Dev R) (e : KeyEv) (hd : DebCode d.deb.deb) :
    Gate d (processKey t d e) := by
  unfold processKey
  split
  · exact gate_ret rfl hd
  · split
    · exact gate_ret rfl hd
    · refine gate_ret rfl ?_
      show DebCode (Debounce.processKey d.deb e.code (e.value != 0)).deb
      unfold Debounce.processKey
      split
      · exact hd
      · split <;> exact hd
    · rename_i hk
      simp only
      split
      · exact gate_ret rfl hd
      · exact gate_upd (d2 := { d with keyHw := fun c => if c = e.code then e.value != 0 else d.keyHw c }) rfl
          (notifyKey_gate _ t _ _ hk hd)

theorem motion_no_buttons (A : Scroll.Arith R) (s : ButtonScroll.State R) (t : Nat) (dx dy : R) :
    ∀ c, .button c ∉ (ButtonScroll.motion A s t dx dy).2 := by
  intro c hc
  unfold ButtonScroll.motion at hc
  split at hc
  · simp at hc
  · split at hc <;> simp at hc

theorem flushMotion_gate (A : Scroll.Arith R) (d : Dev R) (t : Nat) (rel : Option (R × R))
    (hd : DebCode d.deb.deb) : Gate d (flushMotion A d t rel) := by
  cases rel with
  | none => exact gate_ret rfl hd
  | some x =>
    obtain ⟨dx, dy⟩ := x
    exact gate_upd (d2 := { d with sc := (ButtonScroll.motion A d.sc t dx dy).1 }) rfl
      (delivers_gate _ _ (fun c hc => absurd hc (motion_no_buttons A d.sc t dx dy c)) hd)

theorem flushWheels_gate (d : Dev R) (t : Nat) (wx wy : Int) (hd : DebCode d.deb.deb) :
    Gate d (flushWheels d t wx wy) := by
  unfold flushWheels
  split
  · exact gate_ret rfl hd
  · have he : edges ((if wy ≠ 0 then [Out.wheel t true (-1 * wy)] else []) ++
        (if wx ≠ 0 then [Out.wheel (R := R) t false wx] else [])) = [] := by
      split <;> split <;> rfl
    refine ⟨by simp only [he]; trivial, ?_, ?_, ?_⟩
    · intro d' h
      simp only [Except.ok.injEq] at h
      subst h
      simp only [he]; rfl
    · refine ⟨fun e h => ?_, fun e h => ?_⟩ <;> simp only [List.mem_append] at h <;>
        rcases h with h | h <;> split at h <;> simp at h
    · intro d' h
      simp only [Except.ok.injEq] at h
      subst h; exact hd

theorem syncButtons_gate (A : Scroll.Arith R) (d : Dev R) (t : Nat) (hd : DebCode d.deb.deb) :
    Gate d (syncButtons A d t) := by
  have h : DebCode (Debounce.sync d.deb t).1.deb ∧ ∀ n ∈ (Debounce.sync d.deb t).2, getKeyType n.code = .button := by
    unfold Debounce.sync
    split
    · simp only
      split
      · exact handleState_code _ _ _ _ hd
      · exact ⟨hd, by simp⟩
    · exact ⟨hd, by simp⟩
  exact gate_upd (d2 := { d with deb := (Debounce.sync d.deb t).1 }) rfl (notes_gate A _ _ h.2 h.1)

theorem releasePressed_gate (A : Scroll.Arith R) (t : Nat) (codes : List Nat) (d : Dev R)
    (hd : DebCode d.deb.deb) : Gate d (releasePressed A t codes d) := by
  induction codes generalizing d with
  | nil => exact gate_ret rfl hd
  | cons c cs ih =>
    unfold releasePressed
    split
    · exact ih d hd
    · have h1 : Gate d (match getKeyType c with
        | .none => ret d
        | .key => notifyKey d t c false
        | .button => notifyButton A d ⟨t, toLeftHanded d.lh c, false⟩) := by
        split
        · exact gate_ret rfl hd
        · rename_i hk; exact notifyKey_gate d t c false hk hd
        · rename_i hk; exact notifyButton_gate A d _ (toLeftHanded_button _ hk) hd
      refine gate_bind h1 ?_
      intro d' hd'
      split
      · exact gate_ret rfl (h1.deb d' hd')
      · exact ih d' (h1.deb d' hd')

theorem step_gate (A : Scroll.Arith R) (d : Dev R) (op : Op R) (hd : DebCode d.deb.deb) :
    Gate d (step A d op) := by
  cases op with
  | frame t keys wheel rel =>
    refine gate_bind (debounceTimers_gate A d t hd) fun d1 h1 => ?_
    have hd1 := (debounceTimers_gate A d t hd).deb d1 h1
    have hk := (gate_each (fun d : Dev R => DebCode d.deb.deb) keys (fun _ => True) (fun _ _ => trivial)
      (fun d e hp _ => ⟨processKey_gate t d e hp, (processKey_gate t d e hp).deb⟩) d1 hd1 hd1).1
    refine gate_bind hk fun d2 h2 => ?_
    have hd2 := hk.deb d2 h2
    refine gate_bind (flushMotion_gate A d2 t rel hd2) fun d3 h3 => ?_
    have hd3 := (flushMotion_gate A d2 t rel hd2).deb d3 h3
    refine gate_bind (flushWheels_gate d3 t _ _ hd3) fun d4 h4 => ?_
    exact syncButtons_gate A d4 t ((flushWheels_gate d3 t _ _ hd3).deb d4 h4)
  | debounceTimers now => exact debounceTimers_gate A d now hd
  | middleTimer now =>
    refine gate_upd (d2 := { d with mb := (MiddleButton.fire d.mb now).1 }) rfl (calls_gate A _ _ ?_ hd)
    intro c hc
    rcases mb_fire_codes d.mb now c hc with h | h <;> rw [h] <;> rfl
  | scrollTimer now => exact gate_ret rfl hd
  | setLeftHanded on => exact gate_ret (by simp) (by simpa using hd)
  | setMiddle on => exact gate_ret rfl hd
  | setScrollMethod on => exact gate_ret (by simp) (by simpa using hd)
  | setScrollButton b => exact gate_ret (by simp) (by simpa using hd)
  | setScrollLock on => exact gate_ret (by simp) (by simpa using hd)
  | suspend t =>
    show Gate d (suspend A d t)
    unfold suspend
    generalize List.range Buttons.KEY_CNT = codes
    have h := releasePressed_gate A t codes d hd
    exact gate_bind h fun d1 h1 => gate_ret rfl (h.deb d1 h1)

theorem run_gate (A : Scroll.Arith R) (ops : List (Op R)) (d : Dev R) (hd : DebCode d.deb.deb) :
    Gate d (run A d ops) :=
  (gate_each (fun d : Dev R => DebCode d.deb.deb) ops (fun _ => True) (fun _ _ => trivial)
    (fun d op hp _ => ⟨step_gate A d op hp, (step_gate A d op hp).deb⟩) d hd hd).1

theorem init_debCode (A : Scroll.Arith R) (has : Nat → Bool) (db md on : Bool) (b : Nat) :
    DebCode (init A has db md on b).deb.deb := by
  refine Or.inr ⟨?_, rfl, rfl⟩
  cases db <;> simp [init, Debounce.init]

end Libinput.Mouse
