import Verif.Hand.Lemmas
/-!
What becomes of one finger.
-/
namespace Libinput.Hand
open Libinput.TouchSlots Libinput.TouchSlots.Spec Spec

/-! ## The screen follows the kernel -/

/-- The screen follows the kernel, which talks about slot `c`; `clean`: no slot has changed since the last frame. -/
def Fol (n c : Nat) (clean : Bool) (d : Dev) : Prop :=
  ∃ w : Hw, Follows w d ∧ w.isMt = true ∧ w.n = n ∧ w.cur = c ∧ (clean = true → ∀ i, w.changed i = false)

theorem Fol.step {n c : Nat} {k : Bool} {d : Dev} (h : Fol n c k d) (m : Map) (dev : Nat) (op : TouchSlots.Op)
    (ho : ∀ w : Hw, w.isMt = true → w.n = n → Orderly w op) (he : ∀ w : Hw, w.step op = w) : Fol n c k (devStep d m dev op).2.1 := by
  obtain ⟨w, f, h1, h2, h3, h4⟩ := h
  have := follows_step f m dev op (ho w h1 h2)
  rw [he w] at this
  exact ⟨w, this, h1, h2, h3, h4⟩

/-- An event of the touch screen. -/
theorem Fol.touch {n c : Nat} {k : Bool} {d : Dev} (h : Fol n c k d) (m : Map) (dev : Nat) {op : TouchSlots.Op} (ho : Own op)
    (hr : ∀ v, op = .slot v → 0 ≤ v ∧ v < n) :
    Fol n (current c [.touch op]) (decide (op = .syn)) (devStep d m dev op).2.1 := by
  obtain ⟨w, f, h1, h2, h3, h4⟩ := h
  have same : (devStep d m dev op).2.1 = d → current c [.touch op] = c → op ≠ .syn →
      Fol n (current c [.touch op]) (decide (op = .syn)) (devStep d m dev op).2.1 := by
    intro e e2 e3
    rw [e, e2]
    exact ⟨w, f, h1, h2, h3, fun c => by simp [e3] at c⟩
  have mt : d.isMt = true := f.isMt.trans h1
  have go : Orderly w op → (w.step op).isMt = true → (w.step op).n = n → (w.step op).cur = current c [.touch op] →
      (op = .syn → ∀ i, (w.step op).changed i = false) →
      Fol n (current c [.touch op]) (decide (op = .syn)) (devStep d m dev op).2.1 := by
    intro a b e g i
    exact ⟨_, follows_step f m dev op a, b, e, g, fun c => i (by simpa using c)⟩
  cases op with
  | arbitration => exact ho.elim
  | updateRect => exact ho.elim
  | touch v => exact same (by simp [devStep, f.live, mt]) rfl (by simp)
  | absX v => exact same (by simp [devStep, f.live, mt]) rfl (by simp)
  | absY v => exact same (by simp [devStep, f.live, mt]) rfl (by simp)
  | slot v =>
    obtain ⟨a, b⟩ := hr v rfl
    exact go ⟨h1, a, by rw [h2]; exact b⟩ h1 h2 rfl (by simp)
  | tracking v b => exact go h1 h1 h2 h3 (by simp)
  | mtX v => exact go h1 h1 h2 h3 (by simp)
  | mtY v => exact go h1 h1 h2 h3 (by simp)
  | tool b => exact go h1 h1 h2 h3 (by simp)
  | syn => exact go trivial h1 h2 h3 (fun _ _ => rfl)
  | suspend => exact go trivial h1 h2 h3 (by simp)
  | timeout => exact go trivial h1 h2 h3 (by simp)

/-- Whether no slot has changed since the last frame. -/
def clean (k : Bool) : Op → Bool
  | .touch .syn => true
  | .touch (.arbitration _ _) => k
  | .touch (.updateRect _) => k
  | .touch _ => false
  | _ => k

theorem step_fol {T S : Axes} {n c : Nat} {k : Bool} {s : St} (h : Fol n c k s.dev) (op : Op) (hu : ∀ p, op ≠ .pen p 0)
    (hr : ∀ v, op = .touch (.slot v) → 0 ≤ v ∧ v < n) :
    Fol n (current c [op]) (clean k op) (step T S s op).1.dev := by
  have arb : ∀ (s : St) (which : Arb) (r : Rect), which ≠ .ignoreAll → Fol n c k s.dev → Fol n c k (setEnabled S s which r).1.dev := by
    intro s which r hw hs
    exact hs.step s.map 0 (.arbitration which (toUnits S r)) (fun _ _ _ => hw) (fun _ => rfl)
  cases op with
  | elsewhere m => exact h
  | leave => exact arb s .notActive _ (by simp) h
  | pen p t =>
    have ht : t ≠ 0 := fun e => hu p (by rw [e])
    have a : Fol n c k (updateRect T S s p t).1.dev := by
      unfold updateRect
      split
      · exact h
      · exact h.step s.map 0 (.updateRect _) (fun _ _ _ => trivial) (fun _ => rfl)
    show Fol n c k (toggle T S (updateRect T S s p t).1 p t).1.dev
    unfold toggle
    rw [if_neg ht]
    split
    · exact arb _ .ignoreRect _ (by simp) a
    · exact a
  | touch op =>
    have own : Own op → Fol n (current c [.touch op]) (decide (op = .syn)) (touch s op).1.dev :=
      fun ho => h.touch s.map 0 ho (fun v e => hr v (by rw [e]))
    cases op <;> first | exact h | exact own trivial

/-- The history leaves the screen following the kernel. -/
theorem run_fol {T S : Axes} {n : Nat} (ops : List Op) : ∀ {c : Nat} {k : Bool} {s : St}, Fol n c k s.dev → NeverUpright ops → InRange n ops →
    Fol n (current c ops) (ops.foldl clean k) (run T S s ops).1.dev := by
  induction ops with
  | nil => intro c k s h _ _; exact h
  | cons op ops ih =>
    intro c k s h hu hr
    have a := step_fol (T := T) (S := S) h op (hu op List.mem_cons_self) (hr op List.mem_cons_self)
    have b := ih a (fun o ho => hu o (List.mem_cons_of_mem _ ho)) (fun o ho => hr o (List.mem_cons_of_mem _ ho))
    have e : current c (op :: ops) = current (current c [op]) ops := by
      cases op with
      | touch o => cases o <;> rfl
      | _ => rfl
    rw [e]
    exact b

theorem start_fol {n cur : Nat} (hc : cur < n) (hp : Bool) (hy : Option (Pt → Pt → Pt)) : Fol n cur true (start n cur hp hy).dev :=
  ⟨_, follows_new true n cur hp hy (fun _ => hc), rfl, rfl, rfl, fun _ _ => rfl⟩

theorem foldl_clean {ops : List Op} (h : ∀ op ∈ ops, ∀ o, op ≠ .touch o) : ops.foldl clean true = true := by
  induction ops with
  | nil => rfl
  | cons op ops ih =>
    have e : clean true op = true := by
      cases op with
      | touch o => exact absurd rfl (h _ List.mem_cons_self o)
      | _ => rfl
    rw [List.foldl_cons, e]
    exact ih (fun o ho => h o (List.mem_cons_of_mem _ ho))

/-! ## One slot -/

/-- The slot of a finger that just came down. -/
def fresh (s : Slot) (q : Pt) : Slot := { s with state := .begin, dirty := true, palm := .none, point := q }

theorem flush_clean (d : Dev) (dev : Nat) (ss : List Slot) (h : ∀ s ∈ ss, s.dirty = false) : ∀ (m : Map) (i : Nat) (b : Bool),
    flushSlots d dev m i ss b = (m, ss, [], b) := by
  induction ss with
  | nil => intro m i b; rfl
  | cons s ss ih =>
    intro m i b
    have e : flushSlot d m (dev, some i) s b = (m, s, [], b) := by
      unfold flushSlot; rw [if_pos (by simp [h s List.mem_cons_self])]
    simp [flushSlots, e, ih (fun x hx => h x (List.mem_cons_of_mem _ hx))]

/-- In a frame in which one slot has changed, what happens is what happens to that slot. -/
theorem flush_one (d : Dev) (dev : Nat) (x : Slot) : ∀ (ss : List Slot) (j : Nat) (m : Map) (i : Nat) (b : Bool),
    (∀ s ∈ ss, s.dirty = false) → j < ss.length →
    flushSlots d dev m i (ss.set j x) b =
      ((flushSlot d m (dev, some (i + j)) x b).1, ss.set j (flushSlot d m (dev, some (i + j)) x b).2.1,
       (flushSlot d m (dev, some (i + j)) x b).2.2.1, (flushSlot d m (dev, some (i + j)) x b).2.2.2) := by
  intro ss
  induction ss with
  | nil => intro j m i b _ hj; simp at hj
  | cons s ss ih =>
    intro j m i b h hj
    cases j with
    | zero =>
      simp [flushSlots, flush_clean d dev ss (fun y hy => h y (List.mem_cons_of_mem _ hy))]
    | succ j =>
      have e : flushSlot d m (dev, some i) s b = (m, s, [], b) := by
        unfold flushSlot; rw [if_pos (by simp [h s List.mem_cons_self])]
      have := ih j m (i + 1) b (fun y hy => h y (List.mem_cons_of_mem _ hy)) (by simpa using hj)
      have e2 : i + 1 + j = i + (j + 1) := by omega
      rw [e2] at this
      simp [flushSlots, e, this]

theorem processTouch_live (d : Dev) (op : TouchSlots.Op) : (processTouch d op).inArb = d.inArb := by
  obtain ⟨ss, c, b, e⟩ := process_shape d op; rw [e]

theorem processTouch_mt (d : Dev) (op : TouchSlots.Op) : (processTouch d op).isMt = d.isMt := by
  obtain ⟨ss, c, b, e⟩ := process_shape d op; rw [e]

theorem modify_set {α : Type} {l : List α} {i : Nat} {x : α} (h : l[i]? = some x) (f : α → α) : l.modify i f = l.set i (f x) := by
  induction l generalizing i with
  | nil => simp at h
  | cons a l ih =>
    cases i with
    | zero => simp at h; subst h; rfl
    | succ i => simp at h; simp [ih h]

/-- The screen after the events of a finger, before the end of the frame. -/
theorem finger_steps {T S : Axes} {n c : Nat} {k : Bool} {s : St} (h : Fol n c k s.dev) {i : Nat} (hi : i < n) (id : Nat) (q : Pt) {x : Slot}
    (hx : s.dev.slots[i]? = some x) :
    run T S s (finger i id q) =
      let d : Dev := { s.dev with cur := i, pMt := true, slots := s.dev.slots.set i (fresh x q) }
      ({ s with map := (handleState d s.map 0).1, dev := (handleState d s.map 0).2.1 }, (handleState d s.map 0).2.2) := by
  obtain ⟨w, f, h1, h2, _, _⟩ := h
  have live := f.live
  have mt := f.isMt.trans h1
  have hl : s.dev.slots.length = n := f.n.trans h2
  have hlen : i < s.dev.slots.length := by omega
  have hv : ¬ ((i : Int) < 0 ∨ (i : Int) ≥ s.dev.slots.length) := by omega
  have hg : s.dev.slots[i] = x := by
    rw [List.getElem?_eq_getElem hlen] at hx; simpa using hx
  have key : processTouch (processTouch (processTouch (processTouch s.dev (.slot i)) (.tracking id false)) (.mtX q.1)) (.mtY q.2) =
      { s.dev with cur := i, pMt := true, slots := s.dev.slots.set i (fresh x q) } := by
    simp only [processTouch, if_neg hv, Int.toNat_natCast, Dev.modify, ge_iff_le, Int.natCast_nonneg, if_true, Bool.and_false,
      Bool.false_eq_true, if_false, List.modify_modify_eq]
    congr 1
    rw [modify_set hx]
    rfl
  simp only [finger, run, step, touch, devStep, live, mt, if_true, Bool.false_eq_true, if_false, processTouch_live, processTouch_mt,
    List.nil_append, List.append_nil]
  rw [key]
  simp only [mt, live]

/-- A finger comes down in a slot without a touch: what is sent, and what the slot is like afterwards. -/
theorem finger_result {T S : Axes} {n c : Nat} {s : St} (h : Fol n c true s.dev) (hm : Mt s.dev) {i : Nat} (hi : i < n) (id : Nat) (q : Pt)
    {x : Slot} (hx : s.dev.slots[i]? = some x) (hs : x.seat = none) {j : Nat} (hj : firstFree s.map = some j) :
    (¬ (s.dev.arb = .ignoreRect ∧ s.dev.rect.has q = true) →
      (run T S s (finger i id q)).2 = [.down (0, some i) j q, .frame 0]) ∧
    ((s.dev.arb = .ignoreRect ∧ s.dev.rect.has q = true) →
      (run T S s (finger i id q)).2 = [] ∧
      ∃ y, (run T S s (finger i id q)).1.dev.slots[i]? = some y ∧ y.palm = .isPalm ∧ y.seat = none) := by
  have hl : s.dev.slots.length = n := by
    obtain ⟨w, f, _, h2, _⟩ := h; exact f.n.trans h2
  have hd : ∀ z ∈ s.dev.slots, z.dirty = false := by
    obtain ⟨w, f, _, _, _, h4⟩ := h
    intro z hz
    obtain ⟨a, ha, e⟩ := List.mem_iff_getElem.mp hz
    have := f.dirty a z (by rw [List.getElem?_eq_getElem ha, e])
    rw [this]; exact h4 rfl a
  rw [finger_steps h hi id q hx]
  dsimp only
  have hst : flushSt { s.dev with cur := i, pMt := true, slots := s.dev.slots.set i (fresh x q) } s.map 0 = (s.map, s.dev.seat, []) :=
    flushSt_quiet _ s.map 0 hm.down hm.up hm.motion
  unfold handleState
  rw [hst]
  dsimp only
  simp only [if_true]
  have one := flush_one { s.dev with cur := i, pMt := true, slots := s.dev.slots.set i (fresh x q) } 0 (fresh x q) s.dev.slots i s.map 0
    false hd (by omega)
  rw [one]
  simp only [Nat.zero_add, List.nil_append]
  have fl : ∀ d : Dev, flushSlot d s.map (0, some i) (fresh x q) false =
      if arbitrate d (fresh x q) then (s.map, { fresh x q with dirty := false, palm := .isPalm, state := .update }, [], false)
      else (setBit s.map j, { fresh x q with dirty := false, seat := some j, center := q, state := .update }, [.down (0, some i) j q], true) := by
    intro d
    unfold flushSlot
    rw [if_neg (by simp [fresh])]
    by_cases c : arbitrate d (fresh x q) = true
    · have c' : arbitrate d { fresh x q with dirty := false } = true := c
      rw [if_pos c]
      simp only [fresh] at c' ⊢
      simp [c', nextState]
    · have c' : ¬ arbitrate d { fresh x q with dirty := false } = true := c
      rw [if_neg c]
      simp only [fresh, hs] at c' ⊢
      simp [c', TouchSlots.down, hj, nextState]
  rw [fl]
  have ar : ∀ d : Dev, arbitrate d (fresh x q) = (d.arb == .ignoreRect && d.rect.has q) := fun _ => rfl
  simp only [ar]
  constructor
  · intro hn
    rw [if_neg (by simpa using hn)]
    simp
  · intro hn
    rw [if_pos (by simpa using hn)]
    refine ⟨by simp, { fresh x q with dirty := false, palm := .isPalm, state := .update }, ?_, rfl, hs⟩
    simp [show i < s.dev.slots.length by omega]

/-! ## A finger that was ignored -/

/-- Slot `i` has a finger that is ignored. -/
def Dead (i : Nat) (d : Dev) : Prop := ∃ y : Slot, d.slots[i]? = some y ∧ (y.palm = .isPalm ∨ y.palm = .wasPalm) ∧ y.seat = none

theorem flushSlot_dead (d : Dev) (m : Map) (k : Key) (y : Slot) (b : Bool) (hp : y.palm = .isPalm ∨ y.palm = .wasPalm) (hs : y.seat = none) :
    ((flushSlot d m k y b).2.1.palm = .isPalm ∨ (flushSlot d m k y b).2.1.palm = .wasPalm) ∧ (flushSlot d m k y b).2.1.seat = none ∧
    (flushSlot d m k y b).2.2.1 = [] := by
  unfold flushSlot
  split
  · exact ⟨hp, hs, rfl⟩
  · rcases hp with hp | hp <;> simp [hp, hs]

/-- The events of the slots are about those slots. -/
theorem flushSlots_dead (d : Dev) (dev : Nat) (ss : List Slot) : ∀ (m : Map) (i : Nat) (b : Bool) (j : Nat) (y : Slot), ss[j]? = some y →
    (y.palm = .isPalm ∨ y.palm = .wasPalm) → y.seat = none →
    ¬ About (flushSlots d dev m i ss b).2.2.1 (dev, some (i + j)) := by
  induction ss with
  | nil => intro m i b j y h; simp at h
  | cons s ss ih =>
    intro m i b j y h hp hs ⟨e, he, ek⟩
    simp only [flushSlots, List.mem_append] at he
    cases j with
    | zero =>
      simp at h
      subst h
      rcases he with he | he
      · rw [(flushSlot_dead d m (dev, some i) s b hp hs).2.2] at he; simp at he
      · obtain ⟨j', hj', _, e2⟩ := flushSlots_keys d dev ss _ _ _ e he
        rw [e2] at ek
        simp at ek
        omega
    | succ j =>
      simp at h
      rcases he with he | he
      · have := flushSlot_keys d m (dev, some i) s b e he
        rw [this] at ek
        simp at ek
      · refine ih _ _ _ j y h hp hs ⟨e, he, ?_⟩
        rw [ek]; simp; omega

theorem mem_frame {b : Bool} {dev : Nat} {e : Ev} (h : e ∈ (if b = true then [] else [.frame dev])) : e = .frame dev := by
  cases b <;> simpa using h

theorem mem_frame2 {b : Bool} {dev : Nat} {e : Ev} (h : e ∈ (if b = true then [.frame dev] else [])) : e = .frame dev := by
  cases b <;> simp at h; exact h

theorem cancelSlots_from (dev : Nat) (rect : Option Rect) (ss : List Slot) : ∀ (m : Map) (i : Nat), ∀ e ∈ (cancelSlots dev rect m i ss).2.2,
    ∃ j, i ≤ j ∧ key e = some (dev, some j) := by
  induction ss with
  | nil => intro m i; simp [cancelSlots]
  | cons s ss ih =>
    intro m i e he
    simp only [cancelSlots, List.mem_append] at he
    rcases he with h | h
    · split at h
      · exact ⟨i, Nat.le_refl i, cancel_keys _ _ _ e h⟩
      · simp at h
    · obtain ⟨j, h1, h3⟩ := ih _ _ e h
      exact ⟨j, by omega, h3⟩

theorem cancelSlots_dead (dev : Nat) (rect : Option Rect) (ss : List Slot) : ∀ (m : Map) (i j : Nat) (y : Slot), ss[j]? = some y →
    y.seat = none → ¬ About (cancelSlots dev rect m i ss).2.2 (dev, some (i + j)) := by
  induction ss with
  | nil => intro m i j y h; simp at h
  | cons s ss ih =>
    intro m i j y h hs ⟨e, he, ek⟩
    simp only [cancelSlots, List.mem_append] at he
    cases j with
    | zero =>
      simp at h
      subst h
      rcases he with he | he
      · split at he
        · simp [hs, finish] at he
        · simp at he
      · obtain ⟨j', hj', e2⟩ := cancelSlots_from dev rect ss _ _ e he
        rw [e2] at ek
        simp at ek
        omega
    | succ j =>
      simp at h
      rcases he with he | he
      · split at he
        · have := cancel_keys _ _ _ e he
          rw [this] at ek
          simp at ek
        · simp at he
      · refine ih _ _ j y h hs ⟨e, he, ?_⟩
        rw [ek]; simp; omega

theorem cancel_dead {i : Nat} {d : Dev} (h : Dead i d) (m : Map) (dev : Nat) (rect : Option Rect) :
    Dead i (cancelTouches d m dev rect).2.1 ∧ ¬ About (cancelTouches d m dev rect).2.2 (dev, some i) := by
  obtain ⟨y, hy, hp, hs⟩ := h
  constructor
  · unfold cancelTouches
    dsimp only
    obtain ⟨v, h1, h2, _⟩ := (cancelSlots_get dev rect d.slots _ 0).2 i y hy
    exact ⟨_, h1, hp, by rcases h2 with e | e <;> simp [e, hs]⟩
  · intro ⟨e, he, ek⟩
    unfold cancelTouches at he
    dsimp only at he
    simp only [List.mem_append] at he
    rcases he with (he | he) | he
    · split at he
      · rw [cancel_keys _ _ _ e he] at ek; simp at ek
      · simp at he
    · have := cancelSlots_dead dev rect d.slots (if rect.all (·.has d.point) = true then finish m d.seat (.cancel (dev, none)) else (m, d.seat, [])).1 0 i y hy hs
      rw [Nat.zero_add] at this
      exact this ⟨e, he, ek⟩
    · rw [mem_frame he] at ek; simp [key] at ek

theorem modify_dead {i : Nat} {d : Dev} (h : Dead i d) (c : Nat) (b : Bool) (f : Slot → Slot)
    (hf : c = i → ∀ y : Slot, (y.palm = .isPalm ∨ y.palm = .wasPalm) → y.seat = none →
      ((f y).palm = .isPalm ∨ (f y).palm = .wasPalm) ∧ (f y).seat = none) :
    Dead i { d with slots := d.slots.modify c f, pMt := b } := by
  obtain ⟨y, hy, hp, hs⟩ := h
  by_cases e : c = i
  · subst e
    obtain ⟨a, b⟩ := hf rfl y hp hs
    exact ⟨f y, by simp [List.getElem?_modify, hy], a, b⟩
  · exact ⟨y, by simp [List.getElem?_modify, hy, e], hp, hs⟩

theorem process_dead {i : Nat} {d : Dev} (h : Dead i d) (op : TouchSlots.Op) (hn : ∀ v b, op = .tracking v b → 0 ≤ v → d.cur ≠ i) :
    Dead i (processTouch d op) := by
  cases op with
  | slot v => exact h
  | tracking v b =>
    simp only [processTouch]
    split
    · rename_i hv
      exact modify_dead h d.cur true _ (fun e => absurd e (hn v b rfl hv))
    · exact modify_dead h d.cur true _ (fun _ y hp hs => ⟨hp, hs⟩)
  | mtX v => exact modify_dead h d.cur true _ (fun _ y hp hs => ⟨hp, hs⟩)
  | mtY v => exact modify_dead h d.cur true _ (fun _ y hp hs => ⟨hp, hs⟩)
  | tool b =>
    refine modify_dead h d.cur true _ (fun _ y hp hs => ⟨?_, hs⟩)
    rcases hp with hp | hp <;> cases b <;> simp [hp]
  | _ => exact h

theorem devStep_dead {i : Nat} {d : Dev} (h : Dead i d) (hm : Mt d) (m : Map) (dev : Nat) (op : TouchSlots.Op)
    (hn : ∀ v b, op = .tracking v b → 0 ≤ v → d.cur ≠ i) :
    Dead i (devStep d m dev op).2.1 ∧ ¬ About (devStep d m dev op).2.2 (dev, some i) := by
  have no : ¬ About [] (dev, some i) := by simp [About]
  cases op with
  | arbitration which r =>
    simp only [devStep]
    split
    · exact ⟨h, no⟩
    · split
      · exact ⟨h, no⟩
      · exact cancel_dead h m dev (some r)
      · exact cancel_dead h m dev none
  | updateRect => exact ⟨h, no⟩
  | suspend => exact cancel_dead h m dev none
  | timeout => simp only [devStep]; split <;> exact ⟨h, no⟩
  | syn =>
    simp only [devStep]
    split
    · exact ⟨h, no⟩
    · obtain ⟨y, hy, hp, hs⟩ := h
      constructor
      · rw [Dead, handleState_slots]
        split
        · obtain ⟨m', b', h1, _⟩ := (flushSlots_get { d with seat := (flushSt d m dev).2.1 } dev d.slots (flushSt d m dev).1 0 false).2 i y hy
          rw [h1]
          obtain ⟨a, b, _⟩ := flushSlot_dead { d with seat := (flushSt d m dev).2.1 } m' (dev, some (0 + i)) y b' hp hs
          exact ⟨_, rfl, a, b⟩
        · exact ⟨y, hy, hp, hs⟩
      · intro ⟨e, he, ek⟩
        unfold handleState at he
        rw [flushSt_quiet d m dev hm.down hm.up hm.motion] at he
        dsimp only at he
        simp only [List.mem_append] at he
        rcases he with he | he
        · split at he
          · simp only [List.nil_append] at he
            have := flushSlots_dead d dev d.slots m 0 false i y hy hp hs
            rw [Nat.zero_add] at this
            exact this ⟨e, he, ek⟩
          · simp at he
        · rw [mem_frame2 he] at ek; simp [key] at ek
  | touch v => simp only [devStep, hm.mt, if_true]; split <;> exact ⟨h, no⟩
  | absX v => simp only [devStep, hm.mt, if_true]; split <;> exact ⟨h, no⟩
  | absY v => simp only [devStep, hm.mt, if_true]; split <;> exact ⟨h, no⟩
  | slot v => simp only [devStep, hm.mt, if_true]; split <;> exact ⟨h, no⟩
  | tracking v b =>
    simp only [devStep, hm.mt, if_true]
    split
    · exact ⟨h, no⟩
    · exact ⟨process_dead h (.tracking v b) hn, no⟩
  | mtX v =>
    simp only [devStep, hm.mt, if_true]
    split
    · exact ⟨h, no⟩
    · exact ⟨process_dead h (.mtX v) hn, no⟩
  | mtY v =>
    simp only [devStep, hm.mt, if_true]
    split
    · exact ⟨h, no⟩
    · exact ⟨process_dead h (.mtY v) hn, no⟩
  | tool b =>
    simp only [devStep, hm.mt, if_true]
    split
    · exact ⟨h, no⟩
    · exact ⟨process_dead h (.tool b) hn, no⟩

/-! ## Which touches are down -/

theorem after_other {k : Key} (es : List Ev) (h : ¬ About es k) (H : Held) : after H es k = H k := by
  induction es generalizing H with
  | nil => rfl
  | cons e es ih =>
    have h' : ¬ About es k := fun ⟨x, hx, hk⟩ => h ⟨x, List.mem_cons_of_mem _ hx, hk⟩
    have hk : key e ≠ some k := fun c => h ⟨e, List.mem_cons_self, c⟩
    cases e <;> simp only [after, ih h'] <;> first | rfl | (exact put_ne _ _ (fun c => hk (by rw [c]; rfl)))

theorem flushSlot_after (d : Dev) (m : Map) (k : Key) (s : Slot) (b : Bool) (H : Held) (h : H k = s.seat) :
    after H (flushSlot d m k s b).2.2.1 k = (flushSlot d m k s b).2.1.seat := by
  have fin : ∀ (v : Option Nat) (ev : Nat → Ev), (∀ i, ev i = .up k i) ∨ (∀ i, ev i = .cancel k i) → H k = v →
      after H (finish m v ev).2.2 k = (finish m v ev).2.1 := by
    intro v ev he hv
    cases v with
    | none => exact hv
    | some i => rcases he with he | he <;> simp [finish, he, after, put_get]
  have dn : ∀ (v : Option Nat) (q : Pt), H k = v → after H (TouchSlots.down m v k q).2.2 k = (TouchSlots.down m v k q).2.1 := by
    intro v q hv
    cases v with
    | some i => exact hv
    | none =>
      simp only [TouchSlots.down]
      split
      · exact hv
      · simp [after, put_get]
  have mo : ∀ s : Slot, H k = s.seat → after H (TouchSlots.motion d s k).2 k = (TouchSlots.motion d s k).1.seat := by
    intro s hs
    rw [motion_seat]
    unfold TouchSlots.motion
    split
    · exact hs
    · dsimp only
      split <;> exact hs
  unfold flushSlot
  split
  · exact h
  · dsimp only
    cases hp : s.palm <;> dsimp only
    · cases hs : s.state <;> dsimp only
      · exact h
      · split
        · exact h
        · exact dn _ _ h
      · exact mo _ h
      · exact fin _ _ (Or.inl fun _ => rfl) h
    · split
      · exact h
      · exact fin _ _ (Or.inr fun _ => rfl) h
    · exact h
    · exact h

/-- The touches of the slots from number `i` on. -/
def Seats (H : Held) (dev i : Nat) (ss : List Slot) : Prop := ∀ (j : Nat) (s : Slot), ss[j]? = some s → H (dev, some (i + j)) = s.seat

theorem flushSlots_seats (d : Dev) (dev : Nat) (ss : List Slot) : ∀ (m : Map) (i : Nat) (b : Bool) (H : Held), Seats H dev i ss →
    Seats (after H (flushSlots d dev m i ss b).2.2.1) dev i (flushSlots d dev m i ss b).2.1 := by
  induction ss with
  | nil => intro m i b H h j s hj; simp [flushSlots] at hj
  | cons s0 ss ih =>
    intro m i b H h j s hj
    simp only [flushSlots] at hj ⊢
    rw [after_append]
    cases j with
    | zero =>
      simp at hj
      subst hj
      rw [after_other]
      · exact flushSlot_after d m (dev, some i) s0 b H (h 0 s0 rfl)
      · intro ⟨e, he, ek⟩
        obtain ⟨j', hj', _, e2⟩ := flushSlots_keys d dev ss _ _ _ e he
        rw [e2] at ek
        simp at ek
        omega
    | succ j =>
      simp only [List.getElem?_cons_succ] at hj
      have := ih (flushSlot d m (dev, some i) s0 b).1 (i + 1) (flushSlot d m (dev, some i) s0 b).2.2.2
        (after H (flushSlot d m (dev, some i) s0 b).2.2.1) (by
          intro j' s' hj'
          rw [after_other]
          · have := h (j' + 1) s' (by simpa using hj')
            rw [← this]; congr 3; omega
          · intro ⟨e, he, ek⟩
            rw [flushSlot_keys d m (dev, some i) s0 b e he] at ek
            simp at ek
            omega) j s hj
      rw [← this]; congr 3; omega

theorem cancelSlots_seats (dev : Nat) (rect : Option Rect) (ss : List Slot) : ∀ (m : Map) (i : Nat) (H : Held), Seats H dev i ss →
    Seats (after H (cancelSlots dev rect m i ss).2.2) dev i (cancelSlots dev rect m i ss).2.1 := by
  induction ss with
  | nil => intro m i H h j s hj; simp [cancelSlots] at hj
  | cons s0 ss ih =>
    intro m i H h j s hj
    simp only [cancelSlots] at hj ⊢
    rw [after_append]
    cases j with
    | zero =>
      simp at hj
      subst hj
      rw [after_other]
      · have h0 := h 0 s0 rfl
        split
        · cases hs : s0.seat with
          | none => rw [hs] at h0; exact h0
          | some v => simp [finish, after, put_get]
        · exact h0
      · intro ⟨e, he, ek⟩
        obtain ⟨j', hj', e2⟩ := cancelSlots_from dev rect ss _ _ e he
        rw [e2] at ek
        simp at ek
        omega
    | succ j =>
      simp only [List.getElem?_cons_succ] at hj
      have := ih _ (i + 1) (after H (if rect.all (·.has s0.point) then
          ((finish m s0.seat (.cancel (dev, some i))).1, { s0 with seat := (finish m s0.seat (.cancel (dev, some i))).2.1 },
            (finish m s0.seat (.cancel (dev, some i))).2.2) else (m, s0, [])).2.2) (by
          intro j' s' hj'
          rw [after_other]
          · have := h (j' + 1) s' (by simpa using hj')
            rw [← this]; congr 3; omega
          · intro ⟨e, he, ek⟩
            split at he
            · rw [cancel_keys _ _ _ e he] at ek
              simp at ek
              omega
            · simp at he) j s hj
      rw [← this]; congr 3; omega

theorem cancel_seats {H : Held} {d : Dev} (dev : Nat) (h : Seats H dev 0 d.slots) (m : Map) (rect : Option Rect) :
    Seats (after H (cancelTouches d m dev rect).2.2) dev 0 (cancelTouches d m dev rect).2.1.slots := by
  unfold cancelTouches
  dsimp only
  rw [after_append, after_append]
  intro j s hj
  rw [after_other]
  · refine cancelSlots_seats dev rect d.slots _ 0 _ ?_ j s hj
    intro j' s' hj'
    rw [after_other]
    · exact h j' s' hj'
    · intro ⟨e, he, ek⟩
      split at he
      · rw [cancel_keys _ _ _ e he] at ek; simp at ek
      · simp at he
  · intro ⟨e, he, ek⟩
    rw [mem_frame he] at ek; simp [key] at ek

theorem modify_seats {H : Held} {dev : Nat} {ss : List Slot} (h : Seats H dev 0 ss) (c : Nat) (f : Slot → Slot) (hf : ∀ y, (f y).seat = y.seat) :
    Seats H dev 0 (ss.modify c f) := by
  intro j s hj
  rw [List.getElem?_modify] at hj
  cases e : ss[j]? with
  | none => rw [e] at hj; simp at hj
  | some y =>
    rw [e] at hj
    simp at hj
    rw [h j y e, ← hj]
    split
    · exact (hf y).symm
    · rfl

theorem process_seats {H : Held} {dev : Nat} {d : Dev} (h : Seats H dev 0 d.slots) (op : TouchSlots.Op) :
    Seats H dev 0 (processTouch d op).slots := by
  cases op with
  | tracking v b =>
    simp only [processTouch]
    split <;> exact modify_seats h d.cur _ (fun _ => rfl)
  | mtX v => exact modify_seats h d.cur _ (fun _ => rfl)
  | mtY v => exact modify_seats h d.cur _ (fun _ => rfl)
  | tool b => exact modify_seats h d.cur _ (fun _ => rfl)
  | _ => exact h

theorem devStep_seats {H : Held} {d : Dev} (hm : Mt d) (dev : Nat) (h : Seats H dev 0 d.slots) (m : Map) (op : TouchSlots.Op) :
    Seats (after H (devStep d m dev op).2.2) dev 0 (devStep d m dev op).2.1.slots := by
  cases op with
  | arbitration which r =>
    simp only [devStep]
    split
    · exact h
    · split
      · exact h
      · exact cancel_seats dev h m (some r)
      · exact cancel_seats dev h m none
  | updateRect => exact h
  | suspend => exact cancel_seats dev h m none
  | timeout => simp only [devStep]; split <;> exact h
  | syn =>
    simp only [devStep]
    split
    · exact h
    · rw [handleState_slots]
      unfold handleState
      rw [flushSt_quiet d m dev hm.down hm.up hm.motion]
      dsimp only
      intro j s hj
      split at hj <;> rename_i hp
      · rw [if_pos hp, after_append, after_other]
        · exact flushSlots_seats _ dev d.slots m 0 false H h j s hj
        · intro ⟨e, he, ek⟩
          rw [mem_frame2 he] at ek; simp [key] at ek
      · rw [if_neg hp]
        exact h j s hj
  | touch v => simp only [devStep, hm.mt, if_true]; split <;> exact h
  | absX v => simp only [devStep, hm.mt, if_true]; split <;> exact h
  | absY v => simp only [devStep, hm.mt, if_true]; split <;> exact h
  | slot v => simp only [devStep, hm.mt, if_true]; split <;> exact h
  | tracking v b =>
    simp only [devStep, hm.mt, if_true]
    split
    · exact h
    · exact process_seats h (.tracking v b)
  | mtX v =>
    simp only [devStep, hm.mt, if_true]
    split
    · exact h
    · exact process_seats h (.mtX v)
  | mtY v =>
    simp only [devStep, hm.mt, if_true]
    split
    · exact h
    · exact process_seats h (.mtY v)
  | tool b =>
    simp only [devStep, hm.mt, if_true]
    split
    · exact h
    · exact process_seats h (.tool b)

end Libinput.Hand
