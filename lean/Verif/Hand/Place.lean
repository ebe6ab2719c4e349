import Verif.Hand.Life
/-!
Steps of the tablet as steps of the touch screen, and where the fingers are.
-/
namespace Libinput.Hand
open Libinput.TouchSlots Libinput.TouchSlots.Spec Spec

/-- What steps of the touch screen keep, steps of the tablet keep. -/
theorem step_lift (T S : Axes) {P : Dev → List Ev → Prop} (s : St) (op : Op) (es : List Ev) (h : P s.dev es)
    (ha : ∀ d m es w r, P d es → P (devStep d m 0 (.arbitration w r)).2.1 (es ++ (devStep d m 0 (.arbitration w r)).2.2))
    (hr : ∀ d m es r, P d es → P (devStep d m 0 (.updateRect r)).2.1 (es ++ (devStep d m 0 (.updateRect r)).2.2))
    (ho : ∀ o, op = .touch o → Own o → P (devStep s.dev s.map 0 o).2.1 (es ++ (devStep s.dev s.map 0 o).2.2)) :
    P (step T S s op).1.dev (es ++ (step T S s op).2) := by
  have nil : P s.dev (es ++ []) := by rw [List.append_nil]; exact h
  cases op with
  | elsewhere m => exact nil
  | leave => exact ha s.dev s.map es _ _ h
  | pen p t =>
    have a : P (updateRect T S s p t).1.dev (es ++ (updateRect T S s p t).2) := by
      unfold updateRect
      split
      · exact nil
      · exact hr s.dev s.map es _ h
    show P (toggle T S (updateRect T S s p t).1 p t).1.dev (es ++ ((updateRect T S s p t).2 ++ (toggle T S (updateRect T S s p t).1 p t).2))
    rw [← List.append_assoc]
    generalize (updateRect T S s p t).1 = s' at a ⊢
    generalize es ++ (updateRect T S s p t).2 = es' at a ⊢
    unfold toggle
    split
    · exact ha s'.dev s'.map es' _ _ a
    · split
      · exact ha s'.dev s'.map es' _ _ a
      · rw [List.append_nil]; exact a
  | touch o =>
    cases o <;> first | exact nil | exact ho _ rfl trivial

/-! ## The seat slots -/

theorem step_seats {T S : Axes} {H : Held} {s : St} {w : Pen} (hw : Agree T S w s) (h : Seats H 0 0 s.dev.slots) (op : Op) :
    Seats (after H (step T S s op).2) 0 0 (step T S s op).1.dev.slots := by
  have := step_lift T S (P := fun d es => Mt d ∧ Seats (after H es) 0 0 d.slots) s op [] ⟨hw.scr, h⟩
    (fun d m es w r hp => ⟨(set_mt hp.1 m 0 w r).1, by rw [after_append]; exact devStep_seats hp.1 0 hp.2 m _⟩)
    (fun d m es r hp => ⟨⟨hp.1.mt, hp.1.down, hp.1.up, hp.1.motion, hp.1.all⟩, by rw [after_append]; exact devStep_seats hp.1 0 hp.2 m _⟩)
    (fun o _ ho => ⟨(own_step hw.scr s.map 0 ho).1, by rw [after_append]; exact devStep_seats hw.scr 0 h s.map _⟩)
  exact this.2

theorem run_seats {T S : Axes} (ops : List Op) : ∀ {H : Held} {s : St} {w : Pen}, Agree T S w s → Seats H 0 0 s.dev.slots →
    Seats (after H (run T S s ops).2) 0 0 (run T S s ops).1.dev.slots := by
  induction ops with
  | nil => intro H s w _ h; exact h
  | cons op ops ih =>
    intro H s w hw h
    simp only [run]
    rw [after_append]
    exact ih (step_agree hw op) (step_seats hw h op)

theorem start_seats (n cur : Nat) (hp : Bool) (hy : Option (Pt → Pt → Pt)) : Seats nothing 0 0 (start n cur hp hy).dev.slots := by
  intro j s hj
  simp only [start, newDev, List.getElem?_replicate] at hj
  split at hj
  · simp at hj; subst hj; rfl
  · cases hj

/-! ## Ignored fingers -/

theorem step_dead {T S : Axes} {i : Nat} {s : St} {w : Pen} (hw : Agree T S w s) (h : Dead i s.dev) (op : Op)
    (hn : ∀ v b, op = .touch (.tracking v b) → 0 ≤ v → s.dev.cur ≠ i) :
    Dead i (step T S s op).1.dev ∧ ¬ About (step T S s op).2 (0, some i) := by
  have app : ∀ {a b : List Ev}, ¬ About a (0, some i) → ¬ About b (0, some i) → ¬ About (a ++ b) (0, some i) := by
    intro a b ha hb ⟨e, he, ek⟩
    rcases List.mem_append.mp he with h | h
    · exact ha ⟨e, h, ek⟩
    · exact hb ⟨e, h, ek⟩
  have no : ¬ About [] (0, some i) := by simp [About]
  have := step_lift T S (P := fun d es => Mt d ∧ Dead i d ∧ ¬ About es (0, some i)) s op [] ⟨hw.scr, h, no⟩
    (fun d m es w r hp =>
      have q := devStep_dead hp.2.1 hp.1 m 0 (.arbitration w r) (fun _ _ c => (by cases c))
      ⟨(set_mt hp.1 m 0 w r).1, q.1, app hp.2.2 q.2⟩)
    (fun d m es r hp =>
      have q := devStep_dead hp.2.1 hp.1 m 0 (.updateRect r) (fun _ _ c => (by cases c))
      ⟨⟨hp.1.mt, hp.1.down, hp.1.up, hp.1.motion, hp.1.all⟩, q.1, app hp.2.2 q.2⟩)
    (fun o e ho =>
      have q := devStep_dead h hw.scr s.map 0 o (fun v b c => hn v b (by rw [e, c]))
      ⟨(own_step hw.scr s.map 0 ho).1, q.1, app no q.2⟩)
  exact this.2

theorem Fol.cur {n c : Nat} {k : Bool} {d : Dev} (h : Fol n c k d) : d.cur = c := by
  obtain ⟨w, f, _, _, h3, _⟩ := h; exact f.cur.trans h3

theorem run_dead {T S : Axes} {n : Nat} {i : Nat} (ops : List Op) : ∀ {c : Nat} {k : Bool} {s : St} {w : Pen}, Agree T S w s → Fol n c k s.dev →
    NeverUpright ops → InRange n ops → NoNew i c ops → Dead i s.dev → ¬ About (run T S s ops).2 (0, some i) := by
  induction ops with
  | nil => intro c k s w _ _ _ _ _ _; simp [run, About]
  | cons op ops ih =>
    intro c k s w hw hf hu hr hn hd
    obtain ⟨hn1, hn2⟩ := hn
    obtain ⟨d1, d2⟩ := step_dead hw hd op (fun v b e h0 => by rw [hf.cur]; exact hn1 v b e h0)
    have r := ih (step_agree hw op) (step_fol (T := T) (S := S) hf op (hu op List.mem_cons_self) (hr op List.mem_cons_self))
      (fun o ho => hu o (List.mem_cons_of_mem _ ho)) (fun o ho => hr o (List.mem_cons_of_mem _ ho)) hn2 d1
    simp only [run]
    intro ⟨e, he, ek⟩
    rcases List.mem_append.mp he with h | h
    · exact d2 ⟨e, h, ek⟩
    · exact r ⟨e, h, ek⟩

/-! ## Where fingers are -/

/-- Slot `i` is at `q`, on a screen without hysteresis, which moves the stored point. -/
def At (i : Nat) (q : Pt) (d : Dev) : Prop := d.hyst = none ∧ ∃ y : Slot, d.slots[i]? = some y ∧ y.point = q

theorem flushSlot_point (d : Dev) (m : Map) (k : Key) (s : Slot) (b : Bool) (hy : d.hyst = none) :
    (flushSlot d m k s b).2.1.point = s.point := by
  have mo : ∀ s : Slot, (TouchSlots.motion d s k).1.point = s.point := by
    intro s
    unfold TouchSlots.motion defuzz
    split
    · rfl
    · rw [hy]; rfl
  unfold flushSlot
  split
  · rfl
  · dsimp only
    cases hp : s.palm <;> dsimp only
    · cases hs : s.state <;> dsimp only
      · split <;> rfl
      · exact mo _
    · split <;> rfl

theorem cancel_at {i : Nat} {q : Pt} {d : Dev} (h : At i q d) (m : Map) (dev : Nat) (rect : Option Rect) :
    At i q (cancelTouches d m dev rect).2.1 := by
  obtain ⟨hh, y, hy, hp⟩ := h
  unfold cancelTouches
  dsimp only
  obtain ⟨v, h1, _⟩ := (cancelSlots_get dev rect d.slots _ 0).2 i y hy
  exact ⟨hh, _, h1, hp⟩

theorem modify_at {i : Nat} {q : Pt} {d : Dev} (h : At i q d) (c : Nat) (b : Bool) (f : Slot → Slot) (g : Pt → Pt) (hf : ∀ y, (f y).point = g y.point) :
    At i (if c = i then g q else q) { d with slots := d.slots.modify c f, pMt := b } := by
  obtain ⟨hh, y, hy, hp⟩ := h
  by_cases e : c = i
  · subst e
    exact ⟨hh, f y, by simp [List.getElem?_modify, hy], by rw [hf, hp, if_pos rfl]⟩
  · exact ⟨hh, y, by simp [List.getElem?_modify, hy, e], by rw [if_neg e]; exact hp⟩

/-- An event of the touch screen moves the finger it is about. -/
theorem own_at {i : Nat} {q : Pt} {d : Dev} (h : At i q d) (live : d.inArb = false) (mt : d.isMt = true) (m : Map) (dev : Nat) (op : TouchSlots.Op) :
    At i (place i d.cur q [.touch op]) (devStep d m dev op).2.1 := by
  have same : ∀ f : Slot → Slot, (∀ y, (f y).point = y.point) → At i q { d with slots := d.slots.modify d.cur f, pMt := true } := by
    intro f hf
    have := modify_at h d.cur true f id hf
    simpa using this
  cases op with
  | suspend => exact cancel_at h m dev none
  | timeout => simp only [devStep]; split <;> exact h
  | updateRect r => exact h
  | arbitration w r =>
    simp only [devStep]
    split
    · exact h
    · split
      · exact h
      · exact cancel_at h m dev _
      · exact cancel_at h m dev _
  | syn =>
    simp only [devStep, live]
    obtain ⟨hh, y, hy, hp⟩ := h
    show (handleState d m dev).2.1.hyst = none ∧ ∃ y, (handleState d m dev).2.1.slots[i]? = some y ∧ y.point = q
    obtain ⟨v, ss, e⟩ := handle_shape d m dev
    refine ⟨by rw [e]; exact hh, ?_⟩
    rw [handleState_slots]
    split
    · obtain ⟨m', b', h1, _⟩ := (flushSlots_get { d with seat := (flushSt d m dev).2.1 } dev d.slots (flushSt d m dev).1 0 false).2 i y hy
      exact ⟨_, h1, (flushSlot_point { d with seat := (flushSt d m dev).2.1 } _ _ _ _ hh).trans hp⟩
    · exact ⟨y, hy, hp⟩
  | touch v => simp only [devStep, live, mt]; exact h
  | absX v => simp only [devStep, live, mt]; exact h
  | absY v => simp only [devStep, live, mt]; exact h
  | slot v => simp only [devStep, live, mt]; exact h
  | tracking v b =>
    simp only [devStep, live, mt, processTouch]
    show At i q (if _ then _ else _)
    split <;> exact same _ (fun _ => rfl)
  | mtX v =>
    simp only [devStep, live, mt, processTouch]
    exact modify_at h d.cur true _ (fun q => (v, q.2)) (fun _ => rfl)
  | mtY v =>
    simp only [devStep, live, mt, processTouch]
    exact modify_at h d.cur true _ (fun q => (q.1, v)) (fun _ => rfl)
  | tool b =>
    simp only [devStep, live, mt, processTouch]
    exact same _ (fun _ => rfl)

theorem Fol.live {n c : Nat} {k : Bool} {d : Dev} (h : Fol n c k d) : d.inArb = false := by
  obtain ⟨w, f, _⟩ := h; exact f.live

theorem Fol.mt {n c : Nat} {k : Bool} {d : Dev} (h : Fol n c k d) : d.isMt = true := by
  obtain ⟨w, f, h1, _⟩ := h; exact f.isMt.trans h1

theorem Fol.len {n c : Nat} {k : Bool} {d : Dev} (h : Fol n c k d) : d.slots.length = n := by
  obtain ⟨w, f, _, h2, _⟩ := h; exact f.n.trans h2

theorem step_at {T S : Axes} {n c : Nat} {k : Bool} {s : St} (hf : Fol n c k s.dev) {i : Nat} {q : Pt} (h : At i q s.dev) (op : Op) :
    At i (place i c q [op]) (step T S s op).1.dev := by
  by_cases own : ∃ o, op = .touch o
  · obtain ⟨o, rfl⟩ := own
    have := own_at h hf.live hf.mt s.map 0 o
    rw [hf.cur] at this
    cases o <;> first | exact h | exact this
  · have e : place i c q [op] = q := by
      cases op with
      | touch o => exact absurd ⟨o, rfl⟩ own
      | _ => rfl
    rw [e]
    have arb : ∀ (d : Dev) (m : Map) (w : Arb) (r : Rect), At i q d → At i q (devStep d m 0 (.arbitration w r)).2.1 := by
      intro d m w r h
      simp only [devStep]
      split
      · exact h
      · split
        · exact h
        · exact cancel_at h m 0 _
        · exact cancel_at h m 0 _
    exact step_lift T S (P := fun d _ => At i q d) s op [] h (fun d m es w r hp => arb d m w r hp)
      (fun d m es r hp => hp) (fun o e _ => absurd ⟨o, e⟩ own)

theorem place_cons (i c : Nat) (q : Pt) (op : Op) (ops : List Op) :
    place i c q (op :: ops) = place i (current c [op]) (place i c q [op]) ops := by
  cases op with
  | touch o => cases o <;> rfl
  | _ => rfl

theorem run_at {T S : Axes} {n : Nat} {i : Nat} (ops : List Op) : ∀ {c : Nat} {k : Bool} {s : St} {q : Pt}, Fol n c k s.dev → NeverUpright ops →
    InRange n ops → At i q s.dev → At i (place i c q ops) (run T S s ops).1.dev := by
  induction ops with
  | nil => intro c k s q _ _ _ h; exact h
  | cons op ops ih =>
    intro c k s q hf hu hr h
    rw [place_cons]
    exact ih (step_fol (T := T) (S := S) hf op (hu op List.mem_cons_self) (hr op List.mem_cons_self))
      (fun o ho => hu o (List.mem_cons_of_mem _ ho)) (fun o ho => hr o (List.mem_cons_of_mem _ ho)) (step_at hf h op)

theorem start_at {n cur i : Nat} (hi : i < n) (hp : Bool) : At i (0, 0) (start n cur hp none).dev :=
  ⟨rfl, ⟨false, .none, none, (0, 0), (0, 0), .none⟩, by simp [start, newDev, List.getElem?_replicate, hi], rfl⟩

/-! ## The pen arrives -/

/-- A touch in the area is cancelled; others are left alone. -/
theorem cancelSlots_exact (dev : Nat) (r : Rect) (ss : List Slot) : ∀ (m : Map) (i j : Nat) (y : Slot), ss[j]? = some y →
    (∀ t, y.seat = some t → r.has y.point = true → .cancel (dev, some (i + j)) t ∈ (cancelSlots dev (some r) m i ss).2.2) ∧
    (r.has y.point = false → ¬ About (cancelSlots dev (some r) m i ss).2.2 (dev, some (i + j))) := by
  induction ss with
  | nil => intro m i j y h; simp at h
  | cons s ss ih =>
    intro m i j y h
    simp only [cancelSlots]
    cases j with
    | zero =>
      simp at h
      subst h
      constructor
      · intro t ht hp
        simp [hp, finish, ht]
      · intro hp ⟨e, he, ek⟩
        rw [if_neg (by simp [hp])] at he
        simp only [List.nil_append] at he
        obtain ⟨j, h1, h2⟩ := cancelSlots_from dev (some r) ss _ (i + 1) e he
        rw [h2] at ek
        simp at ek
        omega
    | succ j =>
      simp at h
      have e : i + (j + 1) = i + 1 + j := by omega
      rw [e]
      constructor
      · intro t ht hp
        exact List.mem_append_right _ ((ih _ (i + 1) j y h).1 t ht hp)
      · intro hp ⟨e, he, ek⟩
        rcases List.mem_append.mp he with he | he
        · split at he
          · have := cancel_keys _ _ _ e he
            rw [this] at ek
            simp at ek
            omega
          · simp at he
        · exact (ih _ (i + 1) j y h).2 hp ⟨e, he, ek⟩

end Libinput.Hand
