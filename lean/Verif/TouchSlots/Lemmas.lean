import Verif.TouchSlots.Spec
namespace Libinput.TouchSlots
open Spec

theorem after_append (h : Held) (a b : List Ev) : after h (a ++ b) = after (after h a) b := by
  induction a generalizing h with
  | nil => rfl
  | cons e a ih => cases e <;> simp [after, ih]

theorem valid_append {h : Held} {a b : List Ev} : Valid h (a ++ b) ↔ Valid h a ∧ Valid (after h a) b := by
  induction a generalizing h with
  | nil => simp [Valid, after]
  | cons e a ih => cases e <;> simp [Valid, after, ih, and_assoc]

/-- The seat's bitmap and the touches that are down agree. -/
structure Ok (m : Map) (h : Held) : Prop where
  inj : ∀ k k' i, h k = some i → h k' = some i → k = k'
  lt : ∀ k i, h k = some i → i < 32
  bit : ∀ i, i < 32 → (m.getLsbD i = true ↔ ∃ k, h k = some i)

theorem setBit_get (m : Map) (i j : Nat) (hi : i < 32) (hj : j < 32) :
    (setBit m i).getLsbD j = (m.getLsbD j || decide (j = i)) := by
  simp only [setBit, BitVec.getLsbD_or, BitVec.getLsbD_shiftLeft, BitVec.getLsbD_one]
  rcases Nat.lt_trichotomy j i with h | h | h <;> simp [hj] <;> grind

theorem clearBit_get (m : Map) (i j : Nat) (hi : i < 32) (hj : j < 32) :
    (clearBit m i).getLsbD j = (m.getLsbD j && decide (j ≠ i)) := by
  simp only [clearBit, BitVec.getLsbD_and, BitVec.getLsbD_not, BitVec.getLsbD_shiftLeft, BitVec.getLsbD_one]
  rcases Nat.lt_trichotomy j i with h | h | h <;> simp [hj] <;> grind

theorem firstFree_some {m : Map} {i : Nat} (h : firstFree m = some i) :
    i < 32 ∧ m.getLsbD i = false ∧ ∀ j, j < i → m.getLsbD j = true := by
  unfold firstFree at h
  rw [List.find?_range_eq_some] at h
  obtain ⟨h1, h2, h3⟩ := h
  simp at h1 h2 h3
  exact ⟨h2, h1, h3⟩

theorem firstFree_none {m : Map} (h : firstFree m = none) : ∀ j, j < 32 → m.getLsbD j = true := by
  unfold firstFree at h
  simpa using h

theorem put_self (h : Held) (k : Key) : h.put k (h k) = h := by
  funext k'; simp only [Held.put]; split <;> simp_all

theorem put_get (h : Held) (k : Key) (v : Option Nat) : h.put k v k = v := by simp [Held.put]

theorem put_ne (h : Held) {k k' : Key} (v : Option Nat) (hk : k' ≠ k) : h.put k v k' = h k' := by
  simp [Held.put, hk]

theorem Ok.empty : Ok 0#32 nothing := ⟨by simp [nothing], by simp [nothing], by simp [nothing]⟩

/-- Events that turn the map `m` and the touches `h` into `m'` and `h'`. -/
structure Good (m : Map) (h : Held) (es : List Ev) (m' : Map) (h' : Held) : Prop where
  ok : Ok m' h'
  valid : Valid h es
  eq : after h es = h'

theorem Good.refl {m : Map} {h : Held} (ok : Ok m h) : Good m h [] m h := ⟨ok, trivial, rfl⟩

theorem Good.trans {m m' m'' : Map} {h h' h'' : Held} {a b : List Ev} (g : Good m h a m' h')
    (g' : Good m' h' b m'' h'') : Good m h (a ++ b) m'' h'' := by
  refine ⟨g'.ok, ?_, ?_⟩
  · rw [valid_append, g.eq]; exact ⟨g.valid, g'.valid⟩
  · rw [after_append, g.eq, g'.eq]

theorem Good.frame {m m' : Map} {h h' : Held} {a : List Ev} (g : Good m h a m' h') (dev : Nat) :
    Good m h (a ++ [.frame dev]) m' h' :=
  g.trans ⟨g.ok, by simp [Valid], by simp [after]⟩

theorem down_good {m : Map} {h : Held} (ok : Ok m h) (k : Key) (p : Pt) :
    Good m h (down m (h k) k p).2.2 (down m (h k) k p).1 (h.put k (down m (h k) k p).2.1) := by
  unfold down
  cases hk : h k with
  | some i => simp only [← hk, put_self]; exact .refl ok
  | none =>
    cases hf : firstFree m with
    | none => simp only [← hk, put_self]; exact .refl ok
    | some i =>
      obtain ⟨hi, hfree, hlow⟩ := firstFree_some hf
      have hun : ∀ k', h k' ≠ some i := by
        intro k' hk'
        have := (ok.bit i hi).2 ⟨k', hk'⟩
        simp [hfree] at this
      refine ⟨⟨?_, ?_, ?_⟩, ?_, rfl⟩
      · intro a b j ha hb
        simp only [Held.put] at ha hb
        split at ha <;> split at hb
        · simp_all
        · simp at ha; subst ha; exact absurd hb (hun _)
        · simp at hb; subst hb; exact absurd ha (hun _)
        · exact ok.inj a b j ha hb
      · intro a j ha
        simp only [Held.put] at ha
        split at ha
        · simp at ha; omega
        · exact ok.lt a j ha
      · intro j hj
        rw [setBit_get m i j hi hj]
        simp only [Held.put]
        constructor
        · intro hb
          by_cases hji : j = i
          · exact ⟨k, by simp [hji]⟩
          · simp [hji] at hb
            obtain ⟨k', hk'⟩ := (ok.bit j hj).1 hb
            refine ⟨k', ?_⟩
            have : k' ≠ k := by intro e; rw [e, hk] at hk'; cases hk'
            simp [this, hk']
        · rintro ⟨k', hk'⟩
          split at hk'
          · simp at hk'; simp [hk']
          · simp [(ok.bit j hj).2 ⟨k', hk'⟩]
      · simp only [Valid, and_true]
        exact ⟨hk, hi, hun, fun j hj => (ok.bit j (by omega)).1 (hlow j hj)⟩

theorem clear_ok {m : Map} {h : Held} (ok : Ok m h) {k : Key} {i : Nat} (hk : h k = some i) :
    Ok (clearBit m i) (h.put k none) := by
  have hi := ok.lt k i hk
  refine ⟨?_, ?_, ?_⟩
  · intro a b j ha hb
    simp only [Held.put] at ha hb
    split at ha
    · cases ha
    · split at hb
      · cases hb
      · exact ok.inj a b j ha hb
  · intro a j ha
    simp only [Held.put] at ha
    split at ha
    · cases ha
    · exact ok.lt a j ha
  · intro j hj
    rw [clearBit_get m i j hi hj]
    simp only [Held.put, Bool.and_eq_true, decide_eq_true_eq, ok.bit j hj]
    constructor
    · rintro ⟨⟨k', hk'⟩, hne⟩
      refine ⟨k', ?_⟩
      have : k' ≠ k := by intro e; rw [e, hk] at hk'; simp at hk'; omega
      simp [this, hk']
    · rintro ⟨k', hk'⟩
      split at hk'
      · cases hk'
      · refine ⟨⟨k', hk'⟩, ?_⟩
        intro e; subst e
        exact absurd (ok.inj k' k j hk' hk) ‹_›

theorem up_good {m : Map} {h : Held} (ok : Ok m h) (k : Key) :
    Good m h (finish m (h k) (.up k)).2.2 (finish m (h k) (.up k)).1 (h.put k (finish m (h k) (.up k)).2.1) := by
  unfold finish
  cases hk : h k with
  | none => simp only [← hk, put_self]; exact .refl ok
  | some i => exact ⟨clear_ok ok hk, by simp [Valid, hk], rfl⟩

theorem cancel_good {m : Map} {h : Held} (ok : Ok m h) (k : Key) :
    Good m h (finish m (h k) (.cancel k)).2.2 (finish m (h k) (.cancel k)).1
      (h.put k (finish m (h k) (.cancel k)).2.1) := by
  unfold finish
  cases hk : h k with
  | none => simp only [← hk, put_self]; exact .refl ok
  | some i => exact ⟨clear_ok ok hk, by simp [Valid, hk], rfl⟩

theorem defuzz_seat (d : Dev) (s : Slot) : (defuzz d s).1.seat = s.seat := by
  unfold defuzz; cases d.hyst with
  | none => rfl
  | some f => dsimp only; split <;> rfl

theorem motion_seat (d : Dev) (s : Slot) (k : Key) : (motion d s k).1.seat = s.seat := by
  unfold motion; split
  · rfl
  · dsimp only; split <;> exact defuzz_seat d s

theorem motion_good {m : Map} {h : Held} (ok : Ok m h) (d : Dev) (s : Slot) (k : Key) (hk : h k = s.seat) :
    Good m h (motion d s k).2 m h := by
  unfold motion
  split
  · exact .refl ok
  · rename_i i hi
    dsimp only
    split
    · exact .refl ok
    · exact ⟨ok, by simp [Valid, hk, hi], rfl⟩

theorem flushSlot_good {m : Map} {h : Held} (ok : Ok m h) (d : Dev) (k : Key) (s : Slot) (sent : Bool)
    (hk : h k = s.seat) :
    Good m h (flushSlot d m k s sent).2.2.1 (flushSlot d m k s sent).1
      (h.put k (flushSlot d m k s sent).2.1.seat) := by
  have hself : Good m h [] m (h.put k s.seat) := by rw [← hk, put_self]; exact .refl ok
  unfold flushSlot
  split
  · exact hself
  · dsimp only
    cases hp : s.palm <;> dsimp only
    · cases hs : s.state <;> dsimp only
      · exact hself
      · split
        · exact hself
        · simp only [← hk]; exact down_good ok k s.point
      · rw [motion_seat]
        have := motion_good ok d { s with dirty := false, state := .update, palm := .none } k hk
        rw [hk.symm.trans rfl] at this
        simpa only [← hk, put_self] using this
      · simp only [← hk]; exact up_good ok k
    · split
      · exact hself
      · simp only [← hk]; exact cancel_good ok k
    · exact hself
    · exact hself

/-- The touches of one device's slots from number `i` on. -/
def Held.slots (h : Held) (dev i : Nat) (ss : List Slot) : Held := fun k =>
  match k with
  | (e, some n) => if e = dev ∧ i ≤ n then (ss[n - i]?).bind (·.seat) else h k
  | (_, none) => h k

theorem slots_nil (h : Held) (dev i : Nat) (hh : ∀ n, i ≤ n → h (dev, some n) = none) :
    Held.slots h dev i [] = h := by
  funext ⟨e, n⟩
  cases n with
  | none => rfl
  | some n => simp only [Held.slots]; split
              · rename_i hc; rw [hc.1]; simp [hh n hc.2]
              · rfl

theorem slots_cons (h : Held) (dev i : Nat) (s : Slot) (ss : List Slot) :
    Held.slots h dev i (s :: ss) = Held.slots (h.put (dev, some i) s.seat) dev (i + 1) ss := by
  funext ⟨e, n⟩
  cases n with
  | none => simp [Held.slots, Held.put]
  | some n =>
    simp only [Held.slots, Held.put]
    by_cases he : e = dev
    · subst he
      rcases Nat.lt_trichotomy n i with h1 | h1 | h1
      · have : ¬ i ≤ n := by omega
        have h2 : ¬ i + 1 ≤ n := by omega
        simp [this, h2]; intro hc; omega
      · subst h1
        have h2 : ¬ n + 1 ≤ n := by omega
        simp [h2]
      · have : i ≤ n := by omega
        have h2 : i + 1 ≤ n := by omega
        have h3 : n - i = (n - (i + 1)) + 1 := by omega
        simp [this, h2, h3]
    · simp [he]

theorem slots_shift {h : Held} {dev i : Nat} {s : Slot} {ss : List Slot} (v : Option Nat)
    (hh : ∀ n, i ≤ n → h (dev, some n) = ((s :: ss)[n - i]?).bind (·.seat)) :
    ∀ n, i + 1 ≤ n → (h.put (dev, some i) v) (dev, some n) = (ss[n - (i + 1)]?).bind (·.seat) := by
  intro n hn
  rw [put_ne _ _ (by intro e; simp at e; omega), hh n (by omega)]
  have h3 : n - i = (n - (i + 1)) + 1 := by omega
  simp [h3]

theorem flushSlots_good (d : Dev) (dev : Nat) (ss : List Slot) :
    ∀ (m : Map) (h : Held) (i : Nat) (sent : Bool), Ok m h →
      (∀ n, i ≤ n → h (dev, some n) = (ss[n - i]?).bind (·.seat)) →
      Good m h (flushSlots d dev m i ss sent).2.2.1 (flushSlots d dev m i ss sent).1
        (Held.slots h dev i (flushSlots d dev m i ss sent).2.1) := by
  induction ss with
  | nil =>
    intro m h i sent ok hh
    simp only [flushSlots]
    rw [slots_nil h dev i (by simpa using hh)]
    exact .refl ok
  | cons s ss ih =>
    intro m h i sent ok hh
    simp only [flushSlots]
    have h0 := flushSlot_good ok d (dev, some i) s sent (by simpa using hh i (Nat.le_refl i))
    have h1 := ih _ _ (i + 1) (flushSlot d m (dev, some i) s sent).2.2.2 h0.ok (slots_shift _ hh)
    rw [slots_cons]
    exact h0.trans h1

theorem cancelSlots_good (dev : Nat) (rect : Option Rect) (ss : List Slot) :
    ∀ (m : Map) (h : Held) (i : Nat), Ok m h →
      (∀ n, i ≤ n → h (dev, some n) = (ss[n - i]?).bind (·.seat)) →
      Good m h (cancelSlots dev rect m i ss).2.2 (cancelSlots dev rect m i ss).1
        (Held.slots h dev i (cancelSlots dev rect m i ss).2.1) := by
  induction ss with
  | nil =>
    intro m h i ok hh
    simp only [cancelSlots]
    rw [slots_nil h dev i (by simpa using hh)]
    exact .refl ok
  | cons s ss ih =>
    intro m h i ok hh
    have hs : h (dev, some i) = s.seat := by simpa using hh i (Nat.le_refl i)
    simp only [cancelSlots]
    rw [slots_cons]
    split
    · have h0 := cancel_good ok (dev, some i)
      rw [hs] at h0
      exact h0.trans (ih _ _ (i + 1) h0.ok (slots_shift _ hh))
    · have h0 : Good m h [] m (h.put (dev, some i) s.seat) := by rw [← hs, put_self]; exact .refl ok
      exact h0.trans (ih _ _ (i + 1) h0.ok (slots_shift _ hh))

theorem flushSt_good {m : Map} {h : Held} (ok : Ok m h) (d : Dev) (dev : Nat) (hk : h (dev, none) = d.seat) :
    Good m h (flushSt d m dev).2.2 (flushSt d m dev).1 (h.put (dev, none) (flushSt d m dev).2.1) := by
  have key : ∀ r : Map × Option Nat × List Ev, Good m h r.2.2 r.1 (h.put (dev, none) r.2.1) →
      Good m h (if d.pUp then
        (let r' := finish r.1 r.2.1 (.up (dev, none)); (r'.1, r'.2.1, r.2.2 ++ r'.2.2)) else r).2.2
        (if d.pUp then (let r' := finish r.1 r.2.1 (.up (dev, none)); (r'.1, r'.2.1, r.2.2 ++ r'.2.2)) else r).1
        (h.put (dev, none)
          (if d.pUp then (let r' := finish r.1 r.2.1 (.up (dev, none)); (r'.1, r'.2.1, r.2.2 ++ r'.2.2)) else r).2.1) := by
    intro r g
    split
    · have := up_good g.ok (dev, none)
      rw [put_get] at this
      have e : ∀ v w, (h.put (dev, none) v).put (dev, none) w = h.put (dev, none) w := by
        intro v w; funext k; simp only [Held.put]; split <;> rfl
      rw [e] at this
      exact g.trans this
    · exact g
  unfold flushSt
  refine key _ ?_
  split
  · rw [← hk]; exact down_good ok _ _
  · split
    · split
      · rename_i hs
        have e : h.put (dev, none) none = h := by have := put_self h (dev, none); rwa [hk, hs] at this
        simp only [e]; exact .refl ok
      · rename_i i hs
        have e : h.put (dev, none) (some i) = h := by have := put_self h (dev, none); rwa [hk, hs] at this
        simp only [e]
        exact ⟨ok, by simp [Valid, hk, hs], rfl⟩
    · rw [← hk, put_self]; exact .refl ok

/-- The touches of one device are those in `d`. -/
def Held.dev (h : Held) (dev : Nat) (d : Dev) : Held := fun k =>
  if k.1 = dev then (match k.2 with | none => d.seat | some n => (d.slots[n]?).bind (·.seat)) else h k

theorem dev_eq (h : Held) (dev : Nat) (d : Dev) :
    Held.dev h dev d = Held.slots (h.put (dev, none) d.seat) dev 0 d.slots := by
  funext ⟨e, n⟩
  cases n <;> simp only [Held.dev, Held.slots, Held.put] <;> by_cases he : e = dev <;> simp [he]

theorem dev_get (h : Held) (dev n : Nat) (d : Dev) : Held.dev h dev d (dev, some n) = (d.slots[n]?).bind (·.seat) := by
  simp [Held.dev]

theorem handleState_good {m : Map} {h : Held} (ok : Ok m h) (d : Dev) (dev : Nat) (hd : Held.dev h dev d = h) :
    Good m h (handleState d m dev).2.2 (handleState d m dev).1 (Held.dev h dev (handleState d m dev).2.1) := by
  have hseat : h (dev, none) = d.seat := by rw [← hd]; simp [Held.dev]
  have hslots : ∀ n, h (dev, some n) = (d.slots[n]?).bind (·.seat) := by intro n; rw [← hd]; simp [Held.dev]
  have h0 := flushSt_good ok d dev hseat
  have fr : ∀ (b : Bool) {es m' h'}, Good m h es m' h' → Good m h (es ++ if b then [.frame dev] else []) m' h' := by
    intro b es m' h' g
    cases b
    · simpa using g
    · exact g.frame dev
  unfold handleState
  dsimp only
  split
  · have h1 := flushSlots_good { d with seat := (flushSt d m dev).2.1 } dev d.slots _ _ 0 false h0.ok
      (by intro n _; rw [put_ne _ _ (by simp), hslots]; simp)
    rw [dev_eq]
    exact fr _ (h0.trans h1)
  · rw [dev_eq]
    refine fr _ ?_
    have e : Held.slots (h.put (dev, none) (flushSt d m dev).2.1) dev 0 d.slots =
        h.put (dev, none) (flushSt d m dev).2.1 := ?_
    · rw [← e] at h0; exact h0
    funext ⟨e, n⟩
    cases n with
    | none => simp [Held.slots]
    | some n =>
      simp only [Held.slots]
      split
      · rename_i hc
        rw [hc.1, put_ne _ _ (by simp), hslots]; simp
      · rfl

theorem cancelTouches_good {m : Map} {h : Held} (ok : Ok m h) (d : Dev) (dev : Nat) (rect : Option Rect)
    (hd : Held.dev h dev d = h) :
    Good m h (cancelTouches d m dev rect).2.2 (cancelTouches d m dev rect).1
      (Held.dev h dev (cancelTouches d m dev rect).2.1) := by
  have hseat : h (dev, none) = d.seat := by rw [← hd]; simp [Held.dev]
  have hslots : ∀ n, h (dev, some n) = (d.slots[n]?).bind (·.seat) := by intro n; rw [← hd]; simp [Held.dev]
  have key : ∀ r : Map × Option Nat × List Ev, Good m h r.2.2 r.1 (h.put (dev, none) r.2.1) →
      Good m h (r.2.2 ++ (cancelSlots dev rect r.1 0 d.slots).2.2)
        (cancelSlots dev rect r.1 0 d.slots).1
        (Held.dev h dev { d with seat := r.2.1, slots := (cancelSlots dev rect r.1 0 d.slots).2.1 }) := by
    intro r g
    rw [dev_eq]
    exact g.trans (cancelSlots_good dev rect d.slots _ _ 0 g.ok
      (by intro n _; rw [put_ne _ _ (by simp), hslots]; simp))
  have key' := key (if rect.all (·.has d.point) then finish m d.seat (.cancel (dev, none)) else (m, d.seat, []))
    (by
      split
      · rw [← hseat]; exact cancel_good ok _
      · rw [← hseat, put_self]; exact .refl ok)
  unfold cancelTouches
  generalize (if rect.all (·.has d.point) then finish m d.seat (.cancel (dev, none)) else (m, d.seat, [])) = r at key'
  dsimp only
  split
  · simpa using key'
  · exact key'.frame dev

theorem modify_seat (ss : List Slot) (i n : Nat) (f : Slot → Slot) (hf : ∀ s, (f s).seat = s.seat) :
    ((ss.modify i f)[n]?).bind (·.seat) = (ss[n]?).bind (·.seat) := by
  rw [List.getElem?_modify]
  split <;> cases ss[n]? <;> simp [hf]

theorem modify_held (h : Held) (dev : Nat) (d : Dev) (f : Slot → Slot) (hf : ∀ s, (f s).seat = s.seat) :
    Held.dev h dev (d.modify f) = Held.dev h dev d := by
  funext ⟨e, n⟩
  cases n with
  | none => rfl
  | some n => simp only [Held.dev, Dev.modify, modify_seat _ _ _ _ hf]

theorem processTouch_held (h : Held) (dev : Nat) (d : Dev) (op : Op) :
    Held.dev h dev (processTouch d op) = Held.dev h dev d := by
  unfold processTouch
  cases op with
  | tracking v t =>
    dsimp only
    split <;> exact modify_held h dev { d with pMt := true } _ (fun _ => rfl)
  | _ => first | rfl | exact modify_held h dev { d with pMt := true } _ (fun _ => rfl)

theorem devStep_good {m : Map} {h : Held} (ok : Ok m h) (d : Dev) (dev : Nat) (op : Op)
    (hd : Held.dev h dev d = h) :
    Good m h (devStep d m dev op).2.2 (devStep d m dev op).1 (Held.dev h dev (devStep d m dev op).2.1) := by
  have same : Good m h [] m (Held.dev h dev d) := by rw [hd]; exact .refl ok
  have touch : ∀ op, Good m h [] m (Held.dev h dev (processTouch d op)) := by
    intro op; rw [processTouch_held]; exact same
  cases op with
  | suspend => exact cancelTouches_good ok d dev none hd
  | arbitration which rect =>
    simp only [devStep]
    split
    · exact same
    · cases which with
      | notActive => exact same
      | ignoreRect => exact cancelTouches_good ok d dev (some rect) hd
      | ignoreAll => exact cancelTouches_good ok d dev none hd
  | timeout => simp only [devStep]; split <;> exact same
  | updateRect => exact same
  | syn =>
    simp only [devStep]
    split
    · exact same
    · exact handleState_good ok d dev hd
  | touch v =>
    simp only [devStep]
    repeat' split
    all_goals exact same
  | absX v => simp only [devStep]; repeat' split
              all_goals exact same
  | absY v => simp only [devStep]; repeat' split
              all_goals exact same
  | slot v => simp only [devStep]; split; · exact same
              split; · exact touch _
              exact same
  | tracking v t => simp only [devStep]; split; · exact same
                    split; · exact touch _
                    exact same
  | mtX v => simp only [devStep]; split; · exact same
             split; · exact touch _
             exact same
  | mtY v => simp only [devStep]; split; · exact same
             split; · exact touch _
             exact same
  | tool v => simp only [devStep]; split; · exact same
              split; · exact touch _
              exact same

/-- The touches that are down according to the state of the seat. -/
def Seat.held (s : Seat) : Held := fun k =>
  (s.devs[k.1]?).bind fun d => match k.2 with | none => d.seat | some n => (d.slots[n]?).bind (·.seat)

theorem step_good (s : Seat) (op : SeatOp) (ok : Ok s.map s.held) :
    Good s.map s.held (step s op).2 (step s op).1.map (step s op).1.held := by
  cases op with
  | add isMt n cur hasPalm hyst =>
    have : (step s (.add isMt n cur hasPalm hyst)).1.held = s.held := by
      funext ⟨e, i⟩
      simp only [step, Seat.held, List.getElem?_append]
      split
      · rfl
      · rw [List.getElem?_eq_none (by omega : s.devs.length ≤ e)]
        rcases hh : e - s.devs.length with _ | j
        · cases i with
          | none => simp [newDev]
          | some i => simp [newDev, List.getElem?_replicate]
        · simp
    rw [this]
    exact .refl ok
  | dev i op =>
    simp only [step]
    cases hd : s.devs[i]? with
    | none => exact .refl ok
    | some d =>
      dsimp only
      have hi : i < s.devs.length := by
        rcases Nat.lt_or_ge i s.devs.length with h | h
        · exact h
        · rw [List.getElem?_eq_none h] at hd; cases hd
      have h1 : Held.dev s.held i d = s.held := by
        funext ⟨e, n⟩
        simp only [Held.dev, Seat.held]
        split
        · rename_i he; subst he; simp [hd]
        · rfl
      have h2 := devStep_good ok d i op h1
      have h3 : ∀ m' d', (Seat.mk m' (s.devs.set i d')).held = Held.dev s.held i d' := by
        intro m' d'
        funext ⟨e, n⟩
        simp only [Held.dev, Seat.held, List.getElem?_set]
        by_cases he : e = i
        · subst he; simp [hi]
        · have he' : i ≠ e := fun c => he c.symm
          simp [he, he']
      rw [h3]
      exact h2

theorem run_good (s : Seat) (ops : List SeatOp) (ok : Ok s.map s.held) :
    Good s.map s.held (run s ops).2 (run s ops).1.map (run s ops).1.held := by
  induction ops generalizing s with
  | nil => exact .refl ok
  | cons op ops ih =>
    have h1 := step_good s op ok
    exact h1.trans (ih _ h1.ok)

theorem start_ok : Ok start.map start.held := by
  have : start.held = nothing := by funext k; simp [start, Seat.held, nothing]
  rw [this]; exact Ok.empty

theorem start_held : start.held = nothing := by funext k; simp [start, Seat.held, nothing]

theorem run_append (s : Seat) (a b : List SeatOp) :
    run s (a ++ b) = ((run (run s a).1 b).1, (run s a).2 ++ (run (run s a).1 b).2) := by
  induction a generalizing s with
  | nil => rfl
  | cons op a ih => simp only [List.cons_append, run, ih, List.append_assoc]

end Libinput.TouchSlots
