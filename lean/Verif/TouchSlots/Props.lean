import Verif.TouchSlots.Contacts
import Verif.TouchSlots.Frames
/-
The touch event properties: C12 (seat slots and touch sequences) and C13 (touch frames).
-/
namespace Libinput.TouchSlots
open Spec

/-- The events of a history. -/
abbrev events (ops : List SeatOp) : List Ev := (run start ops).2

/-- The touches down after a history, as its events say. -/
abbrev heldAfter (ops : List SeatOp) : Held := after nothing (events ops)

theorem heldAfter_eq (ops : List SeatOp) : heldAfter ops = (run start ops).1.held := by
  have h := (run_good start ops start_ok).eq
  rw [start_held] at h
  exact h

theorem hist_rel {R : Hw → Dev → Prop} {p : Hw → Op → Prop}
    (hnew : ∀ isMt n cur hasPalm hyst, (isMt = true → cur < n) →
      R ⟨isMt, n, cur, fun _ => false, fun _ => false, fun _ => false, false, false⟩ (newDev isMt n cur hasPalm hyst))
    (hstep : ∀ w d m dev op, R w d → p w op → R (w.step op) (devStep d m dev op).2.1)
    (ops : List SeatOp) (h : Every p [] ops) : Rel R (hardware [] ops) (run start ops).1 :=
  (rel_run (E := fun _ => True) (M := fun _ => True) (fun _ _ _ => ⟨trivial, trivial⟩) hnew
    (fun w d m dev op hr hp _ _ => ⟨hstep w d m dev op hr hp, trivial⟩) ops [] start (start_rel R) trivial h trivial).1

theorem hist_follows {ops : List SeatOp} (h : Every Orderly [] ops) :
    Rel Follows (hardware [] ops) (run start ops).1 :=
  hist_rel follows_new (fun _ _ m dev op f ho => follows_step f m dev op ho) ops h

/-- A small history for the examples: two touchscreens with three slots and a single-touch one; touches come and go. -/
def sample : List SeatOp :=
  [.add true 3 0 true none, .add true 3 0 true none, .add false 0 0 false none,
   .dev 0 (.tracking 1 false), .dev 0 (.mtX 5), .dev 0 .syn,
   .dev 1 (.slot 1), .dev 1 (.tracking 7 false), .dev 1 .syn,
   .dev 2 (.touch 1), .dev 2 .syn,
   .dev 0 (.tracking (-1) false), .dev 0 .syn,
   .dev 1 (.slot 2), .dev 1 (.tracking 8 false), .dev 1 (.slot 1), .dev 1 (.mtY 4), .dev 1 .syn,
   .dev 2 (.absX 4), .dev 2 .syn, .dev 2 (.touch 0), .dev 2 .syn]

/-! ### C12 -/

/-- C12.  For every history of any number of devices, the touch events of a seat are well formed. -/
theorem touches_well_formed (ops : List SeatOp) : Valid nothing (events ops) := by
  have h := (run_good start ops start_ok).valid
  rw [start_held] at h
  exact h

example : events sample =
    [.down (0, some 0) 0 (5, 0), .frame 0, .down (1, some 1) 1 (0, 0), .frame 1, .down (2, none) 2 (0, 0), .frame 2,
     .up (0, some 0) 0, .frame 0, .motion (1, some 1) 1 (0, 4), .down (1, some 2) 0 (0, 0), .frame 1,
     .motion (2, none) 2 (4, 0), .frame 2, .up (2, none) 2, .frame 2] := by decide +kernel

/-- C12.  Two touches that are down have different seat slots, all below 32. -/
theorem seat_slots_unique (ops : List SeatOp) (k k' : Key) (i : Nat) (h : heldAfter ops k = some i)
    (h' : heldAfter ops k' = some i) : k = k' ∧ i < 32 := by
  have hg := (run_good start ops start_ok).ok
  rw [heldAfter_eq] at h h'
  exact ⟨hg.inj k k' i h h', hg.lt k i h⟩

example : heldAfter (sample.take 11) (2, none) = some 2 ∧ heldAfter (sample.take 11) (1, some 1) = some 1 := by
  decide +kernel

/-- C12.  When a device is suspended or removed, all its touches end. -/
theorem suspend_ends_touches (ops : List SeatOp) (d : Nat) (n : Option Nat) :
    heldAfter (ops ++ [.dev d .suspend]) (d, n) = none := by
  rw [heldAfter_eq, run_append]
  simp only [run, step]
  cases hd : (run start ops).1.devs[d]? with
  | none => simp [Seat.held, hd]
  | some dv =>
    have hl : d < (run start ops).1.devs.length := by
      rcases Nat.lt_or_ge d (run start ops).1.devs.length with h | h
      · exact h
      · rw [List.getElem?_eq_none h] at hd; cases hd
    obtain ⟨v, ss, he, -, -, hv, hs⟩ := cancelTouches_shape dv (run start ops).1.map d none
    simp only [Seat.held, devStep, List.getElem?_set, hl, if_true, Option.bind_some]
    rw [he]
    cases n with
    | none => exact hv rfl
    | some n =>
      cases hn : ss[n]? with
      | none => simp [hn]
      | some s =>
        obtain ⟨s0, u, -, h1, -, h3⟩ := hs n s hn
        simp [hn, h1, h3 rfl]

example : heldAfter (sample.take 9) (0, some 0) = some 0 ∧
    events (sample.take 9 ++ [.dev 0 .suspend]) = events (sample.take 9) ++ [.cancel (0, some 0) 0, .frame 0] := by
  decide +kernel

/-- C12.  A touch that is down belongs to a contact on the hardware: whenever the hardware's contacts do not end and
begin in the same slot within one frame and the touchscreen is not arbitrated away as a whole, a touch that is down had
a contact at its device's last hardware frame. -/
theorem down_has_contact (ops : List SeatOp) (h : Every Distinct [] ops) (d : Nat) (w : Hw)
    (hw : (hardware [] ops)[d]? = some w) :
    (∀ i, heldAfter ops (d, some i) ≠ none → w.last i = true) ∧
    (heldAfter ops (d, none) ≠ none → w.lastTouching = true) := by
  have hr : Rel (fun w d => Follows w d ∧ Slots Sane w d) (hardware [] ops) (run start ops).1 := by
    refine hist_rel (p := Distinct) ?_ ?_ ops h
    · intro isMt n cur hasPalm hyst hc
      refine ⟨follows_new isMt n cur hasPalm hyst hc, ?_⟩
      intro i s hs
      simp only [newDev, List.getElem?_replicate] at hs
      split at hs
      · simp at hs; rw [← hs]; simp [Sane]
      · cases hs
    · rintro w d m dev op ⟨f, hs⟩ ho
      exact ⟨follows_step f m dev op ho.1, sane_step f m dev op ho hs⟩
  have hl : d < (run start ops).1.devs.length := by
    rw [← hr.1]
    rcases Nat.lt_or_ge d (hardware [] ops).length with h | h
    · exact h
    · rw [List.getElem?_eq_none h] at hw; cases hw
  have hd : (run start ops).1.devs[d]? = some (run start ops).1.devs[d] := by simp [hl]
  obtain ⟨f, hs⟩ := hr.2 d w _ hw hd
  rw [heldAfter_eq]
  constructor
  · intro i hi
    simp only [Seat.held, hd, Option.bind_some] at hi
    cases hsl : (run start ops).1.devs[d].slots[i]? with
    | none => simp [hsl] at hi
    | some s =>
      simp only [hsl, Option.bind_some] at hi
      exact (hs i s hsl).1 (Option.isSome_iff_ne_none.2 hi)
  · intro hi
    simp only [Seat.held, hd, Option.bind_some] at hi
    exact f.heldSt (Option.isSome_iff_ne_none.2 hi)

theorem sample_distinct : Every Distinct [] sample := by
  simp [sample, Every, Distinct, Orderly, hardware, Hw.step, change]

example : ((hardware [] sample)[1]?.map fun w => (w.last 1, w.last 2)) = some (true, true) ∧
    heldAfter sample (1, some 1) = some 1 ∧ heldAfter sample (0, some 0) = none := by decide +kernel

/-- C12.  Conversely every contact in a slot is shown as a touch that is down: for histories without palms, arbitration
and suspend, as long as the seat's last slot, 31, has not been given out, a slot's touch is down exactly if it had a
contact at its device's last hardware frame. -/
theorem contact_is_down (ops : List SeatOp) (h : Every Plain [] ops) (hfree : ∀ k p, .down k 31 p ∉ events ops)
    (d : Nat) (w : Hw) (hw : (hardware [] ops)[d]? = some w) (i : Nat) (hi : i < w.n) :
    heldAfter ops (d, some i) ≠ none ↔ w.last i = true := by
  have hr := (rel_run (R := fun w d => Follows w d ∧ Slots Shown w d ∧ d.arb = .notActive) (p := Plain)
    (E := fun es => ∀ k p, .down k 31 p ∉ es) (M := fun m => m.getLsbD 31 = false)
    (by
      intro a b hab
      exact ⟨fun k p hk => hab k p (List.mem_append.2 (.inl hk)), fun k p hk => hab k p (List.mem_append.2 (.inr hk))⟩)
    (by
      intro isMt n cur hasPalm hyst hc
      refine ⟨follows_new isMt n cur hasPalm hyst hc, ?_, rfl⟩
      intro i s hs
      simp only [newDev, List.getElem?_replicate] at hs
      split at hs
      · simp at hs; rw [← hs]; simp [Shown]
      · cases hs)
    (by
      rintro w d m dev op ⟨f, hs, ha⟩ ho hm he
      refine ⟨⟨follows_step f m dev op ho.1, shown_step f m dev op ho hm he ha hs, ?_⟩, ?_⟩
      · obtain ⟨-, -, -, -, harb⟩ := ho
        cases op with
        | arbitration which r => exact absurd rfl (harb which r)
        | syn =>
          simp only [devStep]; split
          · exact ha
          · simp only [handleState]; split <;> exact ha
        | slot v => simp only [devStep]; repeat' split
                    all_goals exact ha
        | tracking v t =>
          simp only [devStep, processTouch]; repeat' split
          all_goals exact ha
        | touch v => simp only [devStep]; repeat' split
                     all_goals exact ha
        | absX v => simp only [devStep]; repeat' split
                    all_goals exact ha
        | absY v => simp only [devStep]; repeat' split
                    all_goals exact ha
        | mtX v => simp only [devStep]; repeat' split
                   all_goals exact ha
        | mtY v => simp only [devStep]; repeat' split
                   all_goals exact ha
        | tool v => simp only [devStep]; repeat' split
                    all_goals exact ha
        | suspend => exact ha
        | timeout => simp only [devStep]; split <;> exact ha
        | updateRect r => exact ha
      · exact devStep_31 hm he)
    ops [] start (start_rel _) (by simp [start]) h hfree).1
  have hl : d < (run start ops).1.devs.length := by
    rw [← hr.1]
    rcases Nat.lt_or_ge d (hardware [] ops).length with h | h
    · exact h
    · rw [List.getElem?_eq_none h] at hw; cases hw
  have hd : (run start ops).1.devs[d]? = some (run start ops).1.devs[d] := by simp [hl]
  obtain ⟨f, hs, -⟩ := hr.2 d w _ hw hd
  rw [heldAfter_eq]
  have hil : i < (run start ops).1.devs[d].slots.length := by rw [f.n]; exact hi
  have hsl : (run start ops).1.devs[d].slots[i]? = some (run start ops).1.devs[d].slots[i] := by simp [hil]
  have := (hs i _ hsl).2.1
  simp only [Seat.held, hd, Option.bind_some, hsl]
  rw [← Option.isSome_iff_ne_none, this]

example : Every Plain [] sample ∧ (∀ k p, .down k 31 p ∉ events sample) := by
  refine ⟨by simp [sample, Every, Plain, Orderly, hardware, Hw.step], ?_⟩
  have : events sample =
    [.down (0, some 0) 0 (5, 0), .frame 0, .down (1, some 1) 1 (0, 0), .frame 1, .down (2, none) 2 (0, 0), .frame 2,
     .up (0, some 0) 0, .frame 0, .motion (1, some 1) 1 (0, 4), .down (1, some 2) 0 (0, 0), .frame 1,
     .motion (2, none) 2 (4, 0), .frame 2, .up (2, none) 2, .frame 2] := by decide +kernel
  simp [this]

/-- C12.  Pen/touch arbitration that ignores the whole touchscreen: until it is switched again, whatever the touchscreen does
and whether or not timers run out, the touchscreen has no touch that is down and sends no touch events. -/
theorem arbitration_silences (ops more : List SeatOp) (d : Nat) (r : Rect) (hd : d < (hardware [] ops).length)
    (hmore : ∀ op ∈ more, ∀ which r', op = .dev d (.arbitration which r') → which = .ignoreAll) :
    (∀ n, heldAfter (ops ++ .dev d (.arbitration .ignoreAll r) :: more) (d, n) = none) ∧
    ∀ e ∈ (run (run start (ops ++ [.dev d (.arbitration .ignoreAll r)])).1 more).2, ∀ n, key e ≠ some (d, n) := by
  rw [heldAfter_eq]
  have e1 : ops ++ .dev d (.arbitration .ignoreAll r) :: more =
      (ops ++ [.dev d (.arbitration .ignoreAll r)]) ++ more := by simp
  rw [e1, run_append]
  have hk := run_kinds (ops ++ [.dev d (.arbitration .ignoreAll r)]) start (by simp [start])
  have hq := run_quiet (ops ++ [.dev d (.arbitration .ignoreAll r)]) start (by simp [start])
  cases hx0 : (run start ops).1.devs[d]? with
  | none =>
    rw [List.getElem?_eq_none_iff, ← hardware_length ops [] start rfl] at hx0
    omega
  | some x =>
    have hdl : d < (run start ops).1.devs.length := by
      rcases Nat.lt_or_ge d (run start ops).1.devs.length with h | h
      · exact h
      · rw [List.getElem?_eq_none h] at hx0; cases hx0
    have hx : (run start (ops ++ [.dev d (.arbitration .ignoreAll r)])).1.devs[d]? =
        some (devStep x (run start ops).1.map d (.arbitration .ignoreAll r)).2.1 := by
      rw [run_append]; simp only [run, step, hx0]; rw [List.getElem?_set, if_pos rfl, if_pos hdl]
    have ha : (devStep x (run start ops).1.map d (.arbitration .ignoreAll r)).2.1.arb = .ignoreAll := by
      simp only [devStep]; split
      · rename_i h; exact h.symm
      · rfl
    have q := hq _ (List.mem_of_getElem? hx) ha
    obtain ⟨⟨y, hy, qy⟩, h2⟩ := quiet_run d more hmore _ hk ⟨_, hx, q⟩
    refine ⟨?_, h2⟩
    intro n
    simp only [Seat.held, hy, Option.bind_some]
    cases n with
    | none => exact qy.seat
    | some n =>
      cases hn : y.slots[n]? with
      | none => simp [hn]
      | some s => simp [hn, qy.slots s (List.mem_of_getElem? hn)]

example : heldAfter (sample.take 9) (0, some 0) = some 0 ∧
    events (sample.take 9 ++ [.dev 0 (.arbitration .ignoreAll ⟨0, 0, 0, 0⟩), .dev 0 (.mtX 7), .dev 0 .syn,
      .dev 0 .timeout, .dev 0 (.mtX 9), .dev 0 .syn, .dev 1 (.mtX 3), .dev 1 .syn]) =
      events (sample.take 9) ++ [.cancel (0, some 0) 0, .frame 0, .motion (1, some 1) 1 (3, 0), .frame 1] := by
  decide +kernel

/-- C12, the exception: a contact that ends and a palm that begins in the same slot within one hardware frame.  The
first touch stays down although nothing touches the screen any more. -/
theorem palm_in_same_frame_sticks : ∃ ops, Every Orderly [] ops ∧
    heldAfter ops (0, some 0) = some 0 ∧ ((hardware [] ops)[0]?.map fun w => w.last 0) = some false := by
  refine ⟨[.add true 2 0 true none, .dev 0 (.tracking 1 false), .dev 0 .syn,
    .dev 0 (.tracking (-1) false), .dev 0 (.tracking 2 true), .dev 0 .syn,
    .dev 0 (.tracking (-1) false), .dev 0 .syn], ?_, ?_, ?_⟩
  · simp [Every, Orderly, hardware, Hw.step]
  · decide +kernel
  · decide +kernel

/-- C12, the exception: a slot change while the whole touchscreen is ignored is not seen.  A touch in slot 1 is then
taken for one in slot 0, and it stays down after it has ended. -/
theorem missed_slot_change_sticks : ∃ ops, (∀ op ∈ ops, ∀ w i, op = .dev i w → i = 0) ∧
    heldAfter ops (0, some 0) = some 0 ∧
    ((hardware [] ops)[0]?.map fun w => (w.last 0, w.last 1, w.last 2)) = some (false, false, false) := by
  refine ⟨[.add true 3 0 false none, .dev 0 (.arbitration .ignoreAll ⟨0, 0, 0, 0⟩),
    .dev 0 (.slot 1), .dev 0 (.tracking 1 false), .dev 0 .syn, .dev 0 (.tracking (-1) false), .dev 0 .syn,
    .dev 0 (.arbitration .notActive ⟨0, 0, 0, 0⟩), .dev 0 .timeout,
    .dev 0 (.tracking 2 false), .dev 0 .syn, .dev 0 (.slot 2), .dev 0 (.tracking 3 false), .dev 0 .syn,
    .dev 0 (.slot 1), .dev 0 (.tracking (-1) false), .dev 0 (.slot 2), .dev 0 (.tracking (-1) false), .dev 0 .syn],
    ?_, ?_, ?_⟩
  · simp
  · decide +kernel
  · decide +kernel

/-! ### C13 -/

/-- C13.  What one kernel event, suspend or arbitration change makes libinput send is a group of touch events of that
device, possibly followed by one frame event for it; a frame event never comes without touch events. -/
theorem one_frame_at_most (ops : List SeatOp) (d : Nat) (op : Op) :
    ∃ body, (∀ e ∈ body, ∃ n, key e = some (d, n)) ∧
      ((step (run start ops).1 (.dev d op)).2 = body ∨
       (body ≠ [] ∧ (step (run start ops).1 (.dev d op)).2 = body ++ [.frame d])) := by
  simp only [step]
  cases hd : (run start ops).1.devs[d]? with
  | none => exact ⟨[], by simp, .inl rfl⟩
  | some dv =>
    exact (devStep_framed dv _ d op (run_kinds ops start (by simp [start]) dv (List.mem_of_getElem? hd))).1

example : (step (run start (sample.take 17)).1 (.dev 1 .syn)).2 =
    [.motion (1, some 1) 1 (0, 4), .down (1, some 2) 0 (0, 0)] ++ [.frame 1] := by decide +kernel

/-- C13.  Touch events are followed by a frame event: always for devices without slots and for the cancel events of a
suspend or of arbitration; for a hardware frame of a device with slots whenever the highest slot with changes in that
hardware frame is among the touches that get an event (so whenever only one slot has changes, or when all of them get
an event). -/
theorem frame_follows (ops : List SeatOp) (h : Every Orderly [] ops) (d : Nat) (w : Hw)
    (hw : (hardware [] ops)[d]? = some w) (op : Op) (ho : Orderly w op)
    (hev : (step (run start ops).1 (.dev d op)).2 ≠ [])
    (hcase : op ≠ .syn ∨ w.isMt = false ∨ ∃ top, w.changed top = true ∧ (∀ j, top < j → w.changed j = false) ∧
      About (step (run start ops).1 (.dev d op)).2 (d, some top)) :
    ∃ body, (step (run start ops).1 (.dev d op)).2 = body ++ [.frame d] := by
  have hr := hist_follows h
  have hl : d < (run start ops).1.devs.length := by
    rw [← hr.1]
    rcases Nat.lt_or_ge d (hardware [] ops).length with h | h
    · exact h
    · rw [List.getElem?_eq_none h] at hw; cases hw
  have hd : (run start ops).1.devs[d]? = some (run start ops).1.devs[d] := by simp [hl]
  have f := hr.2 d w _ hw hd
  simp only [step, hd] at hev hcase ⊢
  generalize (run start ops).1.devs[d] = dv at *
  generalize (run start ops).1.map = m at *
  have cancel : ∀ rect, (cancelTouches dv m d rect).2.2 ≠ [] → ∃ body, (cancelTouches dv m d rect).2.2 = body ++ [.frame d] := by
    intro rect hne
    obtain ⟨body, -, he⟩ := cancelTouches_framed dv m d rect
    cases body with
    | nil => rw [he] at hne; exact absurd rfl hne
    | cons a b => exact ⟨a :: b, by simpa using he⟩
  have hl' : ¬ dv.inArb = true := by simp [f.live]
  cases op with
  | suspend => exact cancel none hev
  | arbitration which r =>
    simp only [devStep] at hev ⊢
    split at hev
    · exact absurd rfl hev
    · rename_i hne
      rw [if_neg hne]
      cases which with
      | notActive => exact absurd rfl hev
      | ignoreRect => exact cancel _ hev
      | ignoreAll => exact absurd rfl ho
  | timeout => simp only [devStep] at hev; split at hev <;> exact absurd rfl hev
  | updateRect r => exact absurd rfl hev
  | syn =>
    have hst : devStep dv m d .syn = handleState dv m d := by simp only [devStep]; rw [if_neg hl']
    rw [hst] at hev hcase ⊢
    unfold handleState at hev hcase ⊢
    dsimp only at hev hcase ⊢
    by_cases hp : dv.pMt = true
    · rw [if_pos hp] at hev hcase ⊢
      have hmt : w.isMt = true := by
        cases hm : w.isMt
        · exact absurd hp (by simp [f.st hm])
        · rfl
      obtain ⟨q1, q2, q3, q4⟩ := f.mt hmt
      rw [flushSt_quiet dv m d q1 q2 q3] at hev hcase ⊢
      dsimp only at hev hcase ⊢
      simp only [ne_eq, not_true_eq_false, hmt, Bool.true_eq_false, false_or] at hcase
      obtain ⟨top, -, hclean, e, he, hke⟩ := hcase
      have hsent : (flushSlots { dv with seat := dv.seat } d m 0 dv.slots false).2.2.2 = true := by
        refine (flushSlots_sent _ d dv.slots m 0 false).2.2 top (Nat.zero_le _) ?_ ⟨e, ?_, hke⟩
        · intro j s hs hj
          rw [f.dirty j s hs]; exact hclean j (by omega)
        · rcases List.mem_append.1 he with h | h
          · simpa using h
          · split at h
            · simp only [List.mem_singleton] at h; rw [h] at hke; simp [key] at hke
            · cases h
      rw [if_pos hsent]
      exact ⟨_, rfl⟩
    · rw [if_neg hp] at hev ⊢
      dsimp only at hev ⊢
      cases hb : (flushSt dv m d).2.2.isEmpty
      · exact ⟨_, rfl⟩
      · rw [List.isEmpty_iff] at hb
        rw [hb] at hev; simp at hev
  | _ =>
    exfalso
    simp only [devStep] at hev
    rw [if_neg hl'] at hev
    repeat' split at hev
    all_goals exact absurd rfl hev

example : ∃ w, (hardware [] (sample.take 17))[1]? = some w ∧ w.changed 2 = true ∧ w.changed 1 = true ∧
    (∀ j, 2 < j → w.changed j = false) ∧
    About (step (run start (sample.take 17)).1 (.dev 1 .syn)).2 (1, some 2) := by
  refine ⟨_, rfl, by decide +kernel, by decide +kernel, ?_, .down (1, some 2) 0 (0, 0), by decide +kernel, rfl⟩
  intro j hj
  have h1 : j ≠ 1 := by omega
  have h2 : j ≠ 2 := by omega
  simp [Hw.step, change, h1, h2]

/-- C13, the exception: a hardware frame with two changed slots, of which the higher one gets no event because the
hysteresis swallows its motion.  The touch down has no frame. -/
theorem frame_lost : ∃ ops, Every Plain [] ops ∧
    (step (run start ops).1 (.dev 0 .syn)).2 = [.down (0, some 0) 1 (0, 0)] := by
  refine ⟨[.add true 2 0 false (some fun c p => if p.1 - c.1 < 4 then c else p), .dev 0 (.slot 1),
    .dev 0 (.tracking 1 false), .dev 0 .syn, .dev 0 (.mtX 1), .dev 0 (.slot 0), .dev 0 (.tracking 2 false)], ?_, ?_⟩
  · simp [Every, Plain, Orderly, hardware, Hw.step]
  · decide +kernel

end Libinput.TouchSlots
