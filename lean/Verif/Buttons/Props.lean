import Verif.Buttons.Lemmas
namespace Libinput.Buttons
open Libinput.Spec Libinput.Alt

/-! ## Property theorems: per-device alternation and seat-wide counts (C02, C03, C18) -/

/-- **C03/C18, the emission gate.**  Whatever the rest of libinput does -- any
sequence of press and release requests, for any codes, in any order, from any
mix of physical buttons, emulation and gestures -- the button or key events one
device delivers alternate press/release per code, starting with a press, right
up to the point where the run ends. -/
theorem device_events_alternate (calls : List Call) :
    Alternating ((run init calls).1.map fun e => ⟨e.code, e.down⟩) := by
  rw [alternating_iff_valid]
  exact run_valid calls init

/-- **C03, nothing stuck and nothing lost.**  If the run did not stop, a code
is down for the client exactly if it was requested pressed more often than
released. -/
theorem device_held_iff_more_presses (calls : List Call)
    (hok : (run init calls).2 = none) (code : Nat) :
    heldAfter ((run init calls).1.map fun e => ⟨e.code, e.down⟩) code
      = decide (0 < net calls code) := by
  have h := run_after calls init hok
  rw [heldAfter_eq_after]
  have h0 : (fun _ => false) = (fun k => decide (0 < init k)) := by funext k; simp [init]
  rw [h0]
  have h1 : ((run init calls).1.map fun e => (⟨e.code, e.down⟩ : Edge Nat))
      = (run init calls).1.map Ev.edge := rfl
  rw [h1, h]
  simp [init]

/-- **C03, when the process survives.**  A run stops (failed assertion, or the
8-bit counter wraps) exactly if some code is outside the array, or some prefix of
the calls releases a code more often than it pressed it, or presses it more than
255 times without release. -/
theorem device_run_survives_iff (calls : List Call) :
    (run init calls).2 = none ↔
      (∀ c ∈ calls, c.code < 0x300) ∧
      ∀ pre post, calls = pre ++ post → ∀ code, 0 ≤ net pre code ∧ net pre code ≤ 255 := by
  rw [run_ok_iff calls init (by simp [init])]
  simp [init, KEY_CNT]

/-- Non-vacuity: an overlapping press of one code (two sources) is reported once. -/
example :
    (run init [⟨1, 0x110, true⟩, ⟨2, 0x110, true⟩, ⟨3, 0x111, true⟩, ⟨4, 0x110, false⟩,
               ⟨5, 0x110, false⟩, ⟨6, 0x111, false⟩])
      = ([⟨1, 0x110, true⟩, ⟨3, 0x111, true⟩, ⟨5, 0x110, false⟩, ⟨6, 0x111, false⟩], none) := by
  decide

/-- Non-vacuity: releasing what is not pressed is the failing assertion. -/
example : (run init [⟨1, 0x110, false⟩]).2 = some .assertFailed := by decide

/-! ### Seat counts -/

/-- What the client sees of a seat event: which device's which code. -/
def SeatEv.edge (e : SeatEv) : Edge (Nat × Nat) := ⟨(e.dev, e.code), e.down⟩

/-- The number of devices in `devs` on which `code` is down, judging only by
the delivered events. -/
def devicesHolding (devs : List Nat) (evs : List SeatEv) (code : Nat) : Nat :=
  (devs.filter (fun d => heldAfter (evs.map SeatEv.edge) (d, code))).length

/-- Invariant tying the counters to the delivered stream. -/
structure SeatInv (devs : List Nat) (s : SeatState) (evs : List SeatEv) : Prop where
  alt : Alternating (evs.map SeatEv.edge)
  held : ∀ d c, heldAfter (evs.map SeatEv.edge) (d, c) = decide (0 < s.counts d c)
  seat : ∀ c, s.seat c = (devs.filter (fun d => decide (0 < s.counts d c))).length

theorem filter_len_congr (devs : List Nat) (p q : Nat → Bool) (h : ∀ d ∈ devs, p d = q d) :
    (devs.filter p).length = (devs.filter q).length := by
  rw [List.filter_congr h]

theorem filter_false_len (devs : List Nat) : (devs.filter (fun _ => false)).length = 0 := by
  induction devs <;> simp_all

theorem exists_devs (calls : List SeatCall) :
    ∃ devs : List Nat, devs.Nodup ∧ ∀ c ∈ calls, c.dev ∈ devs := by
  induction calls with
  | nil => exact ⟨[], by simp⟩
  | cons c cs ih =>
    obtain ⟨devs, hn, hd⟩ := ih
    by_cases hc : c.dev ∈ devs
    · exact ⟨devs, hn, by simpa [hc] using hd⟩
    · refine ⟨c.dev :: devs, by simp [hc, hn], ?_⟩
      intro x hx
      rcases List.mem_cons.mp hx with rfl | hx
      · simp
      · exact List.mem_cons_of_mem _ (hd x hx)

theorem filter_len_flip (devs : List Nat) (hn : devs.Nodup) (d : Nat) (hd : d ∈ devs)
    (p q : Nat → Bool) (hpd : p d = false) (hqd : q d = true) (h : ∀ x, x ≠ d → p x = q x) :
    (devs.filter q).length = (devs.filter p).length + 1 := by
  induction devs with
  | nil => cases hd
  | cons a as ih =>
    rw [List.nodup_cons] at hn
    by_cases ha : a = d
    · subst ha
      have : as.filter q = as.filter p := by
        apply List.filter_congr
        intro x hx
        exact (h x (fun hxa => hn.1 (hxa ▸ hx))).symm
      simp [hpd, hqd, this]
    · have hd' : d ∈ as := by
        rcases List.mem_cons.mp hd with h1 | h1
        · exact absurd h1.symm ha
        · exact h1
      have := ih hn.2 hd'
      simp only [List.filter_cons, h a ha]
      split <;> simp [this]

theorem seatPost_inv {devs : List Nat} (hn : devs.Nodup) {s s' : SeatState} {evs new : List SeatEv}
    {d t c : Nat} {p : Bool} (hd : d ∈ devs) (hi : SeatInv devs s evs)
    (h : seatPost s d t c p = .ok (s', new)) :
    SeatInv devs s' (evs ++ new) ∧
    ∀ e ∈ new, evs ++ new = evs ++ [e] ∧ e.seatCount = devicesHolding devs (evs ++ [e]) e.code := by
  unfold seatPost at h
  split at h
  · cases h
  · rename_i x cnt' hp
    cases h
    obtain ⟨hv, ha, hc⟩ := post_ok_edges hp
    simp only [List.map_nil, after_nil] at ha
    have hpos : ∀ k, decide (0 < s.counts d k) = decide (0 < cnt' k) := fun k => congrFun ha k
    refine ⟨⟨?_, ?_, ?_⟩, by simp⟩
    · simpa using hi.alt
    · intro d' c'
      rw [List.append_nil, hi.held]
      by_cases hdd : d' = d
      · subst hdd; simpa using hpos c'
      · simp [hdd]
    · intro c'
      rw [hi.seat]
      apply filter_len_congr
      intro d' _
      by_cases hdd : d' = d
      · subst hdd; simpa using hpos c'
      · simp [hdd]
  · rename_i x cnt' e0 es hp
    obtain ⟨hv, ha, hc⟩ := post_ok_edges hp
    -- the event posted is exactly (c, p)
    have hshape : e0.code = c ∧ e0.down = p ∧ es = [] := by
      unfold post at hp
      split at hp
      · cases hp
      · split at hp <;> simp_all
        exact ⟨by rw [← hp.2.1], by rw [← hp.2.1]⟩
    obtain ⟨h1, h2, rfl⟩ := hshape
    simp only [List.map_cons, List.map_nil, Ev.edge, h1, h2, Valid, and_true] at hv
    simp only [List.map_cons, List.map_nil, Ev.edge, h1, h2, after] at ha
    simp only [Except.ok.injEq, Prod.mk.injEq] at h
    obtain ⟨rfl, rfl⟩ := h
    have hcnt : ∀ k, decide (0 < cnt' k) = if c = k then p else decide (0 < s.counts d k) :=
      fun k => (congrFun ha k).symm
    have hheld : ∀ d' c', heldAfter ((evs ++ [(⟨d, c, p, (updateSeatCount s.seat c p).2⟩ : SeatEv)]).map SeatEv.edge) (d', c')
        = decide (0 < (if d' = d then cnt' else s.counts d') c') := by
      intro d' c'
      rw [List.map_append, List.map_cons, List.map_nil, heldAfter_snoc]
      simp only [SeatEv.edge, Prod.mk.injEq]
      by_cases hdd : d' = d
      · subst hdd
        simp only [true_and, if_true, hcnt, hi.held]
      · have : ¬ (d = d' ∧ c = c') := fun h => hdd h.1.symm
        simp only [this, if_false, hdd, hi.held]
    have hseat : ∀ c', (updateSeatCount s.seat c p).1 c'
        = (devs.filter (fun d' => decide (0 < (if d' = d then cnt' else s.counts d') c'))).length := by
      intro c'
      by_cases hcc : c' = c
      · subst hcc
        cases p with
        | true =>
          have hlen := filter_len_flip devs hn d hd (fun d' => decide (0 < s.counts d' c'))
            (fun d' => decide (0 < (if d' = d then cnt' else s.counts d') c'))
            (by simpa using hv) (by simp [hcnt]) (by intro x hx; simp [hx])
          rw [hlen, ← hi.seat]
          simp [updateSeatCount, set]
        | false =>
          have hlen := filter_len_flip devs hn d hd
            (fun d' => decide (0 < (if d' = d then cnt' else s.counts d') c'))
            (fun d' => decide (0 < s.counts d' c'))
            (by simp [hcnt]) (by simpa using hv) (by intro x hx; simp [hx])
          rw [← hi.seat] at hlen
          have hne : s.seat c' ≠ 0 := by omega
          simp only [updateSeatCount, Bool.false_eq_true, if_false, hne, set, if_true]
          omega
      · have hk : (updateSeatCount s.seat c p).1 c' = s.seat c' := by
          unfold updateSeatCount
          cases p
          · by_cases hz : s.seat c = 0 <;> simp [hz, set, hcc]
          · simp [set, hcc]
        rw [hk, hi.seat]
        apply filter_len_congr
        intro d' _
        by_cases hdd : d' = d
        · subst hdd
          simp only [if_true, hcnt]
          by_cases hx : c = c'
          · exact absurd hx.symm hcc
          · simp [hx]
        · simp [hdd]
    refine ⟨⟨?_, hheld, hseat⟩, ?_⟩
    · rw [List.map_append, List.map_cons, List.map_nil, alternating_snoc]
      refine ⟨hi.alt, ?_⟩
      simp only [SeatEv.edge]
      rw [hi.held]
      exact hv
    · intro e he
      simp only [List.mem_singleton] at he
      subst he
      refine ⟨rfl, ?_⟩
      unfold devicesHolding
      have h3 : (updateSeatCount s.seat c p).2 = (updateSeatCount s.seat c p).1 c := by
        unfold updateSeatCount
        cases p
        · by_cases hz : s.seat c = 0 <;> simp [hz, set]
        · simp [set]
      show (updateSeatCount s.seat c p).2 = _
      refine (h3.trans (hseat c)).trans ?_
      apply filter_len_congr
      intro d' _
      exact (hheld d' c).symm

theorem seatRun_inv {devs : List Nat} (hn : devs.Nodup) (calls : List SeatCall)
    (hd : ∀ c ∈ calls, c.dev ∈ devs) (s : SeatState) (evs : List SeatEv) (hi : SeatInv devs s evs) :
    Alternating ((evs ++ (seatRun s calls).1).map SeatEv.edge) ∧
    ∀ pre e post, (seatRun s calls).1 = pre ++ e :: post →
      e.seatCount = devicesHolding devs (evs ++ pre ++ [e]) e.code := by
  induction calls generalizing s evs with
  | nil =>
    refine ⟨by simpa [seatRun] using hi.alt, ?_⟩
    intro pre e post h
    simp [seatRun] at h
  | cons c cs ih =>
    unfold seatRun
    cases h : seatPost s c.dev c.time c.code c.pressed with
    | error e =>
      refine ⟨by simpa using hi.alt, ?_⟩
      intro pre e post h
      simp at h
    | ok r =>
      obtain ⟨s', new⟩ := r
      obtain ⟨hi', hnew⟩ := seatPost_inv hn (hd c (by simp)) hi h
      obtain ⟨iha, ihc⟩ := ih (fun x hx => hd x (List.mem_cons_of_mem _ hx)) s' (evs ++ new) hi'
      refine ⟨by simpa using iha, ?_⟩
      intro pre e post heq
      simp only at heq
      cases new with
      | nil =>
        simp only [List.nil_append] at heq
        simpa using ihc pre e post heq
      | cons n ns =>
        obtain ⟨hs, hcnt⟩ := hnew n (by simp)
        have hns : ns = [] := by simpa using hs
        subst hns
        cases pre with
        | nil =>
          simp only [List.cons_append, List.nil_append, List.cons.injEq] at heq
          obtain ⟨rfl, _⟩ := heq
          simpa using hcnt
        | cons m ms =>
          simp only [List.cons_append, List.nil_append, List.cons.injEq] at heq
          obtain ⟨rfl, heq⟩ := heq
          simpa using ihc ms e post heq

/-- **C02.**  On a seat with any number of devices and any interleaving of
presses and releases on them, the seat-wide count carried by every delivered
event is the number of devices on which that button is down once the event has
been delivered. -/
theorem seat_count_is_devices_holding (devs : List Nat) (hn : devs.Nodup) (calls : List SeatCall)
    (hd : ∀ c ∈ calls, c.dev ∈ devs) (pre post : List SeatEv) (e : SeatEv)
    (h : (seatRun seatInit calls).1 = pre ++ e :: post) :
    e.seatCount = devicesHolding devs (pre ++ [e]) e.code := by
  have hi : SeatInv devs seatInit [] := by
    refine ⟨alternating_nil, ?_, ?_⟩
    · intro d c; simp [heldAfter_nil, seatInit, init]
    · intro c; simp [seatInit, init, filter_false_len]
  simpa using (seatRun_inv hn calls hd seatInit [] hi).2 pre e post h

/-- **C02/C03, several devices.**  Events alternate per device and code on a seat with several devices. -/
theorem seat_events_alternate (calls : List SeatCall) :
    Alternating ((seatRun seatInit calls).1.map fun e => (⟨(e.dev, e.code), e.down⟩ : Edge (Nat × Nat))) := by
  obtain ⟨devs, hn, hd⟩ := exists_devs calls
  have hi : SeatInv devs seatInit [] := by
    refine ⟨alternating_nil, ?_, ?_⟩
    · intro d c; simp [heldAfter_nil, seatInit, init]
    · intro c; simp [seatInit, init, filter_false_len]
  exact (seatRun_inv hn calls hd seatInit [] hi).1

/-- **C02, first and last.**  A press carries count 1 exactly when no other device
held the button before; a release carries count 0 exactly when none holds it after. -/
theorem seat_count_zero_iff_none_left (devs : List Nat) (hn : devs.Nodup) (calls : List SeatCall)
    (hd : ∀ c ∈ calls, c.dev ∈ devs) (pre post : List SeatEv) (e : SeatEv)
    (h : (seatRun seatInit calls).1 = pre ++ e :: post) :
    e.seatCount = 0 ↔
      ∀ d ∈ devs, heldAfter ((pre ++ [e]).map fun x => (⟨(x.dev, x.code), x.down⟩ : Edge (Nat × Nat)))
        (d, e.code) = false := by
  rw [seat_count_is_devices_holding devs hn calls hd pre post e h]
  unfold devicesHolding
  rw [List.length_eq_zero_iff, List.filter_eq_nil_iff]
  simp only [Bool.not_eq_true]
  rfl

/-- Non-vacuity: two mice press and release the same button; counts 1,2,1,0. -/
example :
    (seatRun seatInit [⟨0, 1, 0x110, true⟩, ⟨1, 2, 0x110, true⟩, ⟨0, 3, 0x110, false⟩,
                       ⟨1, 4, 0x110, false⟩]).1.map SeatEv.seatCount = [1, 2, 1, 0] := by
  decide

end Libinput.Buttons
