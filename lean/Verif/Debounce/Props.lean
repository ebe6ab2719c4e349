import Verif.Debounce.Lemmas
namespace Libinput.Debounce
open Libinput.Spec Libinput.Alt Libinput.Debounce.Spec

/-! ## Property theorems: button debouncing (C04, C05) -/

/-- What the rest of libinput sees of a history: press/release edges per button. -/
def reported (en : Bool) (ops : List Op) : List (Edge Nat) :=
  (run (init en) ops).2.map fun n => ⟨n.code, n.down⟩

theorem reported_inv (en : Bool) (ops : List Op) (h16 : AtMost16 ops) :
    Alternating (reported en ops) ∧ DInv (run (init en) ops).1 (world ops) (heldAfter (reported en ops)) := by
  obtain ⟨hv, hi⟩ := run_inv ops h16 (init_inv en)
  refine ⟨(alternating_iff_valid _).mpr hv, ?_⟩
  rw [heldAfter_eq_after]; exact hi

/-- **C04, alternation.**  For every device, with debouncing enabled or not, and
every history of kernel button frames and timer dispatches, with arbitrary
bouncing and arbitrary timing, the button edges passed on alternate
press/release per button, starting with a press. -/
theorem debounced_edges_alternate (en : Bool) (ops : List Op) (h16 : AtMost16 ops) :
    Alternating (reported en ops) :=
  (reported_inv en ops h16).1

/-- **C04, convergence.**  Once the timers have been dispatched 25ms or more
after the last frame, the reported state of every button equals its physical state. -/
theorem debounce_converges (en : Bool) (ops : List Op) (h16 : AtMost16 ops) (now : Nat)
    (hquiet : (world ops).latest + 25000 ≤ now) (c : Nat) :
    heldAfter (reported en (ops ++ [.timer now])) c = (world ops).phys c := by
  obtain ⟨_, hd⟩ := reported_inv en ops h16
  have h := fire_settles now hd.inv (fun _ b hb => by have := hd.inv.bndT b hb; omega) c
  rw [after_eq_heldAfter] at h
  have : reported en (ops ++ [.timer now])
      = reported en ops ++ (fire (run (init en) ops).1.deb now).2.map Notify.edge := by
    simp only [reported, run_append, List.map_append]
    simp [run, step, Notify.edge]
  rw [this]; exact h

/-- **C05, bounded delay.**  With kernel time stamps in order, a change of a
button is reported no later than the first timer dispatch 25ms or more after that
button's change, whatever other buttons do in between. -/
theorem debounce_delay_bounded (en : Bool) (ops : List Op) (h16 : AtMost16 ops) (hord : FramesInOrder ops)
    (c now : Nat) (hlate : (world ops).changedAt c + 25000 ≤ now) :
    heldAfter (reported en (ops ++ [.timer now])) c = (world ops).phys c := by
  obtain ⟨_, hd⟩ := reported_inv en ops h16
  have hT : InvT (run (init en) ops).1.deb (world ops) (heldAfter (reported en ops)) := by
    rw [heldAfter_eq_after]
    refine run_invT ops h16 hord ?_ (init_inv en) ?_
    · intro t keys _; simp [start]
    · intro hne; simp [start] at hne
  have this : reported en (ops ++ [.timer now])
      = reported en ops ++ (fire (run (init en) ops).1.deb now).2.map Notify.edge := by
    simp only [reported, run_append, List.map_append]
    simp [run, step, Notify.edge]
  rw [this, ← after_eq_heldAfter]
  by_cases hc : c = (run (init en) ops).1.deb.code
  · exact fire_settles now hd.inv (fun hne b hb => by
      have := hT hne b hb
      rw [hc] at hlate; omega) c
  · obtain ⟨_, ⟨hi, hcode, _, _⟩, _⟩ := fire_inv now hd.inv
    exact hi.other c (by rw [hcode]; exact hc)

/-- **C05, time stamps.**  Every edge passed on carries the time of the
kernel frame in which that button last changed, and says what that frame said:
no time stamp is invented, and delayed reports carry the original time. -/
theorem debounce_timestamps (en : Bool) (ops : List Op) (op : Op) (h16 : AtMost16 (ops ++ [op]))
    (n : Notify) (hn : n ∈ (step (run (init en) ops).1 op).2) :
    (n.time = (world ops).changedAt n.code ∧ n.down = (world ops).phys n.code) ∨
    ((world (ops ++ [op])).phys n.code ≠ (world ops).phys n.code ∧
      n.time = (world (ops ++ [op])).changedAt n.code ∧ n.down = (world (ops ++ [op])).phys n.code) := by
  obtain ⟨_, hd⟩ := reported_inv en ops (fun t keys hm => h16 t keys (by simp [hm]))
  obtain ⟨_, _, hc⟩ := step_inv op (fun t keys he => h16 t keys (by simp [he])) hd
  have := hc n hn
  simpa [NoteOk, world] using this

/-- **C04, no internal error.**  None of the "invalid debounce event" situations
the code guards against is reachable. -/
theorem debounce_no_internal_error (en : Bool) (ops : List Op) (h16 : AtMost16 ops) :
    (run (init en) ops).1.deb.bugs = 0 :=
  (reported_inv en ops h16).2.inv.bug

/-- **C05, no delay for a clean press.**  If the buttons were left alone for
25ms and the timers dispatched, the press of any button that is up is passed on in
the very frame it arrives in, with its own time stamp. -/
theorem clean_press_is_immediate (en : Bool) (ops : List Op) (h16 : AtMost16 ops) (now t c : Nat)
    (hquiet : (world ops).latest + 25000 ≤ now) (hbtn : isButton c = true)
    (hup : (world ops).phys c = false) :
    (⟨t, c, true⟩ : Notify) ∈ (step (run (init en) (ops ++ [.timer now])).1 (.frame t [(c, true)])).2 := by
  have h16' : AtMost16 (ops ++ [.timer now]) := by
    intro t keys hm; exact h16 t keys (by simpa using hm)
  have hw : world (ops ++ [.timer now]) = world ops := by simp [world, stepWorld]
  obtain ⟨_, hd⟩ := reported_inv en (ops ++ [.timer now]) h16'
  have hsame : ∀ x, heldAfter (reported en (ops ++ [.timer now])) x = (world (ops ++ [.timer now])).phys x := by
    intro x; rw [hw]; exact debounce_converges en ops h16 now hquiet x
  -- nothing is armed any more
  have hnoT : (run (init en) (ops ++ [.timer now])).1.deb.timer = none := by
    obtain ⟨_, hd0⟩ := reported_inv en ops h16
    obtain ⟨_, ⟨_, _, _, hT⟩, _⟩ := fire_inv now hd0.inv
    have he : (run (init en) (ops ++ [.timer now])).1.deb = (fire (run (init en) ops).1.deb now).1 := by
      simp [run_append, run, step]
    rw [he]
    cases ht : (fire (run (init en) ops).1.deb now).1.timer with
    | none => rfl
    | some b =>
      have h1 := hT b ht
      have h2 := hd0.inv.bndT b h1.2
      omega
  generalize run (init en) (ops ++ [.timer now]) = r at *
  rw [hw] at hd hsame
  have hnoS : r.1.deb.timerShort = none := by
    have hr := hd.inv.rel
    rw [hnoT] at hr
    cases hs : r.1.deb.timerShort with
    | none => rfl
    | some e => rw [hs] at hr; cases hst : r.1.deb.st <;> simp_all [rel]
  obtain ⟨_, hdd, _⟩ := step_inv (.frame t [(c, true)]) (by simp) hd
  -- compute
  have hfire : fire r.1.deb t = (r.1.deb, []) := by simp [fire, fireShort, fireLong, hnoS, hnoT]
  have hhw : r.1.hw c = false := by rw [hd.hw]; exact hup
  have hkey : applyKeys (world ops).phys [(c, true)] = fun x => if x = c then true else (world ops).phys x := by
    simp [applyKeys, hbtn]
  have hch : ∀ x, x ∈ changedButtons (applyKeys (world ops).phys [(c, true)]) (world ops).phys ↔ x = c := by
    intro x
    rw [mem_changed (by simp), hkey]
    by_cases hx : x = c
    · subst hx; simp [hup]
    · simp [hx]
  have hlist : changedButtons (applyKeys (world ops).phys [(c, true)]) (world ops).phys = [c] := by
    have hnd : (changedButtons (applyKeys (world ops).phys [(c, true)]) (world ops).phys).Nodup := by
      unfold changedButtons buttonCodes
      exact List.Nodup.sublist (List.take_sublist _ _)
        ((List.nodup_range.sublist List.filter_sublist).sublist List.filter_sublist)
    generalize changedButtons (applyKeys (world ops).phys [(c, true)]) (world ops).phys = l at *
    cases l with
    | nil => have := (hch c).mpr rfl; cases this
    | cons a as =>
      have ha : a = c := (hch a).mp (by simp)
      subst ha
      cases as with
      | nil => rfl
      | cons b bs =>
        have hb : b = a := (hch b).mp (by simp)
        subst hb
        simp at hnd
  have hany : buttonCodes.any (fun x => (fun x => if x = c then true else (world ops).phys x) x != (world ops).phys x) = true := by
    rw [List.any_eq_true]
    exact ⟨c, mem_buttonCodes.mpr hbtn, by simp [hup]⟩
  have hproc : processKey r.1 c true = { r.1 with hw := fun x => if x = c then true else r.1.hw x, pending := true } := by
    have he : (fun x => if c = x then true else r.1.hw x) = (fun x => if x = c then true else r.1.hw x) := by
      funext x
      by_cases hx : x = c
      · simp [hx]
      · simp [hx, Ne.symm hx]
    unfold processKey
    simp only [hbtn, Bool.not_true, Bool.false_eq_true, if_false, hhw, he]
  have hd0 : ({ r.1 with deb := r.1.deb } : Dev) = r.1 := rfl
  simp only [step, hfire, List.foldl_cons, List.foldl_nil, hd0, hproc, sync, if_true, List.nil_append]
  rw [hd.last, hd.hw]
  simp only [hany, if_true]
  rw [hkey] at hlist
  unfold handleState
  simp only [hlist, List.length_singleton, Nat.lt_irrefl, decide_false, Bool.false_or, List.headD_cons]
  have hstate : r.1.deb.st = .isUp ∨ r.1.deb.st = .isDown ∨ r.1.deb.st = .disabled := by
    have hr := hd.inv.rel
    rw [hnoT] at hr
    cases hst : r.1.deb.st <;> simp_all [rel]
  have hflat : Flat r.1.deb (world ops).phys (heldAfter (reported en (ops ++ [.timer now]))) :=
    ⟨hstate, hsame, hnoT, hnoS, hd.inv.bug⟩
  by_cases hcode : c = r.1.deb.code
  · have h1 : (c != r.1.deb.code) = false := by simp [hcode]
    simp only [h1, Bool.false_eq_true, if_false, loop, if_true]
    have hr := hd.inv.rel
    rw [← hcode, hup] at hr
    have hst : r.1.deb.st = .isUp ∨ r.1.deb.st = .disabled := by
      rcases hstate with h | h | h
      · exact Or.inl h
      · rw [h] at hr; simp [rel] at hr
      · exact Or.inr h
    rcases hst with h | h <;>
      simp [handle, h, isUpH, disabledH, note, setTime, setSt, setTimer]
  · have h1 : (c != r.1.deb.code) = true := by simp [hcode]
    simp only [h1, if_true, loop]
    apply List.mem_append_right
    rcases hstate with h | h | h <;>
      simp [handle, h, isUpH, isDownH, disabledH, note, quiet, setTime, setSt, setTimer, cancelTimer, cancelTimerShort]

/-- Non-vacuity: press, bounce (release and press within 25ms), hold, release; then settle.
One press and one release are reported, and the hypotheses hold. -/
example :
    let ops : List Op := [.frame 100000 [(0x110, true)], .frame 105000 [(0x110, false)],
      .frame 108000 [(0x110, true)], .timer 125000, .frame 300000 [(0x110, false)]]
    (run (init true) ops).2 = [⟨100000, 0x110, true⟩, ⟨300000, 0x110, false⟩]
      ∧ (world ops).phys 0x110 = false ∧ (world ops).latest = 300000 := by
  decide +kernel

/-- Non-vacuity: a fast click whose release is delayed, and reported with its own time stamp
by the timer. -/
example :
    (run (init true) [.frame 100000 [(0x110, true)], .frame 110000 [(0x110, false)], .timer 125000]).2
      = [⟨100000, 0x110, true⟩, ⟨110000, 0x110, false⟩] := by
  decide +kernel

/-- The 16-button limit is real: with 17 buttons pressed in one frame, the 17th is never
reported although it is held, however long one waits.  (Negation witness for C04 without the
hypothesis `AtMost16`.) -/
theorem seventeen_buttons_lose_one :
    let keys := (List.range 17).map (fun i => (0x100 + i, true))
    let ops : List Op := [.frame 100000 keys]
    (world ops).phys 0x110 = true ∧
    heldAfter (reported true (ops ++ [.timer 1000000])) 0x110 = false := by
  decide +kernel

end Libinput.Debounce
