import Verif.Dispatch.Acts
/-
Reading a device's events.
-/
namespace Libinput.Dispatch
open Spec

/-- What comes of giving a device an event: the converter, and the events handled. -/
def feed (conv : Conv) : MtPtr → Ev → MtPtr × List Ev
  | .null, e => (.null, [e])
  | .gone, _ => (.gone, [])
  | .live m, e =>
    if e.isReport then (.live { put := m.put ++ [e], pending := [] }, m.pending ++ conv m.put e)
    else (.live { put := m.put ++ [e], pending := m.pending ++ conv m.put e }, [])

def feedAll (conv : Conv) : MtPtr → List Ev → MtPtr × List Ev
  | m, [] => (m, [])
  | m, e :: es => ((feedAll conv (feed conv m e).1 es).1, (feed conv m e).2 ++ (feedAll conv (feed conv m e).1 es).2)

theorem feedAll_append (conv m a b) : feedAll conv m (a ++ b) =
    ((feedAll conv (feedAll conv m a).1 b).1, (feedAll conv m a).2 ++ (feedAll conv (feedAll conv m a).1 b).2) := by
  induction a generalizing m with
  | nil => simp [feedAll]
  | cons e a ih => simp [feedAll, ih]

/-- Acts of a call never concern the device. -/
def Apart (c : Call) (d : Nat) : Prop := ∀ n, ∀ a ∈ c.react n, about a ≠ some d

/-- Reading has taken the events `es`, and given the messages `w`. -/
structure Reads (conv : Conv) (c : Call) (d : Nat) (s t : Ctx) (es : List Ev) (w : List Did) : Prop where
  mono : Mono s t
  monitor : t.monitor = s.monitor
  dev : t.dev d = { s.dev d with mt := (feedAll conv (s.dev d).mt es).1 }
  log : ∃ l, t.log = s.log ++ l ∧ handled l = (feedAll conv (s.dev d).mt es).2.flatMap (handling d) ∧ lags l = w
  others : ∀ e, e ≠ d → e < s.ndev → Apart c e → t.dev e = s.dev e

theorem Reads.nil (conv c d s) : Reads conv c d s s [] [] :=
  ⟨.refl _, rfl, by simp [feedAll], ⟨[], by simp, rfl, rfl⟩, fun _ _ _ _ => rfl⟩

theorem Reads.trans {conv c d s t u es es' w w'} (h : Reads conv c d s t es w) (k : Reads conv c d t u es' w') :
    Reads conv c d s u (es ++ es') (w ++ w') := by
  refine ⟨h.mono.trans k.mono, k.monitor.trans h.monitor, ?_, ?_, fun e he hlt ha =>
    (k.others e he (Nat.lt_of_lt_of_le hlt h.mono.ndev) ha).trans (h.others e he hlt ha)⟩
  · rw [k.dev, h.dev, feedAll_append]
  · obtain ⟨l, h1, h2, h3⟩ := h.log
    obtain ⟨m, k1, k2, k3⟩ := k.log
    refine ⟨l ++ m, by rw [k1, h1, List.append_assoc], ?_, by rw [lags_append, h3, k3]⟩
    rw [handled_append, h2, k2, h.dev, feedAll_append, List.flatMap_append]

def RoomC (c : Call) : Prop := ∀ n, ∀ a ∈ c.react n, Room a
def PlainC (c : Call) : Prop := ∀ n, ∀ a ∈ c.react n, Plain a

theorem processEvent_spec {s d e} {as : List Act} (h : Inv s) :
    Ends id s (∀ a ∈ as, Room a) (∀ a ∈ as, Plain a) (processEvent s d e as)
      (fun t => Mono s t ∧ t.monitor = s.monitor ∧ (∀ e, e < s.ndev → (∀ a ∈ as, about a ≠ some e) → t.dev e = s.dev e) ∧
        ∃ l, t.log = s.log ++ l ∧ handled l = handling d e ∧ lags l = []) := by
  unfold processEvent
  have hi : Inv { s with log := s.log ++ [.flush e.time, .event d e] } :=
    inv_same h [.flush e.time, .event d e] rfl rfl rfl rfl rfl rfl rfl rfl rfl rfl rfl (by simp [Idle])
      (fun _ => ⟨rfl, rfl, rfl, rfl⟩)
  have := acts_spec as hi
  refine Ends.weaken (s := s) (Q := fun t => Quiet { s with log := s.log ++ [.flush e.time, .event d e] } t ∧ ∀ d, d < s.ndev →
    (∀ a ∈ as, about a ≠ some d) → t.dev d = s.dev d) this id id ?_
  rintro t ⟨hq, hd'⟩
  refine ⟨?_, hq.monitor, hd', ?_⟩
  · refine Mono.trans ?_ hq.mono
    exact ⟨fun _ x h => ⟨x, h, rfl⟩, ⟨[.flush e.time, .event d e], rfl, rfl, by simp⟩, Nat.le_refl _, rfl, rfl, rfl⟩
  · obtain ⟨l, h1, h2, h3⟩ := hq.silent
    refine ⟨[.flush e.time, .event d e] ++ l, by rw [h1]; simp, ?_, ?_⟩
    · rw [handled_append, h2]; rfl
    · rw [lags_append, h3]; rfl

theorem processAll_spec {d c} (es : List Ev) : ∀ {s n}, Inv s →
    Ends Prod.fst s (RoomC c) (PlainC c) (processAll s d c n es)
      (fun x => Mono s x.1 ∧ x.1.monitor = s.monitor ∧ (∀ e, e < s.ndev → Apart c e → x.1.dev e = s.dev e) ∧
        ∃ l, x.1.log = s.log ++ l ∧ handled l = es.flatMap (handling d) ∧ lags l = []) := by
  induction es with
  | nil => intro s n h; exact ⟨h, fun x _ => x, fun x _ => x, .refl _, rfl, fun _ _ _ => rfl, [], by simp, rfl, rfl⟩
  | cons e es ih =>
    intro s n h
    unfold processAll
    refine Ends.bind (st := id) (st' := Prod.fst) (fun t => processAll t d c (n + 1) es) ((processEvent_spec (d := d) (e := e) (as := c.react n) h).weaken (R' := RoomC c) (P' := PlainC c)
      (fun x => x n) (fun x => x n) (fun _ x => x)) (fun x hx => by rw [hx]) (fun x hx => by rw [hx]) ?_
    rintro t ht ⟨h1, h2, h3, l, h4, h5, h6⟩
    refine (ih (n := n + 1) ht).weaken id id ?_
    rintro x ⟨k1, k2, k3, m, k4, k5, k6⟩
    refine ⟨h1.trans k1, k2.trans h2, fun e hlt ha => (k3 e (Nat.lt_of_lt_of_le hlt h1.ndev) ha).trans (h3 e hlt (ha n)), l ++ m, ?_, ?_, ?_⟩
    · rw [k4]; simp [h4]
    · rw [handled_append, h5, k5]; simp
    · rw [lags_append, h6, k6]; rfl

theorem sound_mt {s : Ctx} {d m} (h : Sound s) (hm : m ≠ .gone) : Sound (s.setDev d { s.dev d with mt := m }) := by
  intro e
  by_cases he : e = d
  · subst he; rw [setDev_same]; exact hm
  · rw [setDev_other _ _ _ he]; exact h e

theorem dispatchOne_spec {conv d c s n e} (ha : Apart c d) (h : Inv s) (hd : d < s.ndev) :
    Ends Prod.fst s (RoomC c) (PlainC c) (dispatchOne conv s d c n e) (fun x => Reads conv c d s x.1 [e] []) := by
  unfold dispatchOne
  split
  · rename_i hm
    refine (processAll_spec [e] h).weaken id id ?_
    rintro x ⟨h1, h2, h3, l, h4, h5, h6⟩
    refine ⟨h1, h2, ?_, ⟨l, h4, ?_, h6⟩, fun e _ hlt hc => h3 e hlt hc⟩
    · rw [h3 d hd ha]
      generalize s.dev d = v at hm
      cases v; simp at hm; simp [hm, feedAll, feed]
    · rw [h5, hm]; simp [feedAll, feed]
  · rename_i hm
    exact ⟨rfl, fun x => x.1 d hm, fun x => x.1.sound d hm⟩
  · rename_i m hm
    dsimp only
    by_cases hr : e.isReport = true
    · rw [if_pos hr]
      have hi := inv_mt h d (.live { put := m.put ++ [e], pending := [] })
      have := processAll_spec (d := d) (c := c) (n := n) (m.pending ++ conv m.put e) hi
      generalize processAll _ _ _ _ _ = r at this
      cases r with
      | error x =>
        refine ⟨this.1, fun a => this.2.1 ⟨sound_mt a.1 (by simp), a.2⟩, fun a => ?_⟩
        have := (a.1 d).1; rw [hm] at this; simp at this
      | ok x =>
        obtain ⟨h0, hs, _, h1, h2, h3, l, h4, h5, h6⟩ := this
        refine ⟨h0, fun a => hs (sound_mt a (by simp)), fun a => ?_, ?_⟩
        · have := (a d).1; rw [hm] at this; simp at this
        · refine ⟨(mono_setDev _ _ _).trans h1, h2, ?_, ⟨l, h4, ?_, h6⟩, fun e he hlt hc => (h3 e hlt hc).trans (setDev_other _ _ _ he)⟩
          · rw [h3 d hd ha, setDev_same, hm]; simp [feedAll, feed, hr]
          · rw [h5, hm]; simp [feedAll, feed, hr]
    · rw [if_neg hr]
      refine ⟨inv_mt h d _, fun a _ => sound_mt a (by simp), fun a => ?_, mono_setDev _ _ _, rfl, ?_, ⟨[], ?_, ?_, rfl⟩, fun e he _ _ => setDev_other _ _ _ he⟩
      · have := (a d).1; rw [hm] at this; simp at this
      · rw [setDev_same, hm]; simp [feedAll, feed, hr]
      · simp [Ctx.setDev]
      · rw [hm]; simp [feedAll, feed, hr]; rfl

theorem syncDevice_spec {conv d c} (es : List Ev) (ha : Apart c d) : ∀ {s n}, Inv s → d < s.ndev →
    Ends Prod.fst s (RoomC c) (PlainC c) (syncDevice conv s d c n es) (fun x => Reads conv c d s x.1 es []) := by
  induction es with
  | nil => intro s n h hd; exact ⟨h, fun x _ => x, fun x _ => x, .nil _ _ _ _⟩
  | cons e es ih =>
    intro s n h hd
    unfold syncDevice
    refine Ends.bind (st := Prod.fst) (st' := Prod.fst) (fun x => syncDevice conv x.1 d c x.2 es)
      (dispatchOne_spec ha h hd) (fun x hx => by rw [hx]) (fun x hx => by rw [hx]) ?_
    intro x hx hr
    refine (ih (n := x.2) hx (Nat.lt_of_lt_of_le hd hr.mono.ndev)).weaken id id ?_
    intro y hy
    exact hr.trans hy

/-- The message that is given for an event. -/
def lagOf (time d : Nat) (e : Ev) : List Did :=
  if time = 0 ∨ e.time > time then []
  else if us2ms (time - e.time) > 10 then [.lag d (us2ms (time - e.time))] else []

theorem noteDelay_spec (conv c s d e) : Reads conv c d s (noteDelay s d e) [] (lagOf s.dispatchTime d e) ∧
    (Inv s → Inv (noteDelay s d e)) ∧ (noteDelay s d e).dev = s.dev ∧ (noteDelay s d e).dispatchTime = s.dispatchTime := by
  unfold noteDelay lagOf
  split
  · exact ⟨.nil _ _ _ _, id, rfl, rfl⟩
  · dsimp only
    split
    · refine ⟨⟨?_, rfl, by simp [feedAll, Ctx.say], ⟨[_], rfl, rfl, rfl⟩, fun _ _ _ _ => rfl⟩, ?_, rfl, rfl⟩
      · exact ⟨fun _ x h => ⟨x, h, rfl⟩, ⟨[_], rfl, rfl, by simp⟩, Nat.le_refl _, rfl, rfl, rfl⟩
      · intro h
        exact inv_same h [.lag d (us2ms (s.dispatchTime - e.time))] rfl rfl rfl rfl rfl rfl rfl rfl rfl rfl rfl (by simp [Idle])
          (fun _ => ⟨rfl, rfl, rfl, rfl⟩)
    · exact ⟨.nil _ _ _ _, id, rfl, rfl⟩

theorem Ends.of_dev {α : Type} {st : α → Ctx} {s s' R P Q} {r : M α} (h : Ends st s' R P r Q) (e : s'.dev = s.dev) : Ends st s R P r Q := by
  have hs : Sound s' ↔ Sound s := by unfold Sound; rw [e]
  have hn : NoMt s' ↔ NoMt s := by unfold NoMt; rw [e]
  cases r with
  | ok x => exact ⟨h.1, fun a => h.2.1 (hs.2 a), fun a => h.2.2.1 (hn.2 a), h.2.2.2⟩
  | error x => exact ⟨h.1, fun a => h.2.1 ⟨hs.2 a.1, a.2⟩, fun a => h.2.2 ⟨hn.2 a.1, a.2⟩⟩

theorem readLoop_spec {conv d c} (rs : List Read) (ha : Apart c d) : ∀ {s n once}, Inv s → d < s.ndev →
    Ends Prod.fst s (RoomC c) (PlainC c) (readLoop conv d c s n once rs)
      (fun x => Reads conv c d s x.1 (taken rs) (if once then [] else ((firstRead rs).map (lagOf s.dispatchTime d)).getD []) ∧
        x.2 = ending c.rc rs) := by
  induction rs with
  | nil =>
    intro s n once h hd
    refine ⟨h, fun x _ => x, fun x _ => x, ?_, rfl⟩
    have : (if once then [] else ((firstRead []).map (lagOf s.dispatchTime d)).getD []) = [] := by simp [firstRead]
    rw [this]; exact .nil _ _ _ _
  | cons r rs ih =>
    intro s n once h hd
    cases r with
    | ev e =>
      obtain ⟨t, ht⟩ : ∃ t, t = (if once then s else noteDelay s d e) := ⟨_, rfl⟩
      have hrt : Reads conv c d s t [] (if once then [] else lagOf s.dispatchTime d e) := by
        rw [ht]; cases once
        · exact (noteDelay_spec conv c s d e).1
        · exact .nil _ _ _ _
      have hti : Inv t := by
        rw [ht]; cases once
        · exact (noteDelay_spec conv c s d e).2.1 h
        · exact h
      have htd : t.dev = s.dev := by
        rw [ht]; cases once
        · exact (noteDelay_spec conv c s d e).2.2.1
        · rfl
      have htt : Ends Prod.fst s (RoomC c) (PlainC c) (dispatchOne conv t d c n e) (fun x => Reads conv c d t x.1 [e] []) :=
        (dispatchOne_spec ha hti (Nat.lt_of_lt_of_le hd hrt.mono.ndev)).of_dev htd
      unfold readLoop
      rw [← ht]
      refine Ends.bind (st := Prod.fst) (st' := Prod.fst) (fun x => readLoop conv d c x.1 x.2 true rs)
        htt (fun x hx => by rw [hx]) (fun x hx => by rw [hx]) ?_
      intro x hx hr
      have hsx := hrt.trans hr
      refine (ih (n := x.2) (once := true) hx (Nat.lt_of_lt_of_le hd hsx.mono.ndev)).weaken id id ?_
      rintro y ⟨hy, hy2⟩
      refine ⟨?_, hy2⟩
      have := hsx.trans hy
      cases once <;> simpa [taken, firstRead] using this
    | dropped e sync rc =>
      unfold readLoop
      refine Ends.bind (st := Prod.fst) (st' := Prod.fst) 
        (fun x => match syncDevice conv x.1 d c x.2 sync with
          | .error y => .error y
          | .ok (s, n) => if rc = EAGAIN then readLoop conv d c s n once rs else .ok (s, rc)) (dispatchOne_spec ha h hd)
        (fun x hx => by rw [hx]; obtain ⟨x1, x2⟩ := x; dsimp only; generalize syncDevice conv x1 d c x2 sync = r; cases r <;> rfl) (fun x hx => by rw [hx]) ?_
      intro x hx hr
      have hxd := Nat.lt_of_lt_of_le hd hr.mono.ndev
      refine Ends.bind (st := Prod.fst) (st' := Prod.fst) 
        (fun y => if rc = EAGAIN then readLoop conv d c y.1 y.2 once rs else .ok (y.1, rc)) (syncDevice_spec sync ha hx hxd)
        (fun x hx => by rw [hx]) (fun x hx => by rw [hx]) ?_
      intro y hy hyr
      have hsy := hr.trans hyr
      split
      · rename_i hrc
        have hrc' : rc = 11 := hrc
        refine (ih (n := y.2) (once := once) hy (Nat.lt_of_lt_of_le hd hsy.mono.ndev)).weaken id id ?_
        rintro z ⟨hz, hz2⟩
        refine ⟨?_, by rw [hz2]; simp [ending, hrc']⟩
        have := hsy.trans hz
        rw [hsy.mono.time] at this
        cases once <;> simpa [taken, firstRead, hrc'] using this
      · rename_i hrc
        have hrc' : ¬ rc = 11 := hrc
        refine ⟨hy, fun x _ => x, fun x _ => x, ?_, by simp [ending, hrc']⟩
        cases once <;> simpa [taken, firstRead, hrc'] using hsy

end Libinput.Dispatch
