import Verif.Dispatch.Sync
/-
The main loop: sources are never used after they are freed, everybody who has something to say is called once, events are handled
in the order they came, a device's state is caught up with after events were lost.
-/
namespace Libinput.Dispatch
open Spec

/-- The states any history of fair calls leads to. -/
def Reach (conv : Conv) (s : Ctx) : Prop := ∃ ops, (∀ op ∈ ops, Fair op) ∧ run conv init ops = .ok s

theorem Reach.inv {conv s} (h : Reach conv s) : Inv s := by
  obtain ⟨ops, hf, hr⟩ := h; exact run_inv hf hr

/-- Concrete histories can be asked about. -/
def ask (r : M Ctx) (f : Ctx → Bool) : Bool :=
  match r with
  | .ok s => f s
  | .error _ => false
def fails (r : M Ctx) (e : Fault) : Bool :=
  match r with
  | .ok _ => false
  | .error x => x == e
theorem fails_iff {r e} : fails r e = true ↔ r = .error e := by
  cases r with
  | ok s => simp [fails]
  | error x => simp [fails]

/-- A converter that passes everything on. -/
def same : Conv := fun _ e => [e]

/-! ### Memory -/

/-- Whatever the callers and the devices do, no source is used after it was freed, none is missing and none is removed twice.  All
that can go wrong is that a converter is used after it was freed. -/
theorem no_fault {conv ops} (hf : ∀ op ∈ ops, Fair op) : (∃ s, run conv init ops = .ok s) ∨ run conv init ops = .error .mtdev := by
  have h := run_spec (conv := conv) ops inv_init hf
  rcases hr : run conv init ops with e | s
  · rw [hr] at h; right; rw [h.1]
  · left; exact ⟨s, rfl⟩

/-- Not even that, if the epoll instance has room for the devices that are resumed. -/
theorem no_fault_with_room {conv ops} (hf : ∀ op ∈ ops, Fair op) (hr : ∀ op ∈ ops, HasRoom op) : ∃ s, run conv init ops = .ok s := by
  have h := run_spec (conv := conv) ops inv_init hf
  rcases hx : run conv init ops with e | s
  · rw [hx] at h; exact absurd ⟨sound_init, hr⟩ h.2.1
  · exact ⟨s, rfl⟩

/-- Nor if no device needs a converter. -/
theorem no_fault_plain {conv ops} (hf : ∀ op ∈ ops, Fair op) (hp : ∀ op ∈ ops, AllPlain op) : ∃ s, run conv init ops = .ok s := by
  have h := run_spec (conv := conv) ops inv_init hf
  rcases hx : run conv init ops with e | s
  · rw [hx] at h; exact absurd ⟨nomt_init, hp⟩ h.2.2
  · exact ⟨s, rfl⟩

/-- A switch suspends the touchpad in the round in which the touchpad has something to say, and resumes it later; then it is removed. -/
def lid : List Op :=
  [.act (.create false true), .act (.create false false),
   .dispatch 5000 none [(.dev 1, { reads := [.ev ⟨4000, 5, 0, 1⟩, .ev ⟨4000, 0, 0, 0⟩], react := fun n => if n = 0 then [.suspend 0] else [] }),
     (.dev 0, { reads := [.ev ⟨4500, 1, 30, 1⟩] })],
   .dispatch 6000 none [(.dev 1, { reads := [.ev ⟨5500, 5, 0, 0⟩], react := fun n => if n = 0 then [.resume 0 .fine] else [] })],
   .dispatch 7000 none [(.dev 0, { reads := [.ev ⟨6500, 1, 30, 1⟩, .ev ⟨6500, 0, 0, 0⟩] }), (.timer, { react := fun _ => [.remove 1 false] })],
   .act (.remove 0 true)]

example : (∀ op ∈ lid, HasRoom op) ∧ (∀ op ∈ lid, AllPlain op) := by
  constructor
  all_goals
    intro op hop
    simp only [lid, List.mem_cons, List.not_mem_nil, or_false] at hop
    rcases hop with rfl | rfl | rfl | rfl | rfl | rfl <;> simp [HasRoom, AllPlain, Room, Plain] <;>
      first
        | (refine ⟨fun n a => ?_, ?_⟩ <;> (try (split <;> simp)))
        | (intro n a; split <;> simp)
        | (intro n a h d; subst h; simp)
        | skip

example : ∀ op ∈ lid, Fair op := by
  intro op hop
  simp only [lid, List.mem_cons, List.not_mem_nil, or_false] at hop
  rcases hop with rfl | rfl | rfl | rfl | rfl | rfl <;> simp [Fair, NotOneself, about]

example : ask (run same init lid) (fun s => s.log == [.watch 0 .timer, .watch 1 (.dev 0), .watch 2 (.dev 1),
  .call 2 (.dev 1), .flush 4000, .event 1 ⟨4000, 5, 0, 1⟩, .unwatch 1, .flush 4000, .event 1 ⟨4000, 0, 0, 0⟩, .free 1,
  .call 2 (.dev 1), .flush 5500, .event 1 ⟨5500, 5, 0, 0⟩, .watch 3 (.dev 0), .resumed 0 0,
  .call 3 (.dev 0), .flush 6500, .event 0 ⟨6500, 1, 30, 1⟩, .flush 6500, .event 0 ⟨6500, 0, 0, 0⟩, .call 0 .timer, .unwatch 2, .free 2,
  .unwatch 3]) = true := by decide +kernel

/-- The order of things: whatever happens, a source is called only between being watched and being unwatched, is unwatched once, and
is freed once, after that. -/
theorem order {conv s} (h : Reach conv s) : Proper s.log := h.inv.proper

/-- After each call of `libinput_dispatch` that could wait for events, everything that was unwatched is freed. -/
theorem nothing_left {conv s now ready t} (h : Reach conv s) (hf : ∀ r ∈ ready, NotOneself r)
    (hr : dispatch conv s now none ready = .ok t) : ∀ i, Did.unwatch i ∈ t.log → Did.free i ∈ t.log := by
  have hd := dispatch_spec (conv := conv) (now := now) (wait := none) h.inv hf
  rw [hr] at hd
  obtain ⟨hi, _, _, hq⟩ := hd
  rcases hq with ⟨e, he, _⟩ | ⟨_, u, hu, hui, rfl⟩
  · simp at he
  · exact fun i => freed_of_empty hi rfl i

/-- After the last reference of a context is given up, everything that was ever watched is freed, and nothing is watched. -/
theorem destroy_frees {conv s kept t} (h : Reach conv s) (hc : s.closed = false) (hr : destroy s false kept = .ok t) :
    (∀ i o, Did.watch i o ∈ t.log → Did.unwatch i ∈ t.log ∧ Did.free i ∈ t.log) ∧ t.epoll = [] := by
  have hd := destroy_spec (kept := kept) h.inv hc
  rw [hr] at hd
  obtain ⟨hi, _, _, _, hh, _, he⟩ := hd
  have hi : Inv t := hi
  refine ⟨fun i o hw => ?_, he⟩
  have hf := hi.logFreed i (hi.logBound i o hw) (hh i)
  refine ⟨?_, hf⟩
  obtain ⟨a, b, hab⟩ := List.append_of_mem hf
  have := hi.proper a _ b hab
  rw [hab]; exact List.mem_append_left _ this.1

example : ask (run same init ([.enable true [(false, false), (true, true)]] ++ [.destroy false (fun _ => true)])) (fun s => s.log ==
  [.watch 0 .timer, .watch 1 .monitor, .watch 2 (.dev 0), .watch 3 (.dev 1), .unwatch 1, .unwatch 2, .unwatch 3, .unwatch 0,
   .free 0, .free 3, .free 2, .free 1]) = true := by decide +kernel

/-- If waiting for events fails nobody is called and nothing changes but the count of calls. -/
theorem failed_wait (conv s now e ready) : ∃ t, dispatch conv s now (some e) ready = .ok t ∧ t.log = s.log ∧ t.epoll = s.epoll ∧
    t.heap = s.heap ∧ t.dev = s.dev := ⟨_, rfl, rfl, rfl, rfl, rfl⟩

/-! ### Who is called -/

theorem watched_iff {s o} (h : Inv s) : Watched s o ↔ holder s o ≠ none := by
  constructor
  · rintro ⟨w, hw, rfl⟩
    rw [h.held _ _ _ (h.watch w hw)]; simp
  · intro hn
    rcases hh : holder s o with _ | i
    · exact absurd hh hn
    · obtain ⟨f, hf⟩ := h.holds o i hh
      exact ⟨_, h.watched _ _ _ hf, rfl⟩

theorem nodup_of_map {α β : Type} {f : α → β} : ∀ {l : List α}, (l.map f).Nodup → l.Nodup := by
  intro l
  induction l with
  | nil => intro _; exact .nil
  | cons a l ih =>
    intro h
    rw [List.map_cons, List.nodup_cons] at h
    rw [List.nodup_cons]
    exact ⟨fun ha => h.1 (List.mem_map.2 ⟨a, ha, rfl⟩), ih h.2⟩

theorem eq_single {α : Type} {l : List α} {w} (hn : l.Nodup) (hw : w ∈ l) (h : ∀ x ∈ l, x = w) : l = [w] := by
  match l, hn, hw, h with
  | [], _, hw, _ => simp at hw
  | [a], _, _, h => rw [h a (by simp)]
  | a :: b :: l, hn, _, h =>
    have ha := h a (by simp)
    have hb := h b (by simp)
    rw [List.nodup_cons] at hn
    exact absurd (by rw [ha, ← hb]; simp) hn.1

theorem watch_one {s w} (h : Inv s) (hw : w ∈ s.epoll) : s.epoll.filter (fun x => x.owner = w.owner) = [w] := by
  apply eq_single
  · exact (nodup_of_map h.nodup).sublist List.filter_sublist
  · simp [hw]
  · intro x hx
    simp only [List.mem_filter, decide_eq_true_eq] at hx
    have h1 := h.watch w hw
    have h2 := h.watch x hx.1
    have e := h.held _ _ _ h2
    rw [hx.2, h.held _ _ _ h1] at e
    cases x; cases w; simp only [Option.some.injEq] at e hx h1 h2 ⊢
    subst e
    rw [h1] at h2; cases h2; rfl

theorem watch_none {s o} (h : ¬ Watched s o) : s.epoll.filter (fun x => x.owner = o) = [] := by
  rw [List.filter_eq_nil_iff]
  intro w hw ho
  simp at ho
  exact h ⟨w, hw, ho⟩

/-- Each source is reported once. -/
theorem reported_nodup {s ready} (h : Inv s) (hn : (ready.map (·.1)).Nodup) : ((reported s ready).map (·.1)).Nodup := by
  unfold reported
  rw [List.map_take]
  refine List.Nodup.sublist (List.take_sublist _ _) ?_
  induction ready with
  | nil => simp
  | cons r ready ih =>
    rw [List.map_cons, List.nodup_cons] at hn
    have ih := ih hn.2
    rw [List.flatMap_cons, List.map_append]
    by_cases hw : Watched s r.1
    · obtain ⟨w, hw, ho⟩ := hw
      rw [← ho, watch_one h hw]
      simp only [List.map_cons, List.map_nil, List.singleton_append]
      rw [List.nodup_cons]
      refine ⟨?_, ih⟩
      intro hx
      simp only [List.map_flatMap, List.map_map, List.mem_flatMap, List.mem_map, List.mem_filter, Function.comp] at hx
      obtain ⟨r', hr', w', ⟨hw', ho'⟩, hs⟩ := hx
      simp at ho'
      have h1 := h.watch w hw
      have h2 := h.watch w' hw'
      rw [hs, h1] at h2
      simp at h2
      exact hn.1 (List.mem_map.2 ⟨r', hr', by rw [← ho', ← h2.2, ho]⟩)
    · rw [watch_none hw]; simpa using ih

theorem reported_length {s ready} (h : Inv s) (hl : ready.length ≤ 32) : reported s ready =
    ready.flatMap (fun r => (s.epoll.filter (fun w => w.owner = r.1)).map (fun w => (w.src, r.2))) := by
  unfold reported
  rw [List.take_of_length_le]
  refine Nat.le_trans ?_ hl
  clear hl
  induction ready with
  | nil => simp
  | cons r ready ih =>
    rw [List.flatMap_cons, List.length_append, List.length_cons]
    have : ((s.epoll.filter (fun w => w.owner = r.1)).map (fun w => (w.src, r.2))).length ≤ 1 := by
      by_cases hw : Watched s r.1
      · obtain ⟨w, hw, ho⟩ := hw
        rw [← ho, watch_one h hw]; simp
      · rw [watch_none hw]; simp
    omega

/-- One call of `libinput_dispatch` calls those that have something to say, nobody twice, in the order they are reported; whoever is
not called was unwatched by a callback before; and the devices get the events they were sent, in that order, timers being served
before each event up to its time (said here for devices that need no converter). -/
theorem round {conv s now ready t} (h : Reach conv s) (hf : ∀ r ∈ ready, NotOneself r) (hn : (ready.map (·.1)).Nodup)
    (hr : dispatch conv s now none ready = .ok t) :
    ∃ (l : List Did) (called : List (Nat × Call)), t.log = s.log ++ l ∧ called.Sublist (reported s ready) ∧ calls l = called.map (·.1) ∧ (calls l).Nodup ∧
      (∀ r ∈ reported s ready, r ∈ called ∨ Did.unwatch r.1 ∈ l) ∧
      ((∀ d, (s.dev d).mt = .null ∧ (s.dev d).needMt = false) → (∀ r ∈ ready, ∀ n, ∀ a ∈ r.2.react n, Plain a) →
        handled l = called.flatMap (work s)) := by
  have hd := dispatch_spec (conv := conv) (now := now) (wait := none) h.inv hf
  rw [hr] at hd
  obtain ⟨hi, _, _, hq⟩ := hd
  rcases hq with ⟨e, he, _⟩ | ⟨_, u, hu, hui, rfl⟩
  · simp at he
  obtain ⟨l, done, h1, h2, h3, h4, h5, h6, h7⟩ := hu.done
  have hfree : ∀ ds : List Nat, calls (ds.map Did.free) = [] ∧ handled (ds.map Did.free) = [] := by
    intro ds; induction ds with
    | nil => exact ⟨rfl, rfl⟩
    | cons x ds ih => exact ⟨ih.1, ih.2⟩
  have hc : calls (l ++ u.destroy.map Did.free) = done.map (·.1) := by rw [calls_append, h3, (hfree _).1, List.append_nil]
  refine ⟨l ++ u.destroy.map .free, done, ?_, h2, hc, ?_, ?_, ?_⟩
  · show u.log ++ _ = _; rw [h1]; show (s.log ++ l) ++ _ = _; rw [List.append_assoc]
  · rw [hc]; exact (reported_nodup h.inv hn).sublist (h2.map _)
  · intro r hr
    rcases h5 r hr with hx | hx
    · exact .inl hx
    · right
      rw [h1] at hx
      rcases List.mem_append.1 hx with hx | hx
      · exfalso
        obtain ⟨w, hw, c, _, rfl⟩ := reported_mem hr
        exact (not_dead h.inv (h.inv.watch w hw)).2.1 hx
      · exact List.mem_append_left _ hx
  · intro a b
    rw [handled_append, (hfree _).2, List.append_nil]
    refine h7 (fun d => a d) ?_
    intro r hr
    obtain ⟨w, _, c, hr', rfl⟩ := reported_mem hr
    exact b _ hr'

/-- Up to 32 that have something to say are all reported, and only they. -/
theorem all_reported {conv s ready} (h : Reach conv s) (hl : ready.length ≤ 32) (i c) :
    (i, c) ∈ reported s ready ↔ ∃ w ∈ s.epoll, w.src = i ∧ (w.owner, c) ∈ ready := by
  rw [reported_length h.inv hl]
  simp only [List.mem_flatMap, List.mem_map, List.mem_filter, decide_eq_true_eq, Prod.mk.injEq]
  constructor
  · rintro ⟨r, hr, w, ⟨hw, ho⟩, hs, hc⟩
    exact ⟨w, hw, hs, by rw [ho, ← hc]; exact hr⟩
  · rintro ⟨w, hw, hs, hr⟩
    exact ⟨_, hr, w, ⟨hw, rfl⟩, hs, rfl⟩

/-- Three devices, the first of which suspends the second. -/
example : ask (run same init [.act (.create false false), .act (.create false false), .act (.create false false),
    .dispatch 100 none [(.dev 0, { reads := [.ev ⟨50, 5, 0, 1⟩], react := fun _ => [.suspend 1] }), (.dev 1, { reads := [.ev ⟨60, 1, 30, 1⟩] }),
      (.dev 2, { reads := [.ev ⟨70, 1, 31, 1⟩] })]]) (fun s => s.log.drop 4 ==
    [.call 1 (.dev 0), .flush 50, .event 0 ⟨50, 5, 0, 1⟩, .unwatch 2, .call 3 (.dev 2), .flush 70, .event 2 ⟨70, 1, 31, 1⟩, .free 2]) = true := by
  decide +kernel

/-! ### What a device gets -/

theorem feedAll_live (conv es) : ∀ m : Mt, (feedAll conv (.live m) es).1 = .live ⟨m.put ++ es, left conv m.put m.pending es⟩ ∧
    (feedAll conv (.live m) es).2 ++ left conv m.put m.pending es = m.pending ++ made conv m.put es := by
  induction es with
  | nil => intro m; simp [feedAll, left, made]
  | cons e es ih =>
    intro m
    have hrep : e.isReport = true ↔ e.type = 0 ∧ e.code = 0 := by simp [Ev.isReport]
    by_cases hr : e.isReport = true
    · have hf : feed conv (.live m) e = (.live ⟨m.put ++ [e], []⟩, m.pending ++ conv m.put e) := by simp [feed, hr]
      obtain ⟨h1, h2⟩ := ih ⟨m.put ++ [e], []⟩
      simp only [feedAll, hf, left, made, if_pos (hrep.1 hr)]
      refine ⟨by rw [h1]; simp, ?_⟩
      dsimp only at h2
      rw [List.append_assoc, h2]; simp
    · have hf : feed conv (.live m) e = (.live ⟨m.put ++ [e], m.pending ++ conv m.put e⟩, []) := by simp [feed, hr]
      obtain ⟨h1, h2⟩ := ih ⟨m.put ++ [e], m.pending ++ conv m.put e⟩
      simp only [feedAll, hf, left, made, if_neg (fun x => hr (hrep.2 x))]
      refine ⟨by rw [h1]; simp, ?_⟩
      dsimp only at h2
      rw [List.nil_append, h2]; simp

theorem frees_silent (ds : List Nat) : calls (ds.map Did.free) = [] ∧ handled (ds.map Did.free) = [] ∧ lags (ds.map Did.free) = [] := by
  induction ds with
  | nil => exact ⟨rfl, rfl, rfl⟩
  | cons x ds ih => exact ⟨ih.1, ih.2.1, ih.2.2⟩

theorem one_called {conv s now d c t w} (h : Inv s) (hw : w ∈ s.epoll) (ho : w.owner = .dev d) (ha : NotOneself (.dev d, c))
    (hr : dispatch conv s now none [(.dev d, c)] = .ok t) :
    ∃ u, Called conv c d w.src ((snapshot s now).say (.call w.src (.dev d))) u ∧ t = dropped u ∧ Inv u := by
  have hrep : reported s [(.dev d, c)] = [(w.src, c)] := by
    unfold reported
    simp only [List.flatMap_cons, List.flatMap_nil, List.append_nil]
    rw [← ho, watch_one h hw]; rfl
  have hrep' : reported (snapshot s now) [(.dev d, c)] = [(w.src, c)] := hrep
  have hx := h.watch w hw
  have hs := inv_snapshot h now
  have hsx : (snapshot s now).heap w.src = some ⟨some w.file, .dev d⟩ := by
    show s.heap w.src = _; rw [hx, ho]
  have hsrc : (((snapshot s now).say (.call w.src (.dev d))).dev d).source = some w.src := by
    show (s.dev d).source = _
    have := h.held _ _ _ hx; rw [ho] at this; exact this
  have hap : Apart c d := fun n a h => ha d rfl n a h
  have hdd := deviceDispatch_spec (conv := conv) hap (inv_call hs hsx) hsrc
  unfold dispatch at hr
  dsimp only at hr
  rw [hrep'] at hr
  unfold callLoop at hr
  rw [hsx] at hr
  dsimp only [callback] at hr
  cases hcall : deviceDispatch conv ((snapshot s now).say (.call w.src (.dev d))) d c with
  | error e => rw [hcall] at hr; simp at hr
  | ok u =>
    rw [hcall] at hr hdd
    obtain ⟨hi, _, _, hcd⟩ := hdd
    have hi : Inv u := hi
    refine ⟨u, hcd, ?_, hi⟩
    dsimp only [callLoop] at hr
    rw [drop_eq hi.destroyNodup (fun i hx => by obtain ⟨o, ho⟩ := (hi.dead i).1 hx; exact ⟨_, ho⟩)] at hr
    cases hr; rfl

/-- A call of `libinput_dispatch` in which one device has something to say: it is called once; it handles the events taken from the
kernel, each once and in order, timers being served up to an event's time before it (if the device needs no converter); if it has a
converter, what the converter makes of them is handled, in order, up to the last report, and what comes after that waits in it.
The device goes on being read unless reading failed other than by there being nothing more to read or by a signal. -/
theorem one_device {conv s now d c t w} (h : Reach conv s) (hw : w ∈ s.epoll) (ho : w.owner = .dev d)
    (ha : NotOneself (.dev d, c)) (hr : dispatch conv s now none [(.dev d, c)] = .ok t) :
    ∃ l es, t.log = s.log ++ l ∧ calls l = [w.src] ∧ handled l = es.flatMap (handling d) ∧
      ((s.dev d).mt = .null → es = taken c.reads ∧ (t.dev d).mt = .null) ∧
      (∀ m, (s.dev d).mt = .live m →
        (t.dev d).mt = .live ⟨m.put ++ taken c.reads, left conv m.put m.pending (taken c.reads)⟩ ∧
        es ++ left conv m.put m.pending (taken c.reads) = m.pending ++ made conv m.put (taken c.reads)) ∧
      (Watched t (.dev d) ↔ GoesOn (ending c.rc c.reads)) := by
  obtain ⟨u, hc, rfl, hi⟩ := one_called h.inv hw ho ha hr
  obtain ⟨l, h1, h2, _⟩ := hc.log
  obtain ⟨l', k1, k2, _⟩ := hc.mono.log
  have : l' = l := by rw [h1] at k1; exact (List.append_cancel_left k1).symm
  subst this
  have hdev := hc.dev
  obtain ⟨f1, f2, _⟩ := frees_silent u.destroy
  refine ⟨[.call w.src (.dev d)] ++ l' ++ u.destroy.map .free, (feedAll conv (s.dev d).mt (taken c.reads)).2, ?_, ?_, ?_, ?_, ?_, ?_⟩
  · show u.log ++ _ = _
    rw [h1]; show (s.log ++ [_]) ++ l' ++ _ = _
    simp
  · rw [calls_append, calls_append, k2, f1]; rfl
  · rw [handled_append, handled_append, h2, f2, List.append_nil]; rfl
  · intro hm
    have : (u.dev d).mt = (feedAll conv (s.dev d).mt (taken c.reads)).1 := by rw [hdev]; rfl
    rw [hm, feedAll_null] at this
    rw [hm, feedAll_null]
    exact ⟨rfl, this⟩
  · intro m hm
    have : (u.dev d).mt = (feedAll conv (s.dev d).mt (taken c.reads)).1 := by rw [hdev]; rfl
    obtain ⟨g1, g2⟩ := feedAll_live conv (taken c.reads) m
    rw [hm] at this ⊢
    exact ⟨this.trans g1, g2⟩
  · have hiu := inv_dropped hi
    rw [watched_iff hiu]
    show (u.dev d).source ≠ none ↔ _
    rw [hdev]
    show (if GoesOn (ending c.rc c.reads) then some w.src else none) ≠ none ↔ _
    split <;> simp [*]

/-- Events were lost: the frame is closed, and the events of the sync come in its place. -/
example : ask (run same init [.act (.create false false), .dispatch 100 none [(.dev 0, { reads :=
      [.ev ⟨50, 1, 30, 1⟩, .dropped ⟨60, 0, 3, 0⟩ [⟨60, 1, 30, 0⟩, ⟨60, 0, 0, 0⟩] 11, .ev ⟨70, 1, 31, 1⟩] })]])
    (fun s => s.log.drop 3 == [.flush 50, .event 0 ⟨50, 1, 30, 1⟩, .flush 60, .event 0 ⟨60, 0, 0, 0⟩, .flush 60, .event 0 ⟨60, 1, 30, 0⟩,
      .flush 60, .event 0 ⟨60, 0, 0, 0⟩, .flush 70, .event 0 ⟨70, 1, 31, 1⟩]) = true := by decide +kernel

/-- A converter holds what comes after the last report; the device is unplugged. -/
example : ask (run same init [.act (.create true false),
      .dispatch 100 none [(.dev 0, { reads := [.ev ⟨50, 3, 53, 1⟩, .ev ⟨50, 0, 0, 0⟩, .ev ⟨60, 3, 53, 2⟩] })],
      .dispatch 200 none [(.dev 0, { reads := [.ev ⟨160, 0, 0, 0⟩], rc := 19 })]])
    (fun s => s.log.drop 2 == [.call 1 (.dev 0), .flush 50, .event 0 ⟨50, 3, 53, 1⟩, .flush 50, .event 0 ⟨50, 0, 0, 0⟩,
      .call 1 (.dev 0), .flush 60, .event 0 ⟨60, 3, 53, 2⟩, .flush 160, .event 0 ⟨160, 0, 0, 0⟩, .unwatch 1, .free 1] &&
      decide (s.epoll.map (·.owner) = [.timer])) = true := by decide +kernel

/-- The message that the caller is too slow is about the first event the device sent, comes only in a call in which the time was
taken, and only if the event is more than ten milliseconds older than that (modulo `2 ^ 32` milliseconds). -/
theorem slow {conv s now d c t w} (h : Reach conv s) (hw : w ∈ s.epoll) (ho : w.owner = .dev d)
    (ha : NotOneself (.dev d, c)) (hr : dispatch conv s now none [(.dev d, c)] = .ok t) :
    ∃ l, t.log = s.log ++ l ∧ ∀ x, x ∈ lags l ↔ ∃ e, firstRead c.reads = some e ∧ (s.tick + 1) % 256 % 10 = 0 ∧ now ≠ 0 ∧ e.time ≤ now ∧
      10 < (now - e.time) / 1000 % 2 ^ 32 ∧ x = .lag d ((now - e.time) / 1000 % 2 ^ 32) := by
  obtain ⟨u, hc, rfl, hi⟩ := one_called h.inv hw ho ha hr
  obtain ⟨l, h1, _, h3⟩ := hc.log
  obtain ⟨_, _, f3⟩ := frees_silent u.destroy
  refine ⟨[.call w.src (.dev d)] ++ l ++ u.destroy.map .free, ?_, ?_⟩
  · show u.log ++ _ = _
    rw [h1]; show (s.log ++ [_]) ++ l ++ _ = _
    simp
  · intro x
    have : lags ([.call w.src (.dev d)] ++ l ++ u.destroy.map .free) = lags l := by
      rw [lags_append, lags_append, f3, List.append_nil]; rfl
    rw [this, h3]
    have hdt : ((snapshot s now).say (.call w.src (.dev d))).dispatchTime = if (s.tick + 1) % 256 % 10 = 0 then now else 0 := rfl
    rw [hdt]
    cases hfr : firstRead c.reads with
    | none => simp
    | some e =>
      simp only [Option.map_some, Option.getD_some, Option.some.injEq, exists_eq_left']
      unfold lagOf us2ms
      by_cases htk : (s.tick + 1) % 256 % 10 = 0
      · simp only [htk, if_pos, true_and]
        by_cases h0 : now = 0 ∨ e.time > now
        · rw [if_pos h0]; simp; omega
        · rw [if_neg h0]
          split
          · rename_i hgt
            simp only [List.mem_singleton]
            constructor
            · intro hx; exact ⟨by omega, by omega, hgt, hx⟩
            · intro hx; exact hx.2.2.2
          · rename_i hgt; simp; omega
      · simp only [htk, if_false, false_and, true_or, if_true, List.not_mem_nil]

example : ask (run same init ([.act (.create false false)] ++ List.replicate 9 (.dispatch 1000 none []) ++
    [.dispatch 30000 none [(.dev 0, { reads := [.ev ⟨1000, 1, 30, 1⟩, .ev ⟨1000, 0, 0, 0⟩] })]])) (fun s => lags s.log == [.lag 0 29]) = true := by
  decide +kernel

/-! ### Suspending and resuming -/

/-- A device that is suspended is not read, and the others are not touched. -/
theorem suspended {conv s d t} (h : Reach conv s) (ha : (s.dev d).alive = true) (hr : act s (.suspend d) = .ok t) :
    ¬ Watched t (.dev d) ∧ ∀ e, e ≠ d → (Watched t (.dev e) ↔ Watched s (.dev e)) := by
  unfold act at hr; dsimp only at hr
  rw [if_pos ha] at hr
  rcases suspend_spec (d := d) h.inv with ⟨t', h1, h2, _, _, h5, h6, _⟩ | ⟨h1, _⟩
  · rw [h1] at hr; cases hr
    refine ⟨?_, fun e he => ?_⟩
    · rw [watched_iff h2]; show ¬ ((t.dev d).source ≠ none); rw [h5]; simp [asleep]
    · rw [watched_iff h2, watched_iff h.inv]
      show (t.dev e).source ≠ none ↔ (s.dev e).source ≠ none
      rw [h6 e he]
  · rw [h1] at hr; simp at hr

/-- Resuming a device that is suspended: it is read afterwards exactly if the result is 0 (an error number is never 0); and that is
so if the device is there, can be opened and watched. -/
theorem resumed_ok {conv s d r t} (h : Reach conv s) (ha : (s.dev d).alive = true) (hd : (s.dev d).fd = none)
    (hz : r ≠ .notOpened 0) (hr : act s (.resume d r) = .ok t) :
    ∃ l rc, t.log = s.log ++ l ++ [.resumed d rc] ∧ (rc = 0 ↔ Watched t (.dev d)) ∧
      ((s.dev d).removed = false → r = .fine → rc = 0) := by
  have hact : act s (.resume d r) = .ok ((resume s d r).1.say (.resumed d (resume s d r).2)) := by
    unfold act; dsimp only; rw [if_pos ha]
  rw [hact] at hr
  cases hr
  obtain ⟨h1, h2, _⟩ := resume_spec (r := r) h.inv ha
  have hw : Watched ((resume s d r).1.say (.resumed d (resume s d r).2)) (.dev d) ↔ ((resume s d r).1.dev d).source ≠ none :=
    (watched_iff h1 : Watched (resume s d r).1 (.dev d) ↔ _)
  rw [hw]
  have hs0 : (s.dev d).source = none := by
    rcases hh : (s.dev d).source with _ | i
    · rfl
    · obtain ⟨f, hf⟩ := h.inv.holds (.dev d) i hh
      have := h.inv.devFd d i f hh hf; rw [hd] at this; simp at this
  have hc := resume_cases s d r
  generalize resume s d r = p at hc
  cases hc with
  | awake hx => exact absurd hd hx
  | removed _ hx => exact ⟨[], -19, by simp [Ctx.say], by simp [hs0], fun a => by rw [hx] at a; simp at a⟩
  | notOpened e _ _ hre =>
    refine ⟨[], -e, by simp [Ctx.say], ?_, fun _ a => by rw [hre] at a; simp at a⟩
    have : e ≠ 0 := by rintro rfl; exact hz hre
    simp [hs0]; exact this
  | noMtdev _ _ hre _ => exact ⟨[], -19, by simp [Ctx.say, Ctx.setDev, openFile], by simp [setDev_same, hs0], fun _ a => by rw [hre] at a; simp at a⟩
  | notWatched u _ _ hre m _ hu =>
    subst hu
    exact ⟨[], -12, by simp [Ctx.say, Ctx.setDev, openFile], by simp [setDev_same, hs0], fun _ a => by rw [hre] at a; simp at a⟩
  | fine _ _ _ => exact ⟨[.watch s.fresh (.dev d)], 0, by simp [Ctx.say, opened], by simp [opened], fun _ _ => rfl⟩

example : ask (run same init [.act (.create false false), .act (.suspend 0), .act (.resume 0 (.notOpened 13)), .act (.resume 0 .fine),
    .act (.suspend 0), .act (.remove 0 true), .act (.resume 0 .fine)])
  (fun s => s.log.drop 2 == [.unwatch 1, .resumed 0 (-13), .watch 2 (.dev 0), .resumed 0 0, .unwatch 2, .resumed 0 (-19)]) = true := by decide +kernel

/-! ### After events were lost -/

/-- Whatever a device sends, whatever of it is lost because the buffer is too small, and whatever becomes of other devices: after
each call of `libinput_dispatch` the values that the handled events add up to are the device's own. -/
theorem caught_up {conv d ops hs s k s' k' codes init0 now react}
    (hf : ∀ op ∈ ops, Fair op) (hp : ∀ op ∈ ops, AllPlain op) (hr : run conv init ops = .ok s)
    (hw : Watched s (.dev d))
    (hk : k.codes = codes ∧ k.buf = [] ∧ k.state = init0 ∧ k.known = init0) (hz : ∀ c ∈ codes, c.1 ≠ 0)
    (ho : ∀ x ∈ hs ++ [.dispatch now react], Ordinary codes d x)
    (hh : happens conv d (s, k) (hs ++ [.dispatch now react]) = .ok (s', k')) :
    ∀ c ∈ codes, view init0 (eventsOf d (s'.log.drop s.log.length)) c = k'.state c := by
  obtain ⟨hi0, hn0⟩ : Inv s ∧ NoMt s := by
    have := run_spec (conv := conv) ops inv_init hf
    rw [hr] at this; exact ⟨this.1, this.2.2.1 nomt_init hp⟩
  -- one step
  have stp : ∀ (x : Happens) (q q' : Ctx × Kernel), Inv q.1 → NoMt q.1 → Watched q.1 (.dev d) → Ordinary codes d x →
      q.2.codes = codes → Caught q.2.state codes q.2.known q.2.buf → happen conv d q x = .ok q' →
      Inv q'.1 ∧ NoMt q'.1 ∧ Watched q'.1 (.dev d) ∧ q'.2.codes = codes ∧ Caught q'.2.state codes q'.2.known q'.2.buf ∧
        (∃ l, q'.1.log = q.1.log ++ l ∧ q'.2.known = view q.2.known (eventsOf d l)) ∧
        ((∃ n r, x = .dispatch n r) → ∀ c ∈ codes, q'.2.known c = q'.2.state c) := by
    rintro x ⟨s, k⟩ ⟨s', k'⟩ hi hn hw ho hc hca hx
    dsimp only at *
    cases x with
    | write e =>
      simp only [happen, Except.ok.injEq, Prod.mk.injEq] at hx
      obtain ⟨rfl, rfl⟩ := hx
      refine ⟨hi, hn, hw, hc, ?_, ⟨[], by simp, rfl⟩, fun ⟨_, _, h⟩ => by simp at h⟩
      show Caught (apply k.state e) codes k.known (if k.buf.length < k.cap then k.buf ++ [.ev e] else [.lost e.time, .ev e])
      split
      · exact caught_write e _ _ hca
      · trivial
    | dispatch now react =>
      obtain ⟨w, hwm, hwo⟩ := hw
      obtain ⟨c, hcc⟩ : ∃ c : Call, c = { reads := k.reads, rc := 11, react := react } := ⟨_, rfl⟩
      have hno : NotOneself (.dev d, c) := by
        intro d' hd' n a ha
        cases hd'
        subst hcc
        exact (ho n a ha).1
      simp only [happen] at hx
      rw [← hcc] at hx
      have hds := dispatch_spec (conv := conv) (now := now) (wait := none) (ready := [(.dev d, c)]) hi (by simpa using hno)
      cases hdi : dispatch conv s now none [(.dev d, c)] with
      | error e => rw [hdi] at hx; simp at hx
      | ok t =>
        rw [hdi] at hx hds
        simp only [Except.ok.injEq, Prod.mk.injEq] at hx
        obtain ⟨rfl, rfl⟩ := hx
        obtain ⟨ht, _, htn, _⟩ := hds
        have ht : Inv t := ht
        have htn : NoMt t := htn hn (by intro r hr n a ha; simp at hr; subst hr; subst hcc; exact (ho n a ha).2)
        obtain ⟨u, hcd, rfl, hu⟩ := one_called hi hwm hwo hno hdi
        obtain ⟨l, h1, h2, _⟩ := hcd.log
        obtain ⟨f1, f2, _⟩ := frees_silent u.destroy
        have hmt : (((snapshot s now).say (.call w.src (.dev d))).dev d).mt = .null := (hn d).1
        rw [hmt, feedAll_null] at h2
        have hl : eventsOf d ([.call w.src (.dev d)] ++ l ++ u.destroy.map .free) = taken k.reads := by
          rw [← eventsOf_handled, handled_append, handled_append, h2, f2, List.append_nil]
          show eventsOf d ([] ++ _) = _
          rw [List.nil_append, eventsOf_work, hcc]
        have hread := readBuf_caught k.codes k.state (hc ▸ hz) k.buf k.known (hc ▸ hca)
        refine ⟨ht, htn, ?_, hc, ?_, ⟨[.call w.src (.dev d)] ++ l ++ u.destroy.map .free, ?_, ?_⟩, fun _ => hc ▸ hread⟩
        · rw [watched_iff ht]
          show (u.dev d).source ≠ none
          rw [hcd.dev]
          show (if GoesOn (ending c.rc c.reads) then some w.src else none) ≠ none
          have : ending c.rc c.reads = 11 := by rw [hcc]; exact readBuf_ending _ _ _ _
          rw [this]; simp [GoesOn]
        · exact hc ▸ hread
        · show u.log ++ u.destroy.map .free = s.log ++ ([.call w.src (.dev d)] ++ l ++ u.destroy.map .free)
          rw [h1]; show (s.log ++ [_]) ++ l ++ _ = _
          simp
        · rw [hl]; exact readBuf_known _ _ _ _
  -- many
  have many : ∀ (hs : List Happens) (q q' : Ctx × Kernel), Inv q.1 → NoMt q.1 → Watched q.1 (.dev d) → (∀ x ∈ hs, Ordinary codes d x) →
      q.2.codes = codes → Caught q.2.state codes q.2.known q.2.buf → happens conv d q hs = .ok q' →
      (∃ l, q'.1.log = q.1.log ++ l ∧ q'.2.known = view q.2.known (eventsOf d l)) ∧
        ((∃ n r hs', hs = hs' ++ [.dispatch n r]) → ∀ c ∈ codes, q'.2.known c = q'.2.state c) := by
    intro hs
    induction hs with
    | nil =>
      intro q q' _ _ _ _ _ _ hx
      simp only [happens, Except.ok.injEq] at hx; subst hx
      exact ⟨⟨[], by simp, rfl⟩, fun ⟨_, _, hs', h⟩ => by simp at h⟩
    | cons x hs ih =>
      intro q q' hi hn hw ho hc hca hx
      unfold happens at hx
      cases h1 : happen conv d q x with
      | error e => rw [h1] at hx; simp at hx
      | ok p =>
        rw [h1] at hx; dsimp only at hx
        obtain ⟨a1, a2, a3, a4, a5, ⟨l, a6, a7⟩, a8⟩ := stp x q p hi hn hw (ho x List.mem_cons_self) hc hca h1
        obtain ⟨⟨m, b1, b2⟩, b3⟩ := ih p q' a1 a2 a3 (fun y hy => ho y (List.mem_cons_of_mem _ hy)) a4 a5 hx
        refine ⟨⟨l ++ m, by rw [b1, a6, List.append_assoc], by rw [b2, a7, eventsOf_append, view_append]⟩, ?_⟩
        rintro ⟨n, r, hs', he⟩
        cases hs' with
        | nil =>
          simp at he
          obtain ⟨rfl, rfl⟩ := he
          simp only [happens, Except.ok.injEq] at hx; subst hx
          exact a8 ⟨n, r, rfl⟩
        | cons y hs' =>
          simp at he
          exact b3 ⟨n, r, hs', he.2⟩
  obtain ⟨k1, k2, k3, k4⟩ := hk
  obtain ⟨⟨l, h1, h2⟩, h3⟩ := many _ (s, k) (s', k') hi0 hn0 hw ho k1
    (by show Caught k.state codes k.known k.buf; rw [k2]; intro c _; rw [k3, k4]) hh
  dsimp only at h1 h2 h3
  intro c hc
  rw [h1, List.drop_left, ← h3 ⟨now, react, hs, rfl⟩ c hc, h2, k4]

/-- A keyboard whose buffer has room for two events: `A` is released and `B` pressed while nobody reads. -/
def keys : Kernel := { codes := [(1, 30), (1, 31)], cap := 2, state := fun _ => 0, known := fun _ => 0 }
def busy : List Happens :=
  [.write ⟨10, 1, 30, 1⟩, .write ⟨10, 0, 0, 0⟩, .dispatch 20 (fun _ => []),
   .write ⟨30, 1, 30, 0⟩, .write ⟨30, 0, 0, 0⟩, .write ⟨40, 1, 31, 1⟩, .write ⟨40, 0, 0, 0⟩, .dispatch 50 (fun _ => [])]
example : (match run same init [.act (.create false false)] with
    | .ok s => match happens same 0 (s, keys) busy with
      | .ok (t, k) => eventsOf 0 t.log == [⟨10, 1, 30, 1⟩, ⟨10, 0, 0, 0⟩, ⟨40, 0, 0, 0⟩, ⟨40, 1, 30, 0⟩, ⟨40, 1, 31, 1⟩, ⟨40, 0, 0, 0⟩] &&
          k.state (1, 30) == 0 && k.state (1, 31) == 1
      | .error _ => false
    | .error _ => false) = true := by decide +kernel

/-! ### What does not hold -/

/-- A device that needs a converter is resumed while the epoll instance has no room: the converter is freed and the pointer to it is
kept, so that suspending the device again frees it twice. -/
theorem freed_twice : run same init [.act (.create true false), .act (.suspend 0), .act (.resume 0 .notWatched), .act (.suspend 0)] =
    .error .mtdev := by
  rw [← fails_iff]; decide +kernel

/-- After a failed resume the next one says it went well although the device is not read. -/
theorem resumed_but_not_read : ask (run same init [.act (.create false false), .act (.suspend 0), .act (.resume 0 .notWatched),
      .act (.resume 0 .fine)]) (fun s => s.log.getLast? == some (.resumed 0 0) && decide (s.epoll.map (·.owner) = [.timer])) = true := by
  decide +kernel

/-- If another process has the udev monitor's socket too (it was forked after the context was resumed), the socket is closed before
it is unwatched, so that it goes on being watched: the next event from udev uses the source after it was freed. -/
theorem monitor_after_free : run same init [.enable true [], .disable true (fun _ => false), .dispatch 10 none [],
      .dispatch 20 none [(.monitor, {})]] = .error .useAfterFree := by
  rw [← fails_iff]; decide +kernel

/-- A device that suspended itself while handling an event and could not be read to the end would be unwatched twice. -/
theorem suspending_oneself : run same init [.act (.create false false),
      .dispatch 10 none [(.dev 0, { reads := [.ev ⟨5, 5, 0, 1⟩], rc := 19, react := fun _ => [.suspend 0] })]] = .error .nullPointer := by
  rw [← fails_iff]; decide +kernel

end Libinput.Dispatch
