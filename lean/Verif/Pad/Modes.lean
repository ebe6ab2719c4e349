import Verif.Pad.Made
/-
The groups and modes that events carry.
-/
namespace Libinput.Pad

attribute [local irreducible] codes

/-- A group but for its mode. -/
def still (g : Group) : Group := { g with mode := 0 }

theorem still_eq {x g : Group} (h : still x = still g) : x.index = g.index ∧ x.numModes = g.numModes ∧ x.leds = g.leds ∧ x.buttons = g.buttons ∧
    x.rings = g.rings ∧ x.strips = g.strips ∧ x.toggles = g.toggles := by
  unfold still at h
  injection h with h1 h2 h3 h4 h5 h6 h7 h8
  exact ⟨h1, h2, h4, h5, h6, h7, h8⟩

def upd (cur : Nat → Nat) (e : Ev) : Nat → Nat :=
  match e.groupMode with | some (g, m) => (fun i => if i = g then m else cur i) | none => cur

theorem lastMode_eq (start : Nat → Nat) (es : List Ev) : lastMode start es = es.foldl upd start := rfl

/-- The groups `gs` are those the pad began with, with the modes `cur`. -/
structure GRel (gs0 gs : List Group) (cur : Nat → Nat) : Prop where
  same : gs.map still = gs0.map still
  mode : ∀ g ∈ gs, g.mode = cur g.index
  ok : GOk gs

def Chk (cfg : Cfg) (gs0 : List Group) (lit : Lit) (cur : Nat → Nat) : List Ev → Prop
  | [] => True
  | e :: es => Fits cfg gs0 e ∧ ModeRight cfg gs0 lit cur e ∧ Chk cfg gs0 lit (upd cur e) es

theorem chk_append (cfg : Cfg) (gs0 : List Group) (lit : Lit) (a b : List Ev) : ∀ cur,
    Chk cfg gs0 lit cur (a ++ b) ↔ Chk cfg gs0 lit cur a ∧ Chk cfg gs0 lit (a.foldl upd cur) b := by
  induction a with
  | nil => intro cur; simp [Chk]
  | cons e a ih => intro cur; simp only [List.cons_append, Chk, List.foldl_cons, ih, and_assoc]

theorem GRel.find {gs0 gs : List Group} {cur : Nat → Nat} (R : GRel gs0 gs cur) {g : Group} (hg : g ∈ gs) : ∃ x ∈ gs0, still x = still g := by
  have : still g ∈ gs0.map still := R.same ▸ List.mem_map_of_mem hg
  obtain ⟨x, hx, he⟩ := List.mem_map.1 this
  exact ⟨x, hx, he⟩

theorem nodup_index {gs : List Group} (nd : (gs.map Group.index).Nodup) {a b : Group} (ha : a ∈ gs) (hb : b ∈ gs) (h : a.index = b.index) : a = b := by
  induction gs with
  | nil => cases ha
  | cons g gs ih =>
    rw [List.map_cons, List.nodup_cons] at nd
    rcases List.mem_cons.1 ha with rfl | ha' <;> rcases List.mem_cons.1 hb with rfl | hb'
    · rfl
    · exact absurd (h ▸ List.mem_map_of_mem hb') nd.1
    · exact absurd (h ▸ List.mem_map_of_mem ha') nd.1
    · exact ih nd.2 ha' hb'

theorem GRel.nodup0 {gs0 gs : List Group} {cur : Nat → Nat} (R : GRel gs0 gs cur) : (gs0.map Group.index).Nodup := by
  have := congrArg (List.map Group.index) R.same
  simp only [List.map_map, Function.comp_def, still] at this
  have e : gs.map Group.index = gs0.map Group.index := this
  exact e ▸ R.ok.nodup

theorem upd_self (cur : Nat → Nat) (e : Ev) (g m : Nat) (h : e.groupMode = some (g, m)) (hm : m = cur g) : upd cur e = cur := by
  unfold upd
  rw [h]
  funext i
  dsimp only
  split
  · rename_i hi; rw [hi, hm]
  · rfl

/-- An event that carries the group's mode as it is. -/
theorem plain_chk {cfg : Cfg} {gs0 gs : List Group} {lit : Lit} {cur : Nat → Nat} (R : GRel gs0 gs cur) (e : Ev) (g : Group) (hg : g ∈ gs)
    (he : e.groupMode = some (g.index, g.mode)) (hf : Fits cfg gs0 e) (hs : ¬ isSwitch cfg gs0 e) :
    Chk cfg gs0 lit cur [e] ∧ GRel gs0 gs ([e].foldl upd cur) := by
  have hm := R.mode g hg
  refine ⟨⟨hf, fun g' m h => ⟨fun h => absurd h hs, fun _ => ?_⟩, trivial⟩, ?_⟩
  · rw [he] at h; injection h with h; injection h with h1 h2
    rw [← h1, ← h2]; exact hm
  · rw [List.foldl_cons, List.foldl_nil, upd_self cur e _ _ he hm]; exact R

theorem ring_chk (cfg : Cfg) (up : Bool) (a : Abs) (n : Nat) (s : Pad) (gs0 : List Group) (cur : Nat → Nat) (R : GRel gs0 s.groups cur) :
    Chk cfg gs0 s.lit cur (s.ring cfg up a n).2 ∧ GRel gs0 (s.ring cfg up a n).1.groups ((s.ring cfg up a n).2.foldl upd cur) ∧
      (s.ring cfg up a n).1.lit = s.lit := by
  unfold Pad.ring
  split
  · exact ⟨trivial, R, rfl⟩
  · split
    · exact ⟨trivial, R, rfl⟩
    · rename_i g hg
      have hm := List.mem_of_find?_eq_some hg
      have hp := List.find?_some hg
      obtain ⟨x, hx, he⟩ := R.find hm
      obtain ⟨e1, e2, e3, e4, e5, e6, e7⟩ := still_eq he
      have key := plain_chk (cfg := cfg) (lit := s.lit) R (.ring n (if up then .up else .angle (ringAngle cfg s.left a (s.raw a))) g.index g.mode) g hm rfl
        ⟨x, hx, e1, by unfold Group.hasRing at hp ⊢; rw [e5]; exact hp, by rw [e2]; exact (R.ok.mode g hm).1⟩ (fun h => h)
      exact ⟨key.1, key.2, rfl⟩

theorem strip_chk (cfg : Cfg) (up : Bool) (a : Abs) (n : Nat) (s : Pad) (gs0 : List Group) (cur : Nat → Nat) (R : GRel gs0 s.groups cur) :
    Chk cfg gs0 s.lit cur (s.strip cfg up a n).2 ∧ GRel gs0 (s.strip cfg up a n).1.groups ((s.strip cfg up a n).2.foldl upd cur) ∧
      (s.strip cfg up a n).1.lit = s.lit := by
  unfold Pad.strip
  split
  · exact ⟨trivial, R, rfl⟩
  · split
    · exact ⟨trivial, R, rfl⟩
    · rename_i g hg
      have hm := List.mem_of_find?_eq_some hg
      have hp := List.find?_some hg
      obtain ⟨x, hx, he⟩ := R.find hm
      obtain ⟨e1, e2, e3, e4, e5, e6, e7⟩ := still_eq he
      have key := plain_chk (cfg := cfg) (lit := s.lit) R (.strip n (if up then .up else stripPos cfg s.left a (s.raw a)) g.index g.mode) g hm rfl
        ⟨x, hx, e1, by unfold Group.hasStrip at hp ⊢; rw [e6]; exact hp, by rw [e2]; exact (R.ok.mode g hm).1⟩ (fun h => h)
      exact ⟨key.1, key.2, rfl⟩

theorem notifyAxes_chk (cfg : Cfg) (s : Pad) (gs0 : List Group) (cur : Nat → Nat) (R : GRel gs0 s.groups cur) :
    Chk cfg gs0 s.lit cur (s.notifyAxes cfg).2 ∧ GRel gs0 (s.notifyAxes cfg).1.groups ((s.notifyAxes cfg).2.foldl upd cur) ∧
      (s.notifyAxes cfg).1.lit = s.lit := by
  unfold Pad.notifyAxes
  dsimp only
  generalize (s.misc && s.raw .misc == 0) = up
  obtain ⟨c1, r1, l1⟩ := ring_chk cfg up .ring1 0 s gs0 cur R
  generalize s.ring cfg up .ring1 0 = A at c1 r1 l1
  obtain ⟨c2, r2, l2⟩ := ring_chk cfg up .ring2 1 A.1 gs0 _ r1
  generalize A.1.ring cfg up .ring2 1 = B at c2 r2 l2
  obtain ⟨c3, r3, l3⟩ := strip_chk cfg up .strip1 0 B.1 gs0 _ r2
  generalize B.1.strip cfg up .strip1 0 = C at c3 r3 l3
  obtain ⟨c4, r4, l4⟩ := strip_chk cfg up .strip2 1 C.1 gs0 _ r3
  generalize C.1.strip cfg up .strip2 1 = D at c4 r4 l4
  rw [l3, l2, l1] at c4
  rw [l2, l1] at c3
  rw [l1] at c2
  refine ⟨?_, ?_, ?_⟩
  · simp only [chk_append, List.foldl_append]
    exact ⟨⟨⟨c1, c2⟩, c3⟩, c4⟩
  · simp only [List.foldl_append]; exact r4
  · rw [l4, l3, l2, l1]

theorem update_still (cfg : Cfg) (lit : Lit) (g : Group) (n : Nat) (p : Bool) : still (g.update cfg lit n p) = still g := by
  unfold Group.update
  split
  · rfl
  · split
    · rfl
    · split <;> rfl

theorem map_key (cfg : Cfg) (c k : Nat) (h : cfg.map c = .key k) : k ∈ [576, 579, 632] ∧ cfg.keys k = true := by
  have base : ∀ c k, (match cfg.byId with
    | some w => fromWacom w.buttons 0 (fun _ => Map.unmapped)
    | none => fromKernel cfg.keys kernelCodes 0 (fun _ => Map.unmapped)).1 c ≠ .key k := by
    have W : ∀ (bs : List WButton) n (m : BMap), (∀ c k, m c ≠ .key k) → ∀ c k, (fromWacom bs n m).1 c ≠ .key k := by
      intro bs
      induction bs with
      | nil => intro n m h; exact h
      | cons b bs ih =>
        intro n m h
        unfold fromWacom
        split
        · exact ih _ _ h
        · apply ih
          intro c k
          unfold BMap.set
          split
          · simp
          · exact h c k
    have K : ∀ (cs : List Nat) n (m : BMap), (∀ c k, m c ≠ .key k) → ∀ c k, (fromKernel cfg.keys cs n m).1 c ≠ .key k := by
      intro bs
      induction bs with
      | nil => intro n m h; exact h
      | cons b bs ih =>
        intro n m h
        unfold fromKernel
        split
        · apply ih
          intro c k
          unfold BMap.set
          split
          · simp
          · exact h c k
        · exact ih _ _ h
    intro c k
    split
    · exact W _ _ _ (by simp) c k
    · exact K _ _ _ (by simp) c k
  unfold Cfg.map Cfg.buttons at h
  dsimp only at h
  generalize (match cfg.byId with
    | some w => fromWacom w.buttons 0 (fun _ => Map.unmapped)
    | none => fromKernel cfg.keys kernelCodes 0 (fun _ => Map.unmapped)).1 = m0 at base h
  unfold addKeys at h
  split at h
  · have : ∀ (m : BMap) (x : Nat), x ∈ [576, 579, 632] → (∀ c k, m c = .key k → k ∈ [576, 579, 632] ∧ cfg.keys k = true) →
        ∀ c k, (if cfg.keys x then m.set x (.key x) else m) c = .key k → k ∈ [576, 579, 632] ∧ cfg.keys k = true := by
      intro m x hx hm c k hk
      split at hk
      · rename_i hkx
        unfold BMap.set at hk
        split at hk
        · injection hk with hk; subst hk; exact ⟨hx, hkx⟩
        · exact hm c k hk
      · exact hm c k hk
    simp only [List.foldl_cons, List.foldl_nil] at h
    exact this _ 579 (by simp) (this _ 632 (by simp) (this _ 576 (by simp) (fun c k hk => absurd hk (base c k)))) c k h
  · exact absurd h (base c k)

theorem notifyButton_chk (cfg : Cfg) (p : Bool) (s : Pad) (c : Nat) (gs0 : List Group) (cur : Nat → Nat) (R : GRel gs0 s.groups cur) :
    Chk cfg gs0 s.lit cur (s.notifyButton cfg p c).2 ∧ GRel gs0 (s.notifyButton cfg p c).1.groups ((s.notifyButton cfg p c).2.foldl upd cur) ∧
      (s.notifyButton cfg p c).1.lit = s.lit := by
  unfold Pad.notifyButton
  split
  · exact ⟨trivial, R, rfl⟩
  · split
    · exact ⟨trivial, R, rfl⟩
    · rename_i k hk
      exact ⟨⟨map_key cfg c k hk, fun g m h => (by cases h), trivial⟩, R, rfl⟩
    · rename_i n hn
      split
      · exact ⟨trivial, R, rfl⟩
      · rename_i g hg
        dsimp only
        have hm := List.mem_of_find?_eq_some hg
        have hp := List.find?_some hg
        obtain ⟨x, hx, he⟩ := R.find hm
        obtain ⟨e1, e2, e3, e4, e5, e6, e7⟩ := still_eq he
        have us := still_eq (update_still cfg s.lit g n p)
        have xt : x.isToggle cfg n = g.isToggle cfg n := by unfold Group.isToggle; rw [e7]
        have sw : ∀ m, isSwitch cfg gs0 (.button n p g.index m) ↔ p = true ∧ g.isToggle cfg n = true := by
          intro m
          cases p
          · simp [isSwitch]
          · simp only [isSwitch, true_and]
            constructor
            · rintro ⟨y, hy, h1, h2⟩
              have : y = x := nodup_index R.nodup0 hy hx (by rw [h1, e1])
              rw [← xt, ← this]; exact h2
            · intro h; exact ⟨x, hx, e1, by rw [xt]; exact h⟩
        have mode_ok : (g.update cfg s.lit n p).mode < g.numModes := by
          have h0 := R.ok.mode g hm
          unfold Group.update
          split
          · exact h0.1
          · split
            · exact h0.1
            · split
              · rename_i m hr
                have := ((readMode_iff _ _ _).1 hr).1
                show m < _
                omega
              · exact h0.1
        refine ⟨⟨⟨x, hx, e1, by unfold Group.hasButton at hp ⊢; rw [e4]; exact hp, by rw [e2]; exact mode_ok⟩, ?_, trivial⟩, ?_, rfl⟩
        · intro g' m h
          simp only [Ev.groupMode, Option.some.injEq, Prod.mk.injEq] at h
          obtain ⟨rfl, rfl⟩ := h
          rw [sw]
          constructor
          · rintro ⟨rfl, ht⟩
            refine ⟨x, hx, e1, ?_⟩
            unfold Group.update
            simp only [Bool.true_eq_false, if_false, ht]
            split
            · rename_i m hr
              left
              have := (readMode_iff _ _ _).1 hr
              rw [e3]; exact this
            · rename_i hr
              right
              refine ⟨fun j hj => ?_, R.mode g hm⟩
              rw [e3] at hj
              rw [(readMode_iff _ _ _).2 hj] at hr; cases hr
          · intro h
            unfold Group.update
            split
            · exact R.mode g hm
            · rename_i h1
              split
              · exact R.mode g hm
              · rename_i h2
                exact absurd ⟨by simpa using h1, by simpa using h2⟩ h
        · have hgs : onGroup g.index (fun _ => g.update cfg s.lit n p) s.groups =
              s.groups.map (fun y => if y.index = g.index then g.update cfg s.lit n p else y) := rfl
          rw [hgs]
          refine ⟨?_, ?_, ?_, ?_⟩
          · rw [List.map_map, ← R.same]
            apply List.map_congr_left
            intro y hy
            simp only [Function.comp]
            split
            · rename_i hi
              rw [nodup_index R.ok.nodup hy hm hi, update_still]
            · rfl
          · intro y hy
            obtain ⟨z, hz, rfl⟩ := List.mem_map.1 hy
            simp only [List.foldl_cons, List.foldl_nil, upd, Ev.groupMode]
            split
            · rw [us.1, if_pos rfl]
            · rename_i hi
              exact R.mode z hz
          · rw [List.map_map]
            have : s.groups.map (Group.index ∘ fun y => if y.index = g.index then g.update cfg s.lit n p else y) = s.groups.map Group.index := by
              apply List.map_congr_left
              intro y hy
              simp only [Function.comp]
              split
              · rename_i hi; rw [us.1, hi]
              · rfl
            rw [this]; exact R.ok.nodup
          · intro y hy
            obtain ⟨z, hz, rfl⟩ := List.mem_map.1 hy
            split
            · rw [us.2.1, us.2.2.1]; exact ⟨mode_ok, (R.ok.mode g hm).2⟩
            · exact R.ok.mode z hz

theorem notifyMask_chk (cfg : Cfg) (p : Bool) (mask : Nat → Bool) (l : List Nat) (gs0 : List Group) : ∀ (s : Pad) (cur : Nat → Nat),
    GRel gs0 s.groups cur → Chk cfg gs0 s.lit cur (notifyMask cfg p mask l s).2 ∧
      GRel gs0 (notifyMask cfg p mask l s).1.groups ((notifyMask cfg p mask l s).2.foldl upd cur) ∧ (notifyMask cfg p mask l s).1.lit = s.lit := by
  induction l with
  | nil => intro s cur R; exact ⟨trivial, R, rfl⟩
  | cons c l ih =>
    intro s cur R
    unfold notifyMask
    dsimp only
    have A : ∃ r, (if mask c then s.notifyButton cfg p c else (s, [])) = r ∧ Chk cfg gs0 s.lit cur r.2 ∧ GRel gs0 r.1.groups (r.2.foldl upd cur) ∧ r.1.lit = s.lit := by
      split
      · exact ⟨_, rfl, notifyButton_chk cfg p s c gs0 cur R⟩
      · exact ⟨_, rfl, trivial, R, rfl⟩
    obtain ⟨r, er, c1, r1, l1⟩ := A
    rw [er]
    obtain ⟨c2, r2, l2⟩ := ih r.1 _ r1
    rw [l1] at c2
    rw [chk_append, List.foldl_append]
    exact ⟨⟨c1, c2⟩, r2, l2.trans l1⟩

theorem flush_chk (cfg : Cfg) (s : Pad) (gs0 : List Group) (cur : Nat → Nat) (R : GRel gs0 s.groups cur) :
    Chk cfg gs0 s.lit cur (s.flush cfg).2 ∧ GRel gs0 (s.flush cfg).1.groups ((s.flush cfg).2.foldl upd cur) ∧ (s.flush cfg).1.lit = s.lit := by
  unfold Pad.flush
  generalize codes = l
  have A : ∃ a, (if s.axesUpdated then
      let r := s.notifyAxes cfg
      ({ r.1 with axesUpdated := false }, r.2)
    else (s, [])) = a ∧ Chk cfg gs0 s.lit cur a.2 ∧ GRel gs0 a.1.groups (a.2.foldl upd cur) ∧ a.1.lit = s.lit := by
    split
    · exact ⟨_, rfl, notifyAxes_chk cfg s gs0 cur R⟩
    · exact ⟨_, rfl, trivial, R, rfl⟩
  obtain ⟨a, ea, c1, r1, l1⟩ := A
  rw [ea]
  have B : ∃ b, (if a.1.released then
      let r := notifyMask cfg false (fun c => a.1.prev c && !a.1.buttons c) l a.1
      ({ r.1 with released := false }.changeLeft, r.2)
    else (a.1, [])) = b ∧ Chk cfg gs0 s.lit (a.2.foldl upd cur) b.2 ∧ GRel gs0 b.1.groups (b.2.foldl upd (a.2.foldl upd cur)) ∧ b.1.lit = s.lit := by
    split
    · obtain ⟨c2, r2, l2⟩ := notifyMask_chk cfg false (fun c => a.1.prev c && !a.1.buttons c) l gs0 a.1 _ r1
      refine ⟨_, rfl, l1 ▸ c2, ?_, ?_⟩
      · dsimp only
        obtain ⟨lf, el⟩ := changeLeft_state { (notifyMask cfg false (fun c => a.1.prev c && !a.1.buttons c) l a.1).1 with released := false }
        rw [el]; exact r2
      · dsimp only
        obtain ⟨lf, el⟩ := changeLeft_state { (notifyMask cfg false (fun c => a.1.prev c && !a.1.buttons c) l a.1).1 with released := false }
        rw [el]; exact l2.trans l1
    · exact ⟨_, rfl, trivial, r1, l1⟩
  obtain ⟨b, eb, c2, r2, l2⟩ := B
  dsimp only
  rw [eb]
  have C : ∃ b', (if b.1.pressed then
      let r := notifyMask cfg true (fun c => b.1.buttons c && !b.1.prev c) l b.1
      ({ r.1 with pressed := false }, r.2)
    else (b.1, [])) = b' ∧ Chk cfg gs0 s.lit (b.2.foldl upd (a.2.foldl upd cur)) b'.2 ∧ GRel gs0 b'.1.groups (b'.2.foldl upd (b.2.foldl upd (a.2.foldl upd cur))) ∧ b'.1.lit = s.lit := by
    split
    · obtain ⟨c3, r3, l3⟩ := notifyMask_chk cfg true (fun c => b.1.buttons c && !b.1.prev c) l gs0 b.1 _ r2
      exact ⟨_, rfl, l2 ▸ c3, r3, l3.trans l2⟩
    · exact ⟨_, rfl, trivial, r2, l2⟩
  obtain ⟨b', eb', c3, r3, l3⟩ := C
  rw [eb']
  refine ⟨?_, ?_, l3⟩
  · rw [chk_append, chk_append, List.foldl_append]; exact ⟨⟨c1, c2⟩, c3⟩
  · rw [List.foldl_append, List.foldl_append]; exact r3

theorem fold_groups (evs : List KEv) : ∀ s : Pad, (evs.foldl kev s).groups = s.groups ∧ (evs.foldl kev s).lit = s.lit := by
  induction evs with
  | nil => intro s; exact ⟨rfl, rfl⟩
  | cons e evs ih =>
    intro s
    have : (kev s e).groups = s.groups ∧ (kev s e).lit = s.lit := by
      cases e with
      | abs a v => unfold kev; dsimp only; split <;> exact ⟨rfl, rfl⟩
      | key c v =>
        unfold kev Pad.setDown
        dsimp only
        split
        · exact ⟨rfl, rfl⟩
        · split <;> exact ⟨rfl, rfl⟩
    rw [List.foldl_cons, (ih _).1, (ih _).2]
    exact this

theorem lift_groups (l : List Nat) : ∀ s : Pad,
    (l.foldl (fun (t : Pad) c => if t.buttons c then t.setDown c false else t) s).groups = s.groups ∧
    (l.foldl (fun (t : Pad) c => if t.buttons c then t.setDown c false else t) s).lit = s.lit := by
  induction l with
  | nil => intro s; exact ⟨rfl, rfl⟩
  | cons c l ih =>
    intro s
    rw [List.foldl_cons, (ih _).1, (ih _).2]
    split <;> exact ⟨rfl, rfl⟩

theorem suspend_chk (cfg : Cfg) (s : Pad) (gs0 : List Group) (cur : Nat → Nat) (R : GRel gs0 s.groups cur) :
    Chk cfg gs0 s.lit cur (s.suspend cfg).2 ∧ GRel gs0 (s.suspend cfg).1.groups ((s.suspend cfg).2.foldl upd cur) ∧ (s.suspend cfg).1.lit = s.lit := by
  unfold Pad.suspend
  obtain ⟨g, l⟩ := lift_groups (codes.filter (fun c => decide (1 ≤ c))) s
  generalize List.foldl (fun (t : Pad) c => if t.buttons c then t.setDown c false else t) s (codes.filter (fun c => decide (1 ≤ c))) = s' at g l
  have := flush_chk cfg s' gs0 cur (g ▸ R)
  rw [l] at this
  exact this

theorem step_chk (cfg : Cfg) (s : Pad) (op : Op) (gs0 : List Group) (cur : Nat → Nat) (R : GRel gs0 s.groups cur) :
    Chk cfg gs0 s.lit cur (step cfg s op).2 ∧ GRel gs0 (step cfg s op).1.groups ((step cfg s op).2.foldl upd cur) ∧
      ((step cfg s op).1.aborted = false → (step cfg s op).1.lit = litAfter s.lit [op]) := by
  unfold step
  split
  · rename_i h
    exact ⟨trivial, R, fun hx => by dsimp only at hx; rw [h] at hx; cases hx⟩
  · cases op with
    | frame evs =>
      dsimp only
      split
      · obtain ⟨g, l⟩ := fold_groups evs s
        have := flush_chk cfg _ gs0 cur (g ▸ R)
        rw [l] at this
        exact ⟨this.1, this.2.1, fun _ => this.2.2⟩
      · exact ⟨trivial, R, fun _ => rfl⟩
    | suspend =>
      dsimp only
      split
      · have := suspend_chk cfg s gs0 cur R
        exact ⟨this.1, this.2.1, fun _ => this.2.2⟩
      · exact ⟨trivial, R, fun _ => rfl⟩
    | resume raw =>
      dsimp only
      split <;> exact ⟨trivial, R, fun _ => rfl⟩
    | setLeft b =>
      dsimp only
      obtain ⟨l, e⟩ := changeLeft_state { s with wantLeft := b }
      rw [e]
      exact ⟨trivial, R, fun _ => rfl⟩
    | setDisabled b =>
      dsimp only
      split
      · exact ⟨trivial, R, fun _ => rfl⟩
      · split
        · have := suspend_chk cfg s gs0 cur R
          exact ⟨this.1, this.2.1, fun _ => this.2.2⟩
        · exact ⟨trivial, R, fun _ => rfl⟩
    | leds l => exact ⟨trivial, R, fun _ => rfl⟩

theorem run_append (cfg : Cfg) (a b : List Op) : ∀ s, run cfg s (a ++ b) =
    ((run cfg (run cfg s a).1 b).1, (run cfg s a).2 ++ (run cfg (run cfg s a).1 b).2) := by
  induction a with
  | nil => intro s; rfl
  | cons op a ih => intro s; simp only [List.cons_append, run, ih, List.append_assoc]

theorem chk_fits (cfg : Cfg) (gs0 : List Group) (lit : Lit) (cur : Nat → Nat) (es : List Ev) (h : Chk cfg gs0 lit cur es) : ∀ e ∈ es, Fits cfg gs0 e := by
  induction es generalizing cur with
  | nil => intro e he; cases he
  | cons x es ih =>
    intro e he
    rcases List.mem_cons.1 he with rfl | he
    · exact h.1
    · exact ih _ h.2.2 e he

theorem run_chk (cfg : Cfg) (ops : List Op) (gs0 : List Group) : ∀ (s : Pad) (cur : Nat → Nat), GRel gs0 s.groups cur →
    GRel gs0 (run cfg s ops).1.groups ((run cfg s ops).2.foldl upd cur) ∧
    ((run cfg s ops).1.aborted = false → (run cfg s ops).1.lit = litAfter s.lit ops) ∧
    (∀ e ∈ (run cfg s ops).2, Fits cfg gs0 e) := by
  induction ops with
  | nil => intro s cur R; exact ⟨R, fun _ => rfl, fun e h => (by cases h)⟩
  | cons op ops ih =>
    intro s cur R
    obtain ⟨c1, r1, l1⟩ := step_chk cfg s op gs0 cur R
    obtain ⟨r2, l2, f2⟩ := ih _ _ r1
    simp only [run]
    refine ⟨by rw [List.foldl_append]; exact r2, fun ha => ?_, fun e he => ?_⟩
    · by_cases hs : (step cfg s op).1.aborted = true
      · rw [run_aborted cfg ops _ hs] at ha
        dsimp only at ha
        rw [hs] at ha; cases ha
      · rw [l2 ha, l1 (by simpa using hs)]; rfl
    · rcases List.mem_append.1 he with h | h
      · exact chk_fits _ _ _ _ _ c1 e h
      · exact f2 e h

end Libinput.Pad
