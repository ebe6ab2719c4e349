/-
C62: which tool an event is about, and what the application is told that it can do.
-/
import Verif.Tools.Regs
namespace Libinput.Tools
open Spec

/-- **C62.** An event's tool is of the kind the kernel named, and its serial number, if it has one, is the one that the kernel
gave. -/
theorem right_tool (db : Nat → Option Stylus) (ops : List Op) (e : Told) (he : e ∈ (run db {} ops).told) :
    e.tool.kind = e.kind ∧ (e.tool.isUnique = true → e.tool.serial = e.serial) := by
  have h := inv_run db {} ops (inv_init db)
  refine ⟨(h.kind e he).1, fun hu => ?_⟩
  rcases h.serial e he with g | g
  · exact g
  · simp [Tool.isUnique, g] at hu

/-- **C62.** A tool that has a serial number is one object, whichever tablet it is used on: two frames that give the
same kind and the same serial number carry the same tool, if the tool of the first is one with a serial number. -/
theorem recognised (db : Nat → Option Stylus) (ops : List Op) (pre mid post : List Told) (e e' : Told)
    (ht : (run db {} ops).told = pre ++ e :: mid ++ e' :: post) (hk : e.kind = e'.kind) (hs : e.serial = e'.serial)
    (hu : e.tool.isUnique = true) : e'.tool = e.tool := by
  have h := (inv_run db {} ops (inv_init db)).agree
  rw [ht, List.append_assoc, List.pairwise_append, List.cons_append, List.pairwise_cons] at h
  exact (h.2.1.1 e' (by simp)).1 hk hs (by simpa [Tool.isUnique] using hu)

/-- **C62.** A tool without serial number is one object for its kind and tablet. -/
theorem one_per_tablet (db : Nat → Option Stylus) (ops : List Op) (pre mid post : List Told) (e e' : Told)
    (ht : (run db {} ops).told = pre ++ e :: mid ++ e' :: post) (hb : e.uid = e'.uid) (hk : e.kind = e'.kind)
    (h0 : e.serial = 0) (h1 : e'.serial = 0) : e'.tool = e.tool := by
  have h := (inv_run db {} ops (inv_init db)).agree
  rw [ht, List.append_assoc, List.pairwise_append, List.cons_append, List.pairwise_cons] at h
  exact (h.2.1.1 e' (by simp)).2 hb hk h0 h1

/-- **C62.** An object stands for one tool only, and what it says of itself never changes: two frames that carry the same object
carry the same answers, are of the same kind, and had the same serial number or, if the tool has none, came from the same
tablet. -/
theorem never_mixed_up (db : Nat → Option Stylus) (ops : List Op) (e e' : Told) (he : e ∈ (run db {} ops).told)
    (he' : e' ∈ (run db {} ops).told) (ho : e.tool.obj = e'.tool.obj) :
    e.tool = e'.tool ∧ e.kind = e'.kind ∧ (e.tool.isUnique = true → e.serial = e'.serial) ∧
    (e.tool.isUnique = false → e.uid = e'.uid) := by
  have h := inv_run db {} ops (inv_init db)
  obtain ⟨h1, h2⟩ := h.same e he e' he' ho
  refine ⟨h1, ?_, ?_, ?_⟩
  · rw [← (h.kind e he).1, ← (h.kind e' he').1, h1]
  · intro hu
    have a := (right_tool db ops e he).2 hu
    have b := (right_tool db ops e' he').2 (h1 ▸ hu)
    rw [← a, ← b, h1]
  · intro hu
    exact h2 (by simpa [Tool.isUnique] using hu)

/-- **C62.** A serial number that the kernel gives is told, unless the tablet used a tool of the same kind before it knew a
serial number. -/
theorem serial_is_told (db : Nat → Option Stylus) (ops : List Op) (pre post : List Told) (e : Told)
    (ht : (run db {} ops).told = pre ++ e :: post) (hn : e.serial ≠ 0)
    (hp : ∀ x ∈ pre, x.uid = e.uid → x.kind = e.kind → x.tool.isUnique = true) :
    e.tool.isUnique = true ∧ e.tool.serial = e.serial := by
  have h := (inv_run db {} ops (inv_init db)).named pre e post ht hn (by
    intro x hx hu hk
    simpa [Tool.isUnique] using hp x hx hu hk)
  exact ⟨by simpa [Tool.isUnique, h] using hn, h⟩

/-- What a tool is made from. -/
theorem made_from (db : Nat → Option Stylus) (ops : List Op) (e e0 : Told) (he : e ∈ (run db {} ops).told)
    (h0 : FirstUse (run db {} ops).told e.tool e0) (b : Tablet) (hb : b.dev = e0.dev) (hc : b.caps = e0.dev.hasAxis) :
    e.tool = newTool db b e.tool.obj e0.kind e0.id e0.serial := by
  obtain ⟨x, hx, hy⟩ := (inv_run db {} ops (inv_init db)).made e he
  obtain rfl := firstUse_unique hx h0
  exact hy b hb hc

/-- **C62.** What a tool can do is decided by the tablet it was first used on: it has the axes and buttons that the
specification says for that tablet, and its id is the one given then. -/
theorem what_it_can_do (db : Nat → Option Stylus) (ops : List Op) (e e0 : Told) (he : e ∈ (run db {} ops).told)
    (h0 : FirstUse (run db {} ops).told e.tool e0) :
    (∀ a, e.tool.axes a = true ↔ HasAxis db e0.dev e0.kind e0.id a) ∧
    (∀ c, e.tool.buttons c = true ↔ HasButton db e0.dev e0.kind e0.id c) ∧
    e.tool.toolId = e0.id := by
  have h := made_from db ops e e0 he h0 ⟨0, e0.dev, e0.dev.hasAxis, [], none, 0, 0⟩ rfl rfl
  rw [h]
  exact ⟨new_axes db _ rfl _ _ _ _, new_buttons db _ _ _ _ _, (newTool_basic db _ _ _ _ _).2.2.2⟩

theorem percent_mono (r : Range) (h : r.min ≤ r.max) :
    r.min ≤ percent r 1 ∧ percent r 1 ≤ percent r 5 ∧ percent r 5 ≤ r.max := by
  unfold percent
  have key : ∀ a : Int, (0 ≤ a → a.tdiv 100 = a / 100) ∧ (a < 0 → a.tdiv 100 = -((-a) / 100)) := by
    intro a
    constructor
    · intro h; exact Int.tdiv_eq_ediv_of_nonneg h
    · intro h
      have := Int.neg_tdiv (a := -a) (b := 100)
      rw [Int.neg_neg] at this
      rw [this, Int.tdiv_eq_ediv_of_nonneg (by omega)]
  obtain ⟨a1, a2⟩ := key ((r.max - r.min) * 1 + 100 * r.min)
  obtain ⟨b1, b2⟩ := key ((r.max - r.min) * 5 + 100 * r.min)
  refine ⟨?_, ?_, ?_⟩
  · by_cases g : 0 ≤ (r.max - r.min) * 1 + 100 * r.min
    · rw [a1 g]; omega
    · rw [a2 (by omega)]; omega
  · by_cases g : 0 ≤ (r.max - r.min) * 1 + 100 * r.min
    · rw [a1 g, b1 (by omega)]; omega
    · rw [a2 (by omega)]
      by_cases g' : 0 ≤ (r.max - r.min) * 5 + 100 * r.min
      · rw [b1 g']; omega
      · rw [b2 (by omega)]; omega
  · by_cases g : 0 ≤ (r.max - r.min) * 5 + 100 * r.min
    · rw [b1 g]; omega
    · rw [b2 (by omega)]; omega

theorem thresholds_default (b : Tablet) (t : Tool) (r : Range) (hr : b.dev.abs 0x18 = some r)
    (hq : ∀ lo hi, b.dev.quirk = some (lo, hi) → hi ≤ lo) :
    (setThresholds b t).lower = percent r 1 ∧ (setThresholds b t).upper = percent r 5 := by
  unfold setThresholds
  simp only [absPressure, hr]
  cases h : b.dev.quirk with
  | none => exact ⟨rfl, rfl⟩
  | some q =>
    obtain ⟨lo, hi⟩ := q
    simp only
    rw [if_pos (hq lo hi h)]
    exact ⟨rfl, rfl⟩

/-- **C62.** The thresholds of pressure of a tool: without pressure zero and one; the quirk's if its lower limit is below its
upper; else one and five percent of the range, which lie in the range and in this order (and are equal if the range is small). -/
theorem thresholds (db : Nat → Option Stylus) (ops : List Op) (e e0 : Told) (he : e ∈ (run db {} ops).told)
    (h0 : FirstUse (run db {} ops).told e.tool e0) :
    (e0.dev.abs 0x18 = none → e.tool.lower = 0 ∧ e.tool.upper = 1) ∧
    (∀ r lo hi, e0.dev.abs 0x18 = some r → e0.dev.quirk = some (lo, hi) → lo < hi →
      e.tool.lower = lo ∧ e.tool.upper = hi) ∧
    (∀ r, e0.dev.abs 0x18 = some r → (∀ lo hi, e0.dev.quirk = some (lo, hi) → hi ≤ lo) →
      (0 ≤ r.min → r.min ≤ r.max → e.tool.lower = r.min + (r.max - r.min) / 100 ∧
        e.tool.upper = r.min + (r.max - r.min) / 20) ∧
      (r.min ≤ r.max → r.min ≤ e.tool.lower ∧ e.tool.lower ≤ e.tool.upper ∧ e.tool.upper ≤ r.max)) := by
  have h := made_from db ops e e0 he h0 ⟨0, e0.dev, e0.dev.hasAxis, [], none, 0, 0⟩ rfl rfl
  obtain ⟨p1, p2, -⟩ := newTool_pressure db ⟨0, e0.dev, e0.dev.hasAxis, [], none, 0, 0⟩ e.tool.obj e0.kind e0.id e0.serial
  rw [← h] at p1 p2
  rw [p1, p2]
  unfold setThresholds
  refine ⟨?_, ?_, ?_⟩
  · intro hn
    simp only [absPressure, hn, and_self]
  · intro r lo hi hr hq hlt
    simp only [absPressure, hr, hq]
    rw [if_neg (by omega)]
    exact ⟨rfl, rfl⟩
  · intro r hr hq
    obtain ⟨e1, e2⟩ := thresholds_default ⟨0, e0.dev, e0.dev.hasAxis, [], none, 0, 0⟩
      (blank e.tool.obj e0.kind e0.id e0.serial) r hr hq
    unfold setThresholds at e1 e2
    rw [e1, e2]
    refine ⟨fun h0 hm => ?_, percent_mono r⟩
    unfold percent
    rw [Int.tdiv_eq_ediv_of_nonneg (by omega), Int.tdiv_eq_ediv_of_nonneg (by omega)]
    omega

/-- **C62.** A tool has no axis that the tablet it was first used on lacks; a puck's rotation is the exception. -/
theorem no_more_than_the_tablet (db : Nat → Option Stylus) (ops : List Op) (e e0 : Told) (he : e ∈ (run db {} ops).told)
    (h0 : FirstUse (run db {} ops).told e.tool e0) (a : Axis) (ha : e.tool.axes a = true) :
    CanReport e0.dev a ∨ (a = .rotation ∧ ∃ s, db e0.id = some s ∧ s.puck = true ∧ s.tilt = true) := by
  have h := ((what_it_can_do db ops e e0 he h0).1 a).mp ha
  unfold HasAxis at h
  cases hd : db e0.id with
  | none =>
    rw [hd] at h
    left
    cases a <;> simp only [UnknownAxis] at h
    case rotation =>
      rcases h with h | h
      · exact .inl h.2
      · exact h.2
    all_goals first | exact h | exact h.2 | exact h.elim
  | some s =>
    rw [hd] at h
    cases a <;> simp only [KnownAxis] at h
    case rotation =>
      rcases h with h | h
      · exact .inl h.2
      · exact .inr ⟨rfl, s, rfl, h.1, h.2⟩
    all_goals first | exact .inl h | exact .inl h.2 | exact .inl h.2.2 | exact h.elim

/-- **C62.** The same in terms of what the application asks. -/
theorem answers (db : Nat → Option Stylus) (ops : List Op) (e e0 : Told) (he : e ∈ (run db {} ops).told)
    (h0 : FirstUse (run db {} ops).told e.tool e0) :
    (e.tool.hasPressure = true ↔ HasAxis db e0.dev e0.kind e0.id .pressure) ∧
    (e.tool.hasDistance = true ↔ HasAxis db e0.dev e0.kind e0.id .distance) ∧
    (e.tool.hasTilt = true ↔ HasAxis db e0.dev e0.kind e0.id .tiltX) ∧
    (e.tool.hasRotation = true ↔ HasAxis db e0.dev e0.kind e0.id .rotation) ∧
    (e.tool.hasSlider = true ↔ HasAxis db e0.dev e0.kind e0.id .slider) ∧
    (e.tool.hasWheel = true ↔ HasAxis db e0.dev e0.kind e0.id .wheel) ∧
    (∀ c, c ≤ 775 → (e.tool.hasButton c = some true ↔ HasButton db e0.dev e0.kind e0.id c)) := by
  obtain ⟨h, g, -⟩ := what_it_can_do db ops e e0 he h0
  refine ⟨h _, h _, h _, h _, h _, h _, fun c hc => ?_⟩
  unfold Tool.hasButton
  rw [if_neg (by omega), if_neg (by omega), if_neg (by omega), Option.some.injEq]
  exact g c

theorem present_step (db : Nat → Option Stylus) (s : State) (o : Op) (u : Nat) (ho : o ≠ .remove u)
    (h : ∃ b ∈ s.tablets, b.uid = u) : ∃ b ∈ (step db s o).tablets, b.uid = u := by
  have upd : ∀ (s : State) (w : Nat) (f : Tablet → Tablet), (∀ b, (f b).uid = b.uid) →
      (∃ b ∈ s.tablets, b.uid = u) → ∃ b ∈ (s.update w f).tablets, b.uid = u := by
    rintro s w f hf ⟨b, hb, hu⟩
    refine ⟨_, List.mem_map.mpr ⟨b, hb, rfl⟩, ?_⟩
    split
    · rw [hf]; exact hu
    · exact hu
  cases o with
  | add d =>
    simp only [step]
    split
    · exact h
    · obtain ⟨b, hb, hu⟩ := h; exact ⟨b, List.mem_cons_of_mem _ hb, hu⟩
  | remove w =>
    obtain ⟨b, hb, hu⟩ := h
    refine ⟨b, List.mem_filter.mpr ⟨hb, ?_⟩, hu⟩
    have : b.uid ≠ w := by rw [hu]; rintro rfl; exact ho rfl
    simpa using this
  | serial w v =>
    simp only [step]
    split
    · exact h
    · exact upd s w _ (fun _ => rfl) h
  | toolId w v => exact upd s w _ (fun _ => rfl) h
  | tool w k =>
    simp only [step]
    split
    · exact h
    · exact upd s w _ (fun _ => rfl) h
  | already w k v =>
    simp only [step]
    split
    · exact h
    · exact upd s w _ (fun _ => rfl) h
  | frame w =>
    simp only [step, flush]
    split
    · exact h
    · split
      · exact h
      · unfold getTool
        split
        · exact h
        · split
          · exact h
          · unfold addTool
            simp only
            split
            · exact h
            · exact upd _ _ _ (fun _ => rfl) h
  | totem => exact h

/-- **C62.** A tablet that was plugged in and accepted, and not removed, tells its tools: after the key of a tool went down, the next
frame is about a tool of that kind. -/
theorem tools_are_told (db : Nat → Option Stylus) (s : State) (d : Device) (ops : List Op) (k : Kind)
    (hx : (d.abs 0).isSome) (hy : (d.abs 1).isSome) (hp : d.key 0x140 = true ∨ d.key 0x14b = true) (hs : d.sized = true)
    (hr : .remove s.uids ∉ ops) (hk : k ≠ .totem) :
    ∃ e, (run db s (.add d :: ops ++ [.tool s.uids k, .frame s.uids])).told =
        (run db s (.add d :: ops)).told ++ [e] ∧ e.uid = s.uids ∧ e.kind = k := by
  have hrej : d.rejected = false := by
    rcases hp with hp | hp <;>
      simp [Device.rejected, Device.has, absX, absY, btnToolPen, btnStylus, hx, hy, hp, hs]
  have hpres : ∀ (ops : List Op) (s' : State), .remove s.uids ∉ ops → (∃ b ∈ s'.tablets, b.uid = s.uids) →
      ∃ b ∈ (run db s' ops).tablets, b.uid = s.uids := by
    intro ops
    induction ops with
    | nil => intro s' _ h; exact h
    | cons o ops ih =>
      intro s' h1 h2
      rw [List.mem_cons, not_or] at h1
      exact ih _ h1.2 (present_step db s' o _ (fun h => h1.1 h.symm) h2)
  have h1 : ∃ b ∈ (run db s (.add d :: ops)).tablets, b.uid = s.uids := by
    refine hpres ops (step db s (.add d)) hr ?_
    simp only [step, hrej]
    exact ⟨Tablet.init s.uids d, by simp, rfl⟩
  obtain ⟨s', hs'⟩ : ∃ s', run db s (.add d :: ops) = s' := ⟨_, rfl⟩
  have hrun : run db s (.add d :: ops ++ [.tool s.uids k, .frame s.uids]) =
      flush db (s'.update s.uids (fun b => { b with kind := some k })) s.uids := by
    rw [← hs']
    simp only [run, List.foldl_append, List.foldl_cons, List.foldl_nil]
    simp only [step, hk, if_false]
  rw [hs'] at h1
  rw [hrun, hs']
  have h2 : ∃ b ∈ (s'.update s.uids (fun b => { b with kind := some k })).tablets, b.uid = s.uids := by
    obtain ⟨b, hb, hu⟩ := h1
    refine ⟨_, List.mem_map.mpr ⟨b, hb, rfl⟩, ?_⟩
    rw [if_pos hu]; exact hu
  unfold flush
  cases hf : (s'.update s.uids (fun b => { b with kind := some k })).find s.uids with
  | none =>
    obtain ⟨b, hb, hu⟩ := h2
    exact absurd hu (by simpa using List.find?_eq_none.mp hf b hb)
  | some b =>
    obtain ⟨hb, hu⟩ := find_some hf
    have hbk : b.kind = some k := by
      obtain ⟨c, -, rfl⟩ := mem_update hb
      by_cases hc : c.uid = s.uids
      · simp [hc]
      · rw [if_neg hc] at hu; exact absurd hu hc
    simp only [hbk]
    exact ⟨_, rfl, rfl, rfl⟩

/-- **C62.** Only a totem has a size. -/
theorem size_of_totems_only (db : Nat → Option Stylus) (ops : List Op) (e : Told) (he : e ∈ (run db {} ops).told) :
    e.tool.hasSize = false := by
  obtain ⟨x, hx, -⟩ := (inv_run db {} ops (inv_init db)).made e he
  have := (what_it_can_do db ops e x he hx).1 .major
  unfold HasAxis at this
  cases h : e.tool.axes .major
  · exact h
  · exfalso
    have := this.mp h
    cases hd : db x.id <;> rw [hd] at this <;> exact this

/-- **C62.** A device is only used as it was plugged in, except that it is always said to have a pen and that only Wacom's have
mouse and lens. -/
theorem devices (db : Nat → Option Stylus) (ops : List Op) (e : Told) (he : e ∈ (run db {} ops).told) :
    ∃ d, .add d ∈ ops ∧ e.dev.abs = d.abs ∧ e.dev.wheel = d.wheel ∧ e.dev.quirk = d.quirk ∧
      ((d.abs 0).isSome ∧ (d.abs 1).isSome ∧ (d.key 0x140 = true ∨ d.key 0x14b = true) ∧ d.sized = true) ∧
      ∀ c, e.dev.key c = true ↔ (c = 0x140 ∨ (d.key c = true ∧ (d.vendor = 0x56a ∨ (c ≠ 0x146 ∧ c ≠ 0x147)))) := by
  have := (run_devices db (fun d' => ∃ d, .add d ∈ ops ∧ d.rejected = false ∧ d' = d.prepare) ops
    (fun d hd hr => ⟨d, hd, hr, rfl⟩) {} (by simp) (by simp)).2 e he
  obtain ⟨d, h1, h2, h3⟩ := this
  refine ⟨d, h1, by rw [h3]; rfl, by rw [h3]; rfl, by rw [h3]; rfl, ?_, ?_⟩
  · simp only [Device.rejected, Device.has, absX, absY, btnToolPen, btnStylus, Bool.not_eq_false', Bool.and_eq_true,
      Bool.or_eq_true] at h2
    exact ⟨h2.1.1.1, h2.1.1.2, h2.1.2, h2.2⟩
  · intro c
    rw [h3]
    simp only [Device.prepare, wacom, btnToolMouse, btnToolLens, btnToolPen]
    by_cases hv : d.vendor = 0x56a
    · by_cases hc : c = 0x140 <;> simp [hv, hc]
    · by_cases hc : c = 0x140
      · simp [hc]
      · by_cases g : c = 0x146 ∨ c = 0x147
        · rcases g with rfl | rfl <;> simp [hv]
        · have : c ≠ 0x146 ∧ c ≠ 0x147 := ⟨fun h => g (.inl h), fun h => g (.inr h)⟩
          simp [hv, hc, this]

/-- The kernel says nothing new about the serial number of the tool on tablet `u`. -/
def QuietSerial (u : Nat) (o : Op) : Prop := (∀ v, o = .serial u v → v = -1) ∧ ∀ k v, o ≠ .already u k v

/-- **C62.** The serial number that frames are about is the one the kernel sent last for that tablet, whichever tool sent it;
minus one is not a serial number. -/
theorem serial_sticks (db : Nat → Option Stylus) (s : State) (u : Nat) (v : Int) (hu : u < s.uids) (hv : v ≠ -1)
    (ops : List Op) (hq : ∀ o ∈ ops, QuietSerial u o) :
    ∃ new, (run db s (.serial u v :: ops)).told = s.told ++ new ∧
      ∀ e ∈ new, e.uid = u → (e.serial : Int) = v % 4294967296 := by
  have hstep : (step db s (.serial u v)) = s.update u (fun b => { b with serial := wrap v }) := if_neg hv
  obtain ⟨new, h1, h2⟩ := run_keeps db u (fun b => b.serial) (fun e => (e.serial : Int) = v % 4294967296) (wrap v) ops
    (by
      intro b k t _ hb
      show (b.serial : Int) = _
      have hb : b.serial = wrap v := hb
      rw [hb]; unfold wrap
      have := Int.emod_nonneg v (b := 4294967296) (by omega)
      omega)
    (by
      intro o ho s hs b hb hbu
      rcases step_tablets db s o b hb with ⟨d, -, -, rfl⟩ | ⟨c, hc, g1, -, -, -, g⟩
      · simp only [Tablet.init] at hbu; omega
      · refine ⟨c, hc, by rw [← g1]; exact hbu, ?_⟩
        have hcu : c.uid = u := by rw [← g1]; exact hbu
        rcases g with g | ⟨w, g, hw, -⟩ | ⟨k, w, g, -⟩
        · exact g
        · rw [hcu] at g; exact absurd ((hq o ho).1 w g) hw
        · rw [hcu] at g; exact absurd g ((hq o ho).2 k w))
    (step db s (.serial u v)) (by rw [hstep]; exact hu)
    (by
      intro b hb hbu
      rw [hstep] at hb
      obtain ⟨c, hc, rfl⟩ := mem_update hb
      by_cases hcu : c.uid = u
      · simp only [hcu, if_true]
      · rw [if_neg hcu] at hbu; exact absurd hbu hcu)
  refine ⟨new, ?_, h2⟩
  show (run db (step db s (.serial u v)) ops).told = _
  rw [h1, hstep]; rfl

/-- The kernel names no other tool on tablet `u`. -/
def QuietKind (u : Nat) (o : Op) : Prop := (∀ k, o ≠ .tool u k) ∧ ∀ k v, o ≠ .already u k v

/-- **C62.** The kind of tool that frames are about is the one whose key went down last on that tablet. -/
theorem kind_sticks (db : Nat → Option Stylus) (s : State) (u : Nat) (k : Kind) (hu : u < s.uids) (hk : k ≠ .totem)
    (ops : List Op) (hq : ∀ o ∈ ops, QuietKind u o) :
    ∃ new, (run db s (.tool u k :: ops)).told = s.told ++ new ∧ ∀ e ∈ new, e.uid = u → e.kind = k := by
  have hstep : (step db s (.tool u k)) = s.update u (fun b => { b with kind := some k }) := if_neg hk
  obtain ⟨new, h1, h2⟩ := run_keeps db u (fun b => b.kind) (fun e => e.kind = k) (some k) ops
    (by
      intro b k' t hb' hb
      exact Option.some.inj (hb'.symm.trans hb))
    (by
      intro o ho s hs b hb hbu
      rcases step_tablets db s o b hb with ⟨d, -, -, rfl⟩ | ⟨c, hc, g1, -, g, -⟩
      · simp only [Tablet.init] at hbu; omega
      · refine ⟨c, hc, by rw [← g1]; exact hbu, ?_⟩
        have hcu : c.uid = u := by rw [← g1]; exact hbu
        rcases g with g | ⟨w, g, -⟩ | ⟨k, w, g, -⟩
        · exact g
        · rw [hcu] at g; exact absurd g ((hq o ho).1 w)
        · rw [hcu] at g; exact absurd g ((hq o ho).2 k w))
    (step db s (.tool u k)) (by rw [hstep]; exact hu)
    (by
      intro b hb hbu
      rw [hstep] at hb
      obtain ⟨c, hc, rfl⟩ := mem_update hb
      by_cases hcu : c.uid = u
      · simp only [hcu, if_true]
      · rw [if_neg hcu] at hbu; exact absurd hbu hcu)
  refine ⟨new, ?_, h2⟩
  show (run db (step db s (.tool u k)) ops).told = _
  rw [h1, hstep]; rfl

/-- The kernel sends no other id of the tool on tablet `u`. -/
def QuietId (u : Nat) (o : Op) : Prop := (∀ v, o ≠ .toolId u v) ∧ ∀ k v, o ≠ .already u k v

/-- **C62.** The id that frames are about is the one the kernel sent last for that tablet. -/
theorem id_sticks (db : Nat → Option Stylus) (s : State) (u : Nat) (v : Int) (hu : u < s.uids)
    (ops : List Op) (hq : ∀ o ∈ ops, QuietId u o) :
    ∃ new, (run db s (.toolId u v :: ops)).told = s.told ++ new ∧
      ∀ e ∈ new, e.uid = u → (e.id : Int) = v % 4294967296 := by
  have hstep : (step db s (.toolId u v)) = s.update u (fun b => { b with id := wrap v }) := rfl
  obtain ⟨new, h1, h2⟩ := run_keeps db u (fun b => b.id) (fun e => (e.id : Int) = v % 4294967296) (wrap v) ops
    (by
      intro b k t _ hb
      show (b.id : Int) = _
      have hb : b.id = wrap v := hb
      rw [hb]; unfold wrap
      have := Int.emod_nonneg v (b := 4294967296) (by omega)
      omega)
    (by
      intro o ho s hs b hb hbu
      rcases step_tablets db s o b hb with ⟨d, -, -, rfl⟩ | ⟨c, hc, g1, -, -, g, -⟩
      · simp only [Tablet.init] at hbu; omega
      · refine ⟨c, hc, by rw [← g1]; exact hbu, ?_⟩
        have hcu : c.uid = u := by rw [← g1]; exact hbu
        rcases g with g | ⟨w, g, -⟩ | ⟨k, w, g, -⟩
        · exact g
        · rw [hcu] at g; exact absurd g ((hq o ho).1 w)
        · rw [hcu] at g; exact absurd g ((hq o ho).2 k w))
    (step db s (.toolId u v)) (by rw [hstep]; exact hu)
    (by
      intro b hb hbu
      rw [hstep] at hb
      obtain ⟨c, hc, rfl⟩ := mem_update hb
      by_cases hcu : c.uid = u
      · simp only [hcu, if_true]
      · rw [if_neg hcu] at hbu; exact absurd hbu hcu)
  refine ⟨new, ?_, h2⟩
  show (run db (step db s (.toolId u v)) ops).told = _
  rw [h1, hstep]; rfl

/-- **C62.** A tool that is found in proximity when its tablet is added has no serial number, until the kernel sends one. -/
theorem already_there (db : Nat → Option Stylus) (s : State) (u : Nat) (k : Kind) (v : Int) (hu : u < s.uids)
    (hk : k ≠ .totem) (ops : List Op) (hq : ∀ o ∈ ops, QuietSerial u o ∧ QuietKind u o) :
    ∃ new, (run db s (.already u k v :: ops)).told = s.told ++ new ∧
      ∀ e ∈ new, e.uid = u → e.kind = k ∧ e.serial = 0 := by
  have hstep : (step db s (.already u k v)) =
      s.update u (fun b => { b with kind := some k, id := wrap v, serial := 0 }) := if_neg hk
  obtain ⟨new, h1, h2⟩ := run_keeps db u (fun b => (b.kind, b.serial)) (fun e => e.kind = k ∧ e.serial = 0) (some k, 0) ops
    (by
      intro b k' t hb' hb
      have hb := Prod.mk.inj hb
      exact ⟨Option.some.inj (hb'.symm.trans hb.1), hb.2⟩)
    (by
      intro o ho s hs b hb hbu
      rcases step_tablets db s o b hb with ⟨d, -, -, rfl⟩ | ⟨c, hc, g1, -, g, -, g'⟩
      · simp only [Tablet.init] at hbu; omega
      · refine ⟨c, hc, by rw [← g1]; exact hbu, ?_⟩
        have hcu : c.uid = u := by rw [← g1]; exact hbu
        rw [hcu] at g g'
        have e1 : b.kind = c.kind := by
          rcases g with g | ⟨w, g, -⟩ | ⟨k, w, g, -⟩
          · exact g
          · exact absurd g ((hq o ho).2.1 w)
          · exact absurd g ((hq o ho).2.2 k w)
        have e2 : b.serial = c.serial := by
          rcases g' with g | ⟨w, g, hw, -⟩ | ⟨k, w, g, -⟩
          · exact g
          · exact absurd ((hq o ho).1.1 w g) hw
          · exact absurd g ((hq o ho).1.2 k w)
        rw [e1, e2])
    (step db s (.already u k v)) (by rw [hstep]; exact hu)
    (by
      intro b hb hbu
      rw [hstep] at hb
      obtain ⟨c, hc, rfl⟩ := mem_update hb
      by_cases hcu : c.uid = u
      · simp only [hcu, if_true]
      · rw [if_neg hcu] at hbu; exact absurd hbu hcu)
  refine ⟨new, ?_, h2⟩
  show (run db (step db s (.already u k v)) ops).told = _
  rw [h1, hstep]; rfl

/-- **C62.** Asking for a button is answered rightly for every code the kernel has, and with no for every code after them, except
that nothing can be said of 776, which is read from past the array, and of the last seven codes. -/
theorem asking_for_a_button (t : Tool) (c : Nat) (hc : c < 4294967296) :
    (c ≤ 775 → t.hasButton c = some (t.buttons c)) ∧
    (777 ≤ c → c < 4294967289 → t.hasButton c = some false) ∧
    (c = 776 ∨ 4294967289 ≤ c → t.hasButton c = none) := by
  unfold Tool.hasButton
  refine ⟨fun h => ?_, fun h h' => ?_, fun h => ?_⟩
  · rw [if_neg (by omega), if_neg (by omega), if_neg (by omega)]
  · rw [if_pos (by omega)]
  · rcases h with rfl | h
    · simp
    · rw [if_neg (by omega), if_pos (by omega)]

/-- **C62.** When a tool comes near, only axes that the tablet has are read, if the tablet has all that the tablet has on which the
tool was first used, both tilts or none, and `ABS_Z` if libwacom says that the tool turns. -/
theorem reads_only_what_exists (db : Nat → Option Stylus) (ops : List Op) (e e0 : Told) (he : e ∈ (run db {} ops).told)
    (h0 : FirstUse (run db {} ops).told e.tool e0)
    (hall : ∀ c, (e0.dev.abs c).isSome → (e.dev.abs c).isSome)
    (htilt : (e.dev.abs 0x1a).isSome ↔ (e.dev.abs 0x1b).isSome)
    (hz : ∀ s, db e0.id = some s → s.rotation = true ∨ (s.puck = true ∧ s.tilt = true) →
      (e.dev.abs 0x02).isSome ∨ Cursor e.kind) :
    ∀ c ∈ e.tool.reads, (e.dev.abs c).isSome := by
  obtain ⟨d, -, hd, -, -, ⟨hx, hy, -⟩, -⟩ := devices db ops e he
  rw [← hd] at hx hy
  have hk := (right_tool db ops e he).1
  have hk0 : e0.kind = e.kind := by
    have h := made_from db ops e e0 he h0 ⟨0, e0.dev, e0.dev.hasAxis, [], none, 0, 0⟩ rfl rfl
    rw [← hk, h]; exact (newTool_basic db _ _ _ _ _).2.1.symm
  have hn := no_more_than_the_tablet db ops e e0 he h0
  intro c hc
  simp only [Tool.reads, List.mem_append] at hc
  rcases hc with ((((hc | hc) | hc) | hc) | hc) | hc
  · split at hc
    · simp only [List.mem_cons, List.not_mem_nil, or_false] at hc
      rcases hc with rfl | rfl
      · exact hx
      · exact hy
    · simp at hc
  · split at hc
    · simp only [List.mem_singleton] at hc
      subst hc
      rcases hn .pressure ‹_› with h | ⟨h, -⟩
      · exact hall _ h
      · cases h
    · simp at hc
  · split at hc
    · simp only [List.mem_singleton] at hc
      subst hc
      rcases hn .distance ‹_› with h | ⟨h, -⟩
      · exact hall _ h
      · cases h
    · simp at hc
  · split at hc
    · simp only [List.mem_singleton] at hc
      subst hc
      rcases hn .slider ‹_› with h | ⟨h, -⟩
      · exact hall _ h
      · cases h
    · simp at hc
  · split at hc
    · rename_i ht
      have hboth : (e.dev.abs 0x1a).isSome ∧ (e.dev.abs 0x1b).isSome := by
        rw [Bool.or_eq_true] at ht
        rcases ht with ht | ht
        · rcases hn .tiltX ht with h | ⟨h, -⟩
          · have := hall _ h; exact ⟨this, htilt.mp this⟩
          · cases h
        · rcases hn .tiltY ht with h | ⟨h, -⟩
          · have := hall _ h; exact ⟨htilt.mpr this, this⟩
          · cases h
      simp only [List.mem_cons, List.not_mem_nil, or_false] at hc
      rcases hc with rfl | rfl
      · exact hboth.1
      · exact hboth.2
    · simp at hc
  · split at hc
    · simp at hc
    · rename_i hcur
      split at hc
      · rename_i hr
        simp only [List.mem_singleton] at hc
        subst hc
        have hnc : ¬ Cursor e.kind := by
          rw [hk] at hcur; exact hcur
        have := ((what_it_can_do db ops e e0 he h0).1 .rotation).mp hr
        unfold HasAxis at this
        cases hdb : db e0.id with
        | none =>
          rw [hdb] at this
          rcases this with h | h
          · exact hall _ h.2
          · rw [hk0] at h; exact absurd h.1 hnc
        | some s =>
          rw [hdb] at this
          rcases hz s hdb (by
            rcases this with h | h
            · exact .inl h.1
            · exact .inr h) with h | h
          · exact h
          · exact absurd h hnc
      · simp at hc

/-- **C62.** A totem can be moved, turned, has a size and the button 0, and nothing else. -/
theorem totems (o : Nat) :
    (∀ a, (totemTool o).axes a = true ↔ a = .x ∨ a = .y ∨ a = .rotation ∨ a = .major ∨ a = .minor) ∧
    (∀ c, (totemTool o).buttons c = true ↔ c = 0x100) ∧ (totemTool o).isUnique = false := by
  refine ⟨?_, ?_, rfl⟩
  · intro a; cases a <;> simp [totemTool, Tool.setButton, Tool.setAxis, blank]
  · intro c
    simp [totemTool, Tool.setButton, Tool.setAxis, blank, btn0]
    exact decide_eq_true_iff

/-! ### Concrete cases, and where the code does not keep what it seems to promise -/

/-- A tablet with pen and stylus buttons, and the absolute axes `cs` (besides `ABS_X` and `ABS_Y`), each from 0 to 2047. -/
def tabletWith (cs : List Nat) (keys : List Nat) : Device :=
  { abs := fun c => if c = 0 ∨ c = 1 ∨ c ∈ cs then some ⟨0, 2047⟩ else none
    wheel := false
    key := fun c => decide (c ∈ keys)
    vendor := 0x56a
    sized := true
    quirk := none }

def plain : Device := tabletWith [0x18, 0x19] [0x140, 0x14b, 0x14c]
def tilting : Device := tabletWith [0x18, 0x19, 0x1a, 0x1b] [0x140, 0x14b, 0x14c, 0x146]
def noDb : Nat → Option Stylus := fun _ => none

/-- Two tablets, a pen with serial number 7 on both, and one without on each. -/
def twoTablets : List Op :=
  [.add plain, .add tilting, .serial 0 7, .tool 0 .pen, .frame 0, .serial 1 7, .tool 1 .pen, .frame 1,
   .tool 0 .eraser, .serial 0 0, .frame 0, .tool 1 .eraser, .serial 1 0, .frame 1, .frame 1, .remove 0, .frame 1]

example : (run noDb {} twoTablets).told.map (fun e => (e.uid, e.kind, e.serial, e.tool.obj)) =
    [(0, .pen, 7, 0), (1, .pen, 7, 0), (0, .eraser, 0, 1), (1, .eraser, 0, 2), (1, .eraser, 0, 2), (1, .eraser, 0, 2)] := by
  decide +kernel

/-- The pen of `twoTablets` has what the first tablet has: pressure, distance, both buttons, no tilt. -/
example : (run noDb {} twoTablets).told.map (fun e => (e.tool.hasPressure, e.tool.hasDistance, e.tool.hasTilt,
      e.tool.hasButton 0x14b, e.tool.hasButton 0x110)) =
    [(true, true, false, some true, some false), (true, true, false, some true, some false),
     (true, true, false, some true, some false), (true, true, true, some true, some false),
     (true, true, true, some true, some false), (true, true, true, some true, some false)] := by
  decide +kernel

example : (run noDb {} twoTablets).told.map (fun e => (e.tool.lower, e.tool.upper)) =
    List.replicate 6 (20, 102) := by
  decide +kernel

/-- `recognised`, `serial_is_told`, `what_it_can_do`: their hypotheses hold of this history. -/
example : ∃ e e0, e ∈ (run noDb {} twoTablets).told ∧ e.tool.isUnique = true ∧ e.uid = 1 ∧
    FirstUse (run noDb {} twoTablets).told e.tool e0 ∧ e0.uid = 0 := by
  obtain ⟨l, hl⟩ : ∃ l, (run noDb {} twoTablets).told = l := ⟨_, rfl⟩
  have hm : l.map (fun e => (e.uid, e.kind, e.serial, e.tool.obj, e.tool.isUnique)) =
    [(0, .pen, 7, 0, true), (1, .pen, 7, 0, true), (0, .eraser, 0, 1, false), (1, .eraser, 0, 2, false),
      (1, .eraser, 0, 2, false), (1, .eraser, 0, 2, false)] := by
    rw [← hl]; decide +kernel
  match l, hm with
  | a :: b :: rest, hm =>
    simp only [List.map_cons, List.cons.injEq, Prod.mk.injEq] at hm
    refine ⟨b, a, by rw [hl]; simp, hm.2.1.2.2.2.2, hm.2.1.1, ⟨[], b :: rest, by rw [hl]; rfl, ?_, by simp⟩, hm.1.1⟩
    rw [hm.1.2.2.2.1, hm.2.1.2.2.2.1]

/-- `reads_only_what_exists` holds of it too, and all those axes exist. -/
example : (run noDb {} twoTablets).told.map (fun e => readsFine e.dev e.tool) = List.replicate 6 true := by
  decide +kernel

/-- **C62, shown.** If a tablet used a pen before it knew its serial number, two pens with different serial numbers
are one tool without one. -/
theorem late_serial_hidden :
    (run noDb {} [.add plain, .tool 0 .pen, .frame 0, .serial 0 7, .frame 0, .serial 0 8, .tool 0 .pen, .frame 0]).told.map
      (fun e => (e.serial, e.tool.obj, e.tool.serial, e.tool.isUnique)) =
    [(0, 0, 0, false), (7, 0, 0, false), (8, 0, 0, false)] := by
  decide +kernel

/-- **C62, shown.** A pen that says that it has no serial number (minus one) is taken for the pen that was there
before. -/
theorem minus_one_inherits :
    (run noDb {} [.add plain, .serial 0 7, .tool 0 .pen, .frame 0, .serial 0 (-1), .tool 0 .pen, .frame 0]).told.map
      (fun e => (e.tool.obj, e.tool.serial)) = [(0, 7), (0, 7)] := by
  decide +kernel

/-- **C62, shown.** A pen that was first used on a tablet without tilt has no tilt on one with tilt. -/
theorem first_tablet_decides :
    (run noDb {} [.add plain, .add tilting, .serial 0 7, .tool 0 .pen, .frame 0, .serial 1 7, .tool 1 .pen, .frame 1]).told.map
      (fun e => (e.uid, e.dev.hasAxis .tiltX, e.tool.hasTilt)) = [(0, false, false), (1, true, false)] := by
  decide +kernel

/-- **C62, shown.** The other way round its tilt is read on a tablet that has none: a null pointer. -/
theorem foreign_tool_reads_nothing :
    (run noDb {} [.add plain, .add tilting, .serial 1 7, .tool 1 .pen, .frame 1, .serial 0 7, .tool 0 .pen, .frame 0]).told.map
      (fun e => (e.uid, readsFine e.dev e.tool)) = [(1, true), (0, false)] := by
  decide +kernel

/-- **C62, shown.** So is `ABS_Z` of a pen that turns, on a tablet that reports the rotation of its mouse only: the
precaution that is there for unknown tools is not there for those that libwacom knows. -/
theorem art_pen_reads_nothing :
    (run (fun _ => some ⟨false, 2, false, true, true, true, false, true⟩) {}
      [.add tilting, .tool 0 .brush, .frame 0]).told.map
      (fun e => (e.tool.hasRotation, readsFine e.dev e.tool)) = [(true, false)] ∧
    (run noDb {} [.add tilting, .tool 0 .brush, .frame 0]).told.map
      (fun e => (e.tool.hasRotation, readsFine e.dev e.tool)) = [(false, true)] := by
  decide +kernel

/-- **C62, shown.** And the tilt that is missing on a tablet with only one. -/
theorem lone_tilt_reads_nothing :
    (run noDb {} [.add (tabletWith [0x18, 0x1a] [0x140]), .tool 0 .pen, .frame 0]).told.map
      (fun e => readsFine e.dev e.tool) = [false] := by
  decide +kernel

/-- **C62, shown.** A puck that libwacom knows is said to turn on a tablet that reports neither rotation nor tilt. -/
theorem puck_turns_anyway :
    (run (fun _ => some ⟨true, 5, false, true, false, true, false, false⟩) {}
      [.add (tabletWith [0x19] [0x140, 0x146, 0x110, 0x111]), .tool 0 .mouse, .frame 0]).told.map
      (fun e => (e.dev.hasAxis .rotation, e.tool.hasRotation, readsFine e.dev e.tool, e.tool.hasButton 0x111,
        e.tool.hasButton 0x112)) = [(false, true, true, some true, some false)] := by
  decide +kernel

/-- Small ranges: both thresholds are the minimum. -/
example : percent ⟨0, 19⟩ 1 = 0 ∧ percent ⟨0, 19⟩ 5 = 0 ∧ percent ⟨-100, 100⟩ 5 = -90 ∧ percent ⟨-3, 0⟩ 1 = -2 := by
  decide +kernel

example (b : Tool) : b.hasButton 776 = none ∧ b.hasButton 4294967295 = none ∧ b.hasButton 800 = some false :=
  ⟨(asking_for_a_button b 776 (by omega)).2.2 (.inl rfl), (asking_for_a_button b _ (by omega)).2.2 (.inr (by omega)),
   (asking_for_a_button b 800 (by omega)).2.1 (by omega) (by omega)⟩

end Libinput.Tools
