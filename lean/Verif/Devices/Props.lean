import Verif.Devices.Marks
/-
**C59.**  Which kernel devices libinput takes, what they become and what can be asked of them.
-/
namespace Libinput.Devices
open Libinput.Strings Libinput.Parsers Libinput.Parsers.Spec Spec

/-! ### Devices for the examples -/

def noQuirks : Quirks :=
  ⟨false, false, false, false, false, false, false, none, [], [], [], [], none, none, none, none, none, none⟩

/-- A kernel device with these codes and axes. -/
def kernOf (codes : List (Nat × Nat)) (abs : Nat → Abs) (slots : Int) (bus : Nat) : Kern :=
  ⟨fun t => codes.any fun x => x.1 == t, fun t c => codes.contains (t, c), abs, fun _ => false, slots, bus, 1⟩

/-- Properties from a list. -/
def propsOf (l : List (String × String)) : Props := fun n => (l.find? fun x => x.1 == n).map fun x => x.2.toList

def inOf (p : List (String × String)) (q : Quirks) (k : Kern) : In :=
  ⟨glibcConv, propsOf p, none, q, k, true, true, true, true, true, true, true⟩

/-- A mouse on USB. -/
def mouse : In := inOf [("ID_INPUT", "1"), ("ID_INPUT_MOUSE", "1"), ("MOUSE_DPI", "800@125")] noQuirks
  (kernOf [(2, 0), (2, 1), (2, 8), (1, 0x110), (1, 0x111), (1, 0x112)] (fun _ => ⟨0, 0, 0, 0⟩) (-1) 3)

/-- A touchpad with five slots and no resolution. -/
def pad : In := inOf [("ID_INPUT", "1"), ("ID_INPUT_TOUCHPAD", "1"), ("LIBINPUT_FUZZ_00", "8")] noQuirks
  (kernOf [(3, 0), (3, 1), (3, 0x2f), (3, 0x35), (3, 0x36), (1, 0x110), (1, 0x14a), (1, 0x145)]
    (fun c => if c = 0x2f then ⟨0, 4, 0, 0⟩ else if c = 0 ∨ c = 0x35 then ⟨0, 690, 0, 0⟩ else ⟨0, 500, 0, 0⟩) 5 0x11)

/-- A tablet without a resolution. -/
def blind : In := inOf [("ID_INPUT", "1"), ("ID_INPUT_TABLET", "1")] noQuirks
  (kernOf [(3, 0), (3, 1), (1, 0x140)] (fun _ => ⟨0, 100, 0, 0⟩) (-1) 3)

/-- The same with one. -/
def slate : In := { blind with kern := { blind.kern with abs := fun _ => ⟨0, 100, 10, 4⟩ } }

/-- A touch screen, with a lid for good measure. -/
def screen : In := inOf [("ID_INPUT", "1"), ("ID_INPUT_TOUCHSCREEN", "1"), ("ID_INPUT_SWITCH", "1")] noQuirks
  (kernOf [(3, 0), (3, 1), (5, 0)] (fun _ => ⟨0, 100, 10, 4⟩) (-1) 3)

/-- A trackpoint. -/
def stick : In := inOf [("ID_INPUT", "1"), ("ID_INPUT_POINTINGSTICK", "1")] { noQuirks with multiplier := some 2 }
  (kernOf [(2, 0), (2, 1), (1, 0x110)] (fun _ => ⟨0, 0, 0, 0⟩) (-1) 0x11)

/-- What is asked of a device. -/
def ask {α : Type} (i : In) (f : Kind → Dev → α) : Option α :=
  match (create i).1 with
  | .device kind d => some (f kind d)
  | _ => none

theorem ask_some {α : Type} {i : In} {f : Kind → Dev → α} {a : α} (h : ask i f = some a) :
    ∃ kind d, (create i).1 = .device kind d ∧ f kind d = a := by
  unfold ask at h
  cases hc : (create i).1 with
  | null => rw [hc] at h; cases h
  | unhandled => rw [hc] at h; cases h
  | device kind d => rw [hc] at h; simp only [Option.some.injEq] at h; exact ⟨kind, d, rfl, h⟩

theorem ask_none {α : Type} {i : In} {f : Kind → Dev → α} (h : ask i f = none) : ¬ ∃ kind d, (create i).1 = .device kind d := by
  rintro ⟨kind, d, hc⟩
  unfold ask at h
  rw [hc] at h; cases h

/-! ### What is seen -/

/-- **C59.**  What there is to see of a device is well defined, whatever the kernel and the quirks say. -/
theorem seen_unique (i : In) : ∃ v, Sees i v ∧ ∀ w, Sees i w → w = v :=
  ⟨_, seen_sees i, fun _ hw => sees_eq hw⟩

/-! ### Which devices -/

theorem ignored_iff (p : Props) : ignored p = false ↔ p "LIBINPUT_IGNORE_DEVICE" = none ∨ p "LIBINPUT_IGNORE_DEVICE" = some ['0'] := by
  unfold ignored
  cases h : p "LIBINPUT_IGNORE_DEVICE" with
  | none => simp
  | some v => simp

theorem anyCap (f : Cap → Bool) :
    [Cap.keyboard, .pointer, .touch, .tabletTool, .tabletPad, .gesture, .switch].any f = true ↔ ∃ c, f c = true := by
  constructor
  · intro h
    rw [List.any_eq_true] at h
    obtain ⟨c, _, hc⟩ := h
    exact ⟨c, hc⟩
  · rintro ⟨c, hc⟩
    rw [List.any_eq_true]
    exact ⟨c, by cases c <;> simp, hc⟩

theorem create_iff (i : In) (kind : Kind) (d : Dev) : (create i).1 = .device kind d ↔
    i.devnode = true ∧ ignored i.props = false ∧ i.opens = true ∧ i.sameSyspath = true ∧ i.evdev = true ∧ i.watched = true ∧
      (configure i).1 = some (kind, d) ∧ ∃ c, (configure i).2 c = true := by
  unfold create
  cases h1 : i.devnode with
  | false => simp
  | true =>
  cases h2 : ignored i.props with
  | true => simp
  | false =>
  cases h3 : i.opens with
  | false => simp
  | true =>
  cases h4 : i.sameSyspath with
  | false => simp
  | true =>
  cases h5 : i.evdev with
  | false => simp
  | true =>
  simp only [Bool.not_true, Bool.false_eq_true, if_false, true_and]
  rw [← anyCap]
  cases hr : (configure i).1 with
  | none =>
    simp only [reduceCtorEq, false_and, and_false, iff_false]
    split <;> simp
  | some r =>
    obtain ⟨kind', d'⟩ := r
    cases ha : [Cap.keyboard, .pointer, .touch, .tabletTool, .tabletPad, .gesture, .switch].any (configure i).2 with
    | false => simp
    | true =>
      cases hw : i.watched with
      | false => simp
      | true => simp

theorem made {i : In} {v : View} {kind : Kind} {d : Dev} (hv : Sees i v) (h : (create i).1 = .device kind d) :
    ∃ b d0 ts, Ready i b v d0 ∧ Tags i v ts ∧ Usable v ∧ (b = true ↔ Tagged i .touchpad ∨ Tagged i .touchscreen) ∧
      (configureKind i ts d0).1 = some (kind, d) ∧ ∃ c, (configureKind i ts d0).2 c = true := by
  rw [create_iff] at h
  obtain ⟨-, -, -, -, -, -, h1, h2⟩ := h
  rw [configure_eq] at h1 h2
  split at h1
  · cases h1
  · rename_i hn
    rw [if_neg hn] at h2
    cases hr : reject (seen i) with
    | none => rw [hr] at h1; cases h1
    | some k =>
      rw [hr] at h1 h2
      obtain ⟨r1, r2⟩ := ready i v hv k hr
      refine ⟨_, _, _, r1, r2, ?_, ?_, h1, h2⟩
      · rw [sees_eq hv]; exact (reject_some hr).1
      · rw [Bool.or_eq_true, udevTags_iff, udevTags_iff]

/-- **C59.**  Exactly the devices meant for libinput become devices: they have a node that opens and is what it
was, are not to be ignored, are tagged as input devices of some kind but not as accelerometers or joysticks
only, their axes make sense, and they have what their kind needs. -/
theorem device_iff (i : In) (v : View) (hv : Sees i v) : (∃ kind d, (create i).1 = .device kind d) ↔ Accepted i v := by
  constructor
  · rintro ⟨kind, d, h⟩
    obtain ⟨b, d0, ts, hr, ht, hu, -, hk, hc⟩ := made hv h
    obtain ⟨r, hrole, hworks, -⟩ := kind_spec hr ht
    rw [create_iff] at h
    obtain ⟨h1, h2, h3, h4, h5, h6, h7, -⟩ := h
    rw [configure_eq] at h7
    split at h7
    · cases h7
    rename_i hn
    rw [not_or, not_or, Classical.not_not] at hn
    exact ⟨h1, (ignored_iff _).1 h2, ⟨h3, h4, h5, h6⟩, hn.1, hn.2, hu, r, hrole, hworks.1 ⟨by rw [hk]; rfl, hc⟩⟩
  · intro ha
    obtain ⟨r, hrole, hworks⟩ := ha.works
    cases hr : reject (seen i) with
    | none =>
      have := reject_none hr
      rw [← sees_eq hv] at this
      exact absurd ha.usable this
    | some k =>
      obtain ⟨r1, r2⟩ := ready i v hv k hr
      have hconf : configure i = configureKind i (laterTags (checked k) (udevTags i.props i.parent)) (withAxes i (checked k)) := by
        rw [configure_eq, if_neg, hr]
        rintro (h | h | h)
        · exact h ha.input
        · exact ha.kind.1 h
        · exact ha.kind.2 h
      obtain ⟨r', hrole', hw', -⟩ := kind_spec r1 r2
      cases role_unique hrole hrole'
      obtain ⟨hs, hc⟩ := hw'.2 hworks
      rw [← hconf] at hs hc
      cases hcf : (configure i).1 with
      | none => rw [hcf] at hs; cases hs
      | some kd =>
        obtain ⟨kind, d⟩ := kd
        refine ⟨kind, d, (create_iff i kind d).2 ⟨ha.node, (ignored_iff _).2 ha.wanted, ha.opens.1, ha.opens.2.1, ha.opens.2.2.1,
          ha.opens.2.2.2, hcf, hc⟩⟩

example : ∃ v, Sees mouse v ∧ Accepted mouse v := by
  obtain ⟨v, hv, -⟩ := seen_unique mouse
  obtain ⟨kind, d, h, -⟩ := ask_some (i := mouse) (f := fun k _ => k) (a := .fallback) (by decide +kernel)
  exact ⟨v, hv, (device_iff _ v hv).1 ⟨kind, d, h⟩⟩

example : ∃ v, Sees blind v ∧ ¬ Accepted blind v := by
  obtain ⟨v, hv, -⟩ := seen_unique blind
  exact ⟨v, hv, fun h => ask_none (f := fun k _ => k) (by decide +kernel) ((device_iff _ v hv).2 h)⟩

/-- **C59.**  What handles a device follows from its tags, and so does what the device can do. -/
theorem device_role (i : In) (v : View) (hv : Sees i v) (kind : Kind) (d : Dev) (h : (create i).1 = .device kind d) :
    Role i v kind ∧ (∀ r, Role i v r → r = kind) ∧ (∀ c, d.caps c = true ↔ Can i v kind c) ∧ ∃ c, d.caps c = true := by
  obtain ⟨b, d0, ts, hr, ht, hu, -, hk, hc⟩ := made hv h
  obtain ⟨r, hrole, hworks, hall⟩ := kind_spec hr ht
  obtain ⟨rfl, hcaps, hcan⟩ := hall kind d hk
  refine ⟨hrole, fun r' hr' => role_unique hr' hrole, hcan, ?_⟩
  rw [hcaps]; exact hc

example : ask mouse (fun k d => (k, d.caps .pointer, d.caps .keyboard, d.caps .touch)) = some (.fallback, true, false, false) := by
  decide +kernel
example : ask pad (fun k d => (k, d.caps .pointer, d.caps .gesture, d.caps .touch)) = some (.touchpad, true, true, false) := by
  decide +kernel
example : ask slate (fun k d => (k, d.caps .pointer, d.caps .tabletTool)) = some (.tablet, false, true) := by decide +kernel

/-- **C59.**  A file that is opened for a device that is not taken is closed again, and the one of a device that
is taken stays open. -/
theorem file_once (i : In) : ((∃ kind d, (create i).1 = .device kind d) → (create i).2 = [.opened]) ∧
    ((¬ ∃ kind d, (create i).1 = .device kind d) → (create i).2 = [] ∨ (create i).2 = [.opened, .closed]) := by
  unfold create
  cases h1 : i.devnode with
  | false => simp
  | true =>
  cases h2 : ignored i.props with
  | true => simp
  | false =>
  cases h3 : i.opens with
  | false => simp
  | true =>
  cases h4 : i.sameSyspath with
  | false => simp
  | true =>
  cases h5 : i.evdev with
  | false => simp
  | true =>
  simp only [Bool.not_true, Bool.false_eq_true, if_false]
  cases hr : (configure i).1 with
  | none =>
    simp only
    split <;> simp
  | some r =>
    obtain ⟨kind', d'⟩ := r
    simp only
    cases ha : [Cap.keyboard, .pointer, .touch, .tabletTool, .tabletPad, .gesture, .switch].any (configure i).2 with
    | false => simp
    | true =>
      cases hw : i.watched with
      | false => simp
      | true => simp

example : (create mouse).2 = [.opened] ∧ (create blind).2 = [.opened, .closed] ∧ (create { mouse with opens := false }).2 = [] := by
  decide +kernel

/-! ### Axes -/

/-- The ways to a device. -/
theorem kind_cases {i : In} {ts : Tag → Bool} {d0 d : Dev} {kind : Kind} (h : (configureKind i ts d0).1 = some (kind, d)) :
    (kind = .totem ∧ d = d0.cap .tabletTool) ∨ (kind = .tabletPad ∧ d = d0.cap .tabletPad) ∨
    (kind = .tablet ∧ d = { d0 with k := tabletCodes d0.k }.cap .tabletTool) ∨
    (kind = .touchpad ∧ touchpadCreate i.quirks i.props
      { (if ts .tablet then d0.tag .tabletTouchpad else d0) with averaging := needAveraging i.quirks } = some d) ∨
    (kind = .fallback ∧ (configureOther i ts d0).1 = some d) := by
  unfold configureKind at h
  by_cases h1 : i.quirks.totem = true
  · rw [if_pos h1] at h
    simp only at h
    split at h
    · cases h; exact Or.inl ⟨rfl, rfl⟩
    · cases h
  rw [if_neg h1] at h
  by_cases h2 : ts .tabletPad = true
  · rw [if_pos h2] at h
    simp only at h
    split at h
    · cases h; exact Or.inr (Or.inl ⟨rfl, rfl⟩)
    · cases h
  rw [if_neg h2] at h
  by_cases h3 : (ts .tablet && !ts .touchpad && !ts .touchscreen) = true
  · rw [if_pos h3] at h
    simp only at h
    split at h
    · cases h; exact Or.inr (Or.inr (Or.inl ⟨rfl, rfl⟩))
    · cases h
  rw [if_neg h3] at h
  by_cases h4 : ts .touchpad = true
  · rw [if_pos h4] at h
    simp only at h
    cases hc : touchpadCreate i.quirks i.props
      { (if ts .tablet then d0.tag .tabletTouchpad else d0) with averaging := needAveraging i.quirks } with
    | none => rw [hc] at h; cases h
    | some d' =>
      rw [hc] at h
      cases h
      exact Or.inr (Or.inr (Or.inr (Or.inl ⟨rfl, rfl⟩)))
  rw [if_neg h4] at h
  simp only at h
  cases hc : (configureOther i ts d0).1 with
  | none => rw [hc] at h; cases h
  | some d' => rw [hc] at h; cases h; exact Or.inr (Or.inr (Or.inr (Or.inr ⟨rfl, rfl⟩)))

theorem padStart {i : In} {ts : Tag → Bool} (d0 : Dev) :
    ({ (if ts .tablet then d0.tag .tabletTouchpad else d0) with averaging := needAveraging i.quirks } : Dev).k = d0.k ∧
    ({ (if ts .tablet then d0.tag .tabletTouchpad else d0) with averaging := needAveraging i.quirks } : Dev).axes = d0.axes ∧
    ({ (if ts .tablet then d0.tag .tabletTouchpad else d0) with averaging := needAveraging i.quirks } : Dev).fake = d0.fake ∧
    ({ (if ts .tablet then d0.tag .tabletTouchpad else d0) with averaging := needAveraging i.quirks } : Dev).dims = d0.dims := by
  split <;> exact ⟨rfl, rfl, rfl, rfl⟩

/-- **C59.**  The axes of a device: each one it keeps has a range that is not empty, positions come in pairs and
have a resolution, and fuzz is what the device's properties say.  With C58, no position is divided by the size of
an empty range. -/
theorem device_axes (i : In) (v : View) (hv : Sees i v) (kind : Kind) (d : Dev) (h : (create i).1 = .device kind d) :
    Axes i v kind d := by
  obtain ⟨b, d0, ts, hr, ht, hu, hb, hk, -⟩ := made hv h
  rcases kind_cases hk with ⟨rfl, rfl⟩ | ⟨rfl, rfl⟩ | ⟨rfl, rfl⟩ | ⟨rfl, hc⟩ | ⟨rfl, hc⟩
  · exact axes_of hr hu hb (fun _ => ⟨rfl, rfl, rfl⟩) (fun _ => rfl) (fun hx => by cases hx) (fun _ => id) rfl rfl rfl
  · exact axes_of hr hu hb (fun _ => ⟨rfl, rfl, rfl⟩) (fun _ => rfl) (fun hx => by cases hx) (fun _ => id) rfl rfl rfl
  · have ha : (({ d0 with k := tabletCodes d0.k } : Dev).cap .tabletTool).k.abs = d0.k.abs := (tabletCodes_keeps d0.k).1
    have hh : ∀ c, (({ d0 with k := tabletCodes d0.k } : Dev).cap .tabletTool).k.has 3 c = d0.k.has 3 c := fun c =>
      tabletCodes_has d0.k 3 c (by decide)
    exact axes_of hr hu hb (fun _ => by rw [ha]; exact ⟨rfl, rfl, rfl⟩) (fun _ => ha) (fun hx => by cases hx)
      (fun c hc => by rw [hh] at hc; exact hc) (hh 0) (hh 1) rfl
  · have hp := touchpad_final hc
    obtain ⟨s1, s2, s3, s4⟩ := padStart (i := i) (ts := ts) d0
    refine axes_of hr hu hb ?_ ?_ ?_ ?_ ?_ ?_ ?_
    · intro c; have := hp.ends c; rw [s1] at this; exact this
    · intro hn
      have hf : d0.fake = false := by
        rw [← Bool.not_eq_true, hr.fake]
        exact fun hx => hn ⟨rfl, hx⟩
      have := hp.real (by rw [s3]; exact hf)
      rw [s1] at this; exact this
    · intro _ hm c hcc
      have := hp.made (by rw [s3]; exact hr.fake.2 hm) c (by rw [s1]; exact hcc)
      rw [s1, s4] at this; exact this
    · intro c hcc; have := hp.fewer c hcc; rw [s1] at this; exact this
    · have := hp.x; rw [s1] at this; exact this
    · have := hp.y; rw [s1] at this; exact this
    · rw [hp.axes, s2]
  · have hp := (other_final hc).1
    exact axes_of hr hu hb (fun c => by rw [hp.abs]; exact ⟨rfl, rfl, rfl⟩) (fun _ => hp.abs) (fun hx => by cases hx)
      (fun c hcc => by rw [hp.has 3 c (by decide)] at hcc; exact hcc) (hp.has 3 0 (by decide)) (hp.has 3 1 (by decide)) hp.axes

example : ask pad (fun _ d => (d.axes, d.k.abs 0, d.k.abs 0x36)) =
    some (some (0x35, 0x36), ⟨0, 690, 10, 8⟩, ⟨0, 500, 10, 0⟩) := by decide +kernel
example : ask slate (fun _ d => (d.axes, d.k.abs 0, d.k.abs 1)) = some (some (0, 1), ⟨0, 100, 10, 4⟩, ⟨0, 100, 10, 4⟩) := by
  decide +kernel

/-- A fuzz of the kernel's on a multitouch axis stays, although the property says there is one already: the
comment in `evdev_read_fuzz_prop` means such axes to have none. -/
theorem mt_fuzz_kept : ask (inOf [("ID_INPUT", "1"), ("ID_INPUT_TOUCHPAD", "1"), ("LIBINPUT_FUZZ_00", "8"), ("LIBINPUT_FUZZ_35", "8")]
      noQuirks { pad.kern with abs := fun c => { pad.kern.abs c with fuzz := 6 } })
    (fun _ d => ((d.k.abs 0).fuzz, (d.k.abs 0x35).fuzz)) = some (0, 6) := by decide +kernel

/-- A quirk with a size larger than the axis gives a resolution of 0. -/
theorem size_hint_zero : ask (inOf [("ID_INPUT", "1"), ("ID_INPUT_TOUCHSCREEN", "1")]
      { noQuirks with sizeHint := some (200, 200) } { screen.kern with abs := fun _ => ⟨0, 100, 0, 0⟩ })
    (fun _ d => ((d.k.abs 0).res, (d.k.abs 1).res)) = some (0, 0) := by decide +kernel

theorem device_fake {i : In} {v : View} (hv : Sees i v) {kind : Kind} {d : Dev} (h : (create i).1 = .device kind d) :
    d.fake = true ↔ kind ≠ .touchpad ∧ AnyMadeUp i.quirks v := by
  obtain ⟨b, d0, ts, hr, ht, hu, hb, hk, -⟩ := made hv h
  rcases kind_cases hk with ⟨rfl, rfl⟩ | ⟨rfl, rfl⟩ | ⟨rfl, rfl⟩ | ⟨rfl, hc⟩ | ⟨rfl, hc⟩
  · exact hr.fake.trans ⟨fun hx => ⟨by decide, hx⟩, fun hx => hx.2⟩
  · exact hr.fake.trans ⟨fun hx => ⟨by decide, hx⟩, fun hx => hx.2⟩
  · exact hr.fake.trans ⟨fun hx => ⟨by decide, hx⟩, fun hx => hx.2⟩
  · rw [(touchpad_final hc).fake]; simp
  · rw [(other_final hc).1.fake]
    exact hr.fake.trans ⟨fun hx => ⟨by decide, hx⟩, fun hx => hx.2⟩

/-- **C59.**  `libinput_device_get_size` tells the range of the axes in millimetres, and fails exactly for devices
without a position, with a resolution that is made up, or one of 0; touchpads have a size even so. -/
theorem device_size (i : In) (v : View) (hv : Sees i v) (kind : Kind) (d : Dev) (h : (create i).1 = .device kind d) (w t : Rat) :
    getSize d = some (w, t) ↔ HasPosition v ∧ (kind = .touchpad ∨ ¬ AnyMadeUp i.quirks v) ∧
      (d.k.abs 0).res ≠ 0 ∧ (d.k.abs 1).res ≠ 0 ∧
      w = (((posX v).max - (posX v).min : Int) : Rat) / ((d.k.abs 0).res : Rat) ∧
      t = (((posY v).max - (posY v).min : Int) : Rat) / ((d.k.abs 1).res : Rat) := by
  have ha := device_axes i v hv kind d h
  have hf := device_fake hv h
  unfold getSize Kern.info
  by_cases hp : HasPosition v
  · rw [if_pos (ha.x.2 hp), if_pos (ha.y.2 hp)]
    obtain ⟨r1, r2, r3, r4⟩ := ha.range hp
    simp only [r1, r2, r3, r4, hp, true_and]
    by_cases hk : kind = .touchpad
    · have hf' : d.fake = false := by
        rw [← Bool.not_eq_true, hf]; exact fun hx => hx.1 hk
      simp only [hf', hk, true_or, true_and, Bool.false_or]
      by_cases hr : (d.k.abs 0).res = 0 ∨ (d.k.abs 1).res = 0
      · rw [if_pos (by rcases hr with hr | hr <;> simp [hr])]
        simp only [reduceCtorEq, false_iff]
        rintro ⟨a, b, _⟩
        rcases hr with hr | hr <;> contradiction
      · rw [if_neg (by simpa using hr)]
        rw [not_or] at hr
        simp only [Option.some.injEq, Prod.mk.injEq, hr.1, hr.2, ne_eq, not_false_eq_true, true_and]
        constructor
        · rintro ⟨a, b⟩; exact ⟨a.symm, b.symm⟩
        · rintro ⟨a, b⟩; exact ⟨a.symm, b.symm⟩
    · by_cases hm : AnyMadeUp i.quirks v
      · have hf' : d.fake = true := hf.2 ⟨hk, hm⟩
        simp [hf', hk, hm]
      · have hf' : d.fake = false := by
          rw [← Bool.not_eq_true, hf]; exact fun hx => hm hx.2
        simp only [hf', hk, hm, not_false_eq_true, or_true, true_and, Bool.false_or]
        by_cases hr : (d.k.abs 0).res = 0 ∨ (d.k.abs 1).res = 0
        · rw [if_pos (by rcases hr with hr | hr <;> simp [hr])]
          simp only [reduceCtorEq, false_iff]
          rintro ⟨a, b, _⟩
          rcases hr with hr | hr <;> contradiction
        · rw [if_neg (by simpa using hr)]
          rw [not_or] at hr
          simp only [Option.some.injEq, Prod.mk.injEq, hr.1, hr.2, ne_eq, not_false_eq_true, true_and]
          constructor
          · rintro ⟨a, b⟩; exact ⟨a.symm, b.symm⟩
          · rintro ⟨a, b⟩; exact ⟨a.symm, b.symm⟩
  · have h0 : ¬ d.k.has 3 0 = true := fun hx => hp (ha.x.1 hx)
    rw [if_neg h0]
    simp [hp]

example : ask pad (fun _ d => getSize d) = some (some (69, 50)) ∧ ask slate (fun _ d => getSize d) = some (some (10, 10)) ∧
    ask mouse (fun _ d => getSize d) = some none := by decide +kernel

/-! ### Marks -/

/-- **C59.**  The marks that decide which devices know of which: internal and external touchpads, mice,
trackpoints, keyboards and switches. -/
theorem device_marks (i : In) (v : View) (hv : Sees i v) (kind : Kind) (d : Dev) (h : (create i).1 = .device kind d)
    (t : DTag) : d.tags t = true ↔ Marked i v kind t := by
  obtain ⟨b, d0, ts, hr, ht, hu, hb, hk, -⟩ := made hv h
  rcases kind_cases hk with ⟨rfl, rfl⟩ | ⟨rfl, rfl⟩ | ⟨rfl, rfl⟩ | ⟨rfl, hc⟩ | ⟨rfl, hc⟩
  · simp [Dev.cap, hr.tags, Marked]
  · simp [Dev.cap, hr.tags, Marked]
  · simp [Dev.cap, hr.tags, Marked]
  · rw [(touchpad_final hc).tags]
    have hstart : ∀ t, ({ (if ts .tablet then d0.tag .tabletTouchpad else d0) with averaging := needAveraging i.quirks } : Dev).tags t = true ↔
        t = .tabletTouchpad ∧ Tagged i .tablet := by
      intro t
      have htab := ht.other .tablet (by decide)
      by_cases hx : ts .tablet = true
      · simp only [hx, if_true, Dev.tag, hr.tags, Bool.or_false, beq_iff_eq, htab.1 hx, and_true]
      · simp only [hx, Bool.false_eq_true, if_false, hr.tags, false_iff, not_and]
        intro _ hx'
        exact hx (htab.2 hx')
    obtain ⟨s1, -, -, -⟩ := padStart (i := i) (ts := ts) d0
    generalize ({ (if ts .tablet then d0.tag .tabletTouchpad else d0) with averaging := needAveraging i.quirks } : Dev) = d1 at hstart s1
    rw [touchpad_tags i.quirks i.props d1 (by rw [← Bool.not_eq_true, hstart]; simp) (by rw [← Bool.not_eq_true, hstart]; simp),
      hstart, s1, hr.ids.1, hr.ids.2]
    have ho : Outside i ↔ (i.props "ID_INPUT_TOUCHPAD_INTEGRATION" = some "external".toList ∨
        i.props "ID_INPUT_TOUCHPAD_INTEGRATION" ≠ some "internal".toList ∧
        (i.kern.bus = 5 ∨ i.kern.bus = 3 ∧ i.quirks.appleTouchpad = false ∨ i.kern.vendor = 0x46d ∨ i.quirks.wacomTouchpad = true)) :=
      Iff.rfl
    rw [← ho]
    cases t <;> simp [Marked]
  · exact other_tags hr ht hc t

example : ask mouse (fun _ d => (d.tags .externalMouse, d.tags .trackpoint)) = some (true, false) ∧
    ask stick (fun _ d => (d.tags .externalMouse, d.tags .trackpoint)) = some (false, true) ∧
    ask screen (fun _ d => (d.tags .lidSwitch, d.tags .tabletModeSwitch)) = some (true, false) := by decide +kernel

/-- **C59.**  A touchpad is either internal or external, never both. -/
theorem touchpad_place (i : In) (d : Dev) (h : (create i).1 = .device .touchpad d) :
    d.tags .internalTouchpad = !d.tags .externalTouchpad := by
  obtain ⟨v, hv, -⟩ := seen_unique i
  have h1 := device_marks i v hv _ d h .internalTouchpad
  have h2 := device_marks i v hv _ d h .externalTouchpad
  simp only [Marked] at h1 h2
  cases hx : d.tags .externalTouchpad with
  | true => rw [Bool.not_true, ← Bool.not_eq_true, h1, ← h2, hx]; simp
  | false => rw [Bool.not_false, h1, ← h2, hx]; simp

example : ask pad (fun _ d => (d.tags .internalTouchpad, d.tags .externalTouchpad)) = some (true, false) := by decide +kernel

/-! ### Questions -/

theorem device_keys {i : In} {v : View} (hv : Sees i v) {kind : Kind} {d : Dev} (h : (create i).1 = .device kind d)
    (hk : kind ≠ .tablet) (c : Nat) : d.k.has 1 c = v.has 1 c := by
  obtain ⟨b, d0, ts, hr, ht, hu, hb, hkk, -⟩ := made hv h
  have hs : d0.k.has 1 c = v.has 1 c := has_same hr 1 c (by omega) (by omega)
  rcases kind_cases hkk with ⟨rfl, rfl⟩ | ⟨rfl, rfl⟩ | ⟨rfl, rfl⟩ | ⟨rfl, hc⟩ | ⟨rfl, hc⟩
  · exact hs
  · exact hs
  · exact absurd rfl hk
  · rw [(touchpad_final hc).other 1 c (by decide), (padStart d0).1]; exact hs
  · rw [(other_final hc).1.has 1 c (by decide)]; exact hs

/-- **C59.**  The questions about buttons and keys fail on devices without the capability and otherwise tell what
the kernel and the quirks say. -/
theorem device_buttons (i : In) (v : View) (hv : Sees i v) (kind : Kind) (d : Dev) (h : (create i).1 = .device kind d) (c : Nat) :
    (Can i v kind .pointer → hasButton d c = if v.has 1 c = true then 1 else 0) ∧
    (¬ Can i v kind .pointer → hasButton d c = -1) ∧
    (Can i v kind .keyboard → hasKey d c = if v.has 1 c = true then 1 else 0) ∧
    (¬ Can i v kind .keyboard → hasKey d c = -1) ∧
    (Can i v kind .tabletPad → padHasKey d c = if v.has 1 c = true then 1 else 0) ∧
    (¬ Can i v kind .tabletPad → padHasKey d c = -1) := by
  obtain ⟨hrole, -, hcan, -⟩ := device_role i v hv kind d h
  have hkeys : kind ≠ .tablet → (d.k.has 1 c).toInt = if v.has 1 c = true then 1 else 0 := by
    intro hk
    rw [device_keys hv h hk]
    cases v.has 1 c <;> rfl
  have hno : ∀ cap, ¬ Can i v kind cap → d.caps cap = false := fun cap hx => by
    rw [← Bool.not_eq_true, hcan]; exact hx
  have hnt : ∀ cap, cap = .pointer ∨ cap = .keyboard ∨ cap = .tabletPad → Can i v kind cap → kind ≠ .tablet := by
    rintro cap hcap hx rfl
    have : cap = .tabletTool := hx
    rcases hcap with rfl | rfl | rfl <;> cases this
  unfold hasButton hasKey padHasKey
  refine ⟨?_, ?_, ?_, ?_, ?_, ?_⟩
  · intro hx; rw [(hcan _).2 hx]; exact hkeys (hnt .pointer (by simp) hx)
  · intro hx; rw [hno _ hx]; rfl
  · intro hx; rw [(hcan _).2 hx]; exact hkeys (hnt .keyboard (by simp) hx)
  · intro hx; rw [hno _ hx]; rfl
  · intro hx; rw [(hcan _).2 hx]; exact hkeys (hnt .tabletPad (by simp) hx)
  · intro hx; rw [hno _ hx]; rfl

example : ask mouse (fun _ d => (hasButton d 0x110, hasButton d 0x113, hasKey d 0x110)) = some (1, 0, -1) := by decide +kernel

/-- **C59.**  The number of touches is that of the slots; it is 1 for devices that track one touch, and 0, for
unknown, where the touches have to be told apart by libinput. -/
theorem device_touches (i : In) (v : View) (hv : Sees i v) (kind : Kind) (d : Dev) (h : (create i).1 = .device kind d) :
    (¬ Can i v kind .touch → touchCount d = -1) ∧
    (Can i v kind .touch → v.slots ≠ -1 → touchCount d = v.slots) ∧
    (Can i v kind .touch → v.slots = -1 →
      (v.has 3 0x35 = true ∧ v.has 3 0x36 = true ∧ v.has 3 0x2f = false → touchCount d = 0) ∧
      (¬ (v.has 3 0x35 = true ∧ v.has 3 0x36 = true ∧ v.has 3 0x2f = false) → touchCount d = 1)) := by
  obtain ⟨hrole, -, hcan, -⟩ := device_role i v hv kind d h
  have hno : ¬ Can i v kind .touch → touchCount d = -1 := by
    intro hx
    have : d.caps .touch = false := by rw [← Bool.not_eq_true, hcan]; exact hx
    unfold touchCount; rw [this]; rfl
  refine ⟨hno, ?_⟩
  by_cases hx : Can i v kind .touch
  · obtain ⟨b, d0, ts, hr, ht, hu, hb, hkk, -⟩ := made hv h
    have hcap := (hcan _).2 hx
    rcases kind_cases hkk with ⟨rfl, rfl⟩ | ⟨rfl, rfl⟩ | ⟨rfl, rfl⟩ | ⟨rfl, hc⟩ | ⟨rfl, hc⟩
    · cases hx
    · cases hx
    · cases hx
    · exact absurd hx (by simp [Can])
    · obtain ⟨hp, -, -, hm⟩ := other_final hc
      have hslots : d.k.slots = v.slots := by rw [hp.slots, hr.slots]
      have hmt : d.mtdev = true ↔ v.has 3 0x35 = true ∧ v.has 3 0x36 = true ∧ v.has 3 0x2f = false := by
        rw [hm, hr.rest.2.2.1, Bool.false_or]
        unfold needMtdev
        rw [hp.has 3 0x35 (by decide), hp.has 3 0x36 (by decide), hp.has 3 0x2f (by decide),
          has_same hr 3 0x35 (by omega) (by omega), has_same hr 3 0x36 (by omega) (by omega),
          has_same hr 3 0x2f (by omega) (by omega)]
        simp [and_assoc]
      unfold touchCount
      rw [hcap, hslots]
      simp only [Bool.not_true, Bool.false_eq_true, if_false]
      refine ⟨fun _ hs => by rw [if_neg hs], fun _ hs => ⟨fun hy => ?_, fun hy => ?_⟩⟩
      · rw [if_pos hs, if_pos (hmt.2 hy)]
      · rw [if_pos hs, if_neg (fun hz => hy (hmt.1 hz))]
  · exact ⟨fun hy => absurd hy hx, fun hy => absurd hy hx⟩

example : ask screen (fun _ d => touchCount d) = some 1 ∧ ask mouse (fun _ d => touchCount d) = some (-1) := by decide +kernel

/-- **C59.**  The question about switches fails on devices without switches and for unknown ones, and otherwise
tells which there are; one that is unreliable is not there. -/
theorem device_switches (i : In) (v : View) (hv : Sees i v) (kind : Kind) (d : Dev) (h : (create i).1 = .device kind d) :
    (¬ Can i v kind .switch → ∀ n, hasSwitch d n = -1) ∧ (∀ n, n ≠ 1 → n ≠ 2 → hasSwitch d n = -1) ∧
    (Can i v kind .switch →
      (hasSwitch d 1 = if v.has 5 0 = true then 1 else 0) ∧
      (hasSwitch d 2 = if v.has 5 1 = true ∧ i.quirks.tabletModeUnreliable = false then 1 else 0)) := by
  obtain ⟨hrole, -, hcan, -⟩ := device_role i v hv kind d h
  refine ⟨?_, ?_, ?_⟩
  · intro hx n
    have : d.caps .switch = false := by rw [← Bool.not_eq_true, hcan]; exact hx
    unfold hasSwitch; rw [this]; rfl
  · intro n h1 h2
    unfold hasSwitch
    rw [if_neg h1, if_neg h2]
    split <;> rfl
  · intro hx
    obtain ⟨b, d0, ts, hr, ht, hu, hb, hkk, -⟩ := made hv h
    have hcap := (hcan _).2 hx
    rcases kind_cases hkk with ⟨rfl, rfl⟩ | ⟨rfl, rfl⟩ | ⟨rfl, rfl⟩ | ⟨rfl, hc⟩ | ⟨rfl, hc⟩
    · cases hx
    · cases hx
    · cases hx
    · exact absurd hx (by simp [Can])
    · obtain ⟨-, h0, h1, -⟩ := other_final hc
      have htag : ts .switch = true := (ht.other .switch (by decide)).2 hx.1
      rw [has_same hr 5 0 (by omega) (by omega)] at h0
      rw [has_same hr 5 1 (by omega) (by omega), htag] at h1
      unfold hasSwitch
      rw [hcap, h0, h1]
      constructor
      · cases v.has 5 0 <;> rfl
      · cases v.has 5 1 <;> cases i.quirks.tabletModeUnreliable <;> rfl

example : ask screen (fun _ d => (hasSwitch d 1, hasSwitch d 2, hasSwitch d 3)) = some (1, 0, -1) := by decide +kernel

/-- **C59.**  `libinput_device_has_capability` tells the capabilities, by their numbers, and no others. -/
theorem device_capabilities (i : In) (v : View) (hv : Sees i v) (kind : Kind) (d : Dev) (h : (create i).1 = .device kind d) (n : Nat) :
    hasCapability d n = true ↔ n = 0 ∧ Can i v kind .keyboard ∨ n = 1 ∧ Can i v kind .pointer ∨ n = 2 ∧ Can i v kind .touch ∨
      n = 3 ∧ Can i v kind .tabletTool ∨ n = 4 ∧ Can i v kind .tabletPad ∨ n = 5 ∧ Can i v kind .gesture ∨
      n = 6 ∧ Can i v kind .switch := by
  obtain ⟨-, -, hcan, -⟩ := device_role i v hv kind d h
  simp only [← hcan]
  match n with
  | 0 | 1 | 2 | 3 | 4 | 5 | 6 => simp [hasCapability]
  | n + 7 => simp [hasCapability]

example : ask screen (fun _ d => (List.range 8).map (hasCapability d)) =
    some [false, false, true, false, false, false, true, false] := by decide +kernel

/-! ### Speed -/

theorem tagOnly_speed {a b : Dev} (h : TagOnly a b) : b.dpi = a.dpi ∧ b.multiplier = a.multiplier ∧ b.k = a.k := by
  obtain ⟨T, rfl⟩ := h
  exact ⟨rfl, rfl, rfl⟩

theorem keyboard_speed (q : Quirks) (ts : Tag → Bool) (d : Dev) :
    (setupKeyboard q ts d).dpi = d.dpi ∧ (setupKeyboard q ts d).multiplier = d.multiplier := by
  unfold setupKeyboard
  split
  · simp only
    obtain ⟨d1, hd1⟩ : ∃ d1, (if (d.cap .keyboard).k.has 2 8 || (d.cap .keyboard).k.has 2 6 then
      ({ d.cap .keyboard with natural := true } : Dev).cap .pointer else d.cap .keyboard) = d1 := ⟨_, rfl⟩
    rw [hd1]
    obtain ⟨h1, h2, -⟩ := tagOnly_speed (tagKeyboard_only q d1)
    rw [h1, h2, ← hd1]
    split <;> exact ⟨rfl, rfl⟩
  · exact ⟨rfl, rfl⟩

theorem switch_speed (q : Quirks) (ts : Tag → Bool) (d : Dev) :
    (setupSwitch q ts d).dpi = d.dpi ∧ (setupSwitch q ts d).multiplier = d.multiplier := by
  unfold setupSwitch
  split
  · simp only
    repeat' split
    all_goals exact ⟨rfl, rfl⟩
  · exact ⟨rfl, rfl⟩

theorem other_speed {i : In} {ts : Tag → Bool} {d d' : Dev} (h : (configureOther i ts d).1 = some d') :
    d'.dpi = (setupMouse i.conv i.quirks i.props ts d).dpi ∧
    d'.multiplier = (setupMouse i.conv i.quirks i.props ts d).multiplier := by
  unfold configureOther at h
  simp only at h
  generalize setupMouse i.conv i.quirks i.props ts d = d1 at h ⊢
  have k2 := keyboard_speed i.quirks ts d1
  generalize setupKeyboard i.quirks ts d1 = d2 at h k2
  obtain ⟨d3, hd3⟩ : ∃ d3, (if ts .touchscreen then d2.cap .touch else d2) = d3 := ⟨_, rfl⟩
  have k3 : d3.dpi = d2.dpi ∧ d3.multiplier = d2.multiplier := by rw [← hd3]; split <;> exact ⟨rfl, rfl⟩
  rw [hd3] at h
  have k4 := switch_speed i.quirks ts d3
  generalize setupSwitch i.quirks ts d3 = d4 at h k4
  obtain ⟨d5, hd5⟩ : ∃ d5, (if i.quirks.invertHorizontal then { d4 with invertH := true } else d4) = d5 := ⟨_, rfl⟩
  rw [hd5] at h
  have k5 : d5.dpi = d4.dpi ∧ d5.multiplier = d4.multiplier := by rw [← hd5]; split <;> exact ⟨rfl, rfl⟩
  obtain ⟨_, _, _, _, g5, g6, _⟩ := (fallbackCreate_spec i.mtdevOpens d5).2 d' h
  exact ⟨by rw [g5, k5.1, k4.1, k3.1, k2.1], by rw [g6, k5.2, k4.2, k3.2, k2.2]⟩

/-- **C59.**  The resolution of a mouse and the multiplier of a trackpoint are positive: the mouse's is that of
its property, if it has one, and 1000 dpi otherwise; a trackpoint's multiplier is that of the quirk, if it is
positive, and 1 otherwise. -/
theorem mouse_speed (i : In) (v : View) (hv : Sees i v) (d : Dev) (h : (create i).1 = .device .fallback d) (hm : Mousy i) :
    0 < d.dpi ∧ 0 < d.multiplier ∧
    (Stick i v → d.dpi = 1000 ∧ (∀ m, i.quirks.multiplier = some m → 0 < m → d.multiplier = m) ∧
      ((∀ m, i.quirks.multiplier = some m → m ≤ 0) → d.multiplier = 1)) ∧
    (¬ Stick i v → d.multiplier = 1 ∧
      (parseDpi i.conv (i.props "MOUSE_DPI") ≠ 0 → d.dpi = parseDpi i.conv (i.props "MOUSE_DPI")) ∧
      (parseDpi i.conv (i.props "MOUSE_DPI") = 0 → d.dpi = 1000)) := by
  obtain ⟨b, d0, ts, hr, ht, hu, hb, hkk, -⟩ := made hv h
  have hts : (ts .mouse || ts .pointingstick) = true := by
    rw [Bool.or_eq_true, ht.other .mouse (by decide), ht.other .pointingstick (by decide)]
    exact hm
  rcases kind_cases hkk with ⟨hx, -⟩ | ⟨hx, -⟩ | ⟨hx, -⟩ | ⟨hx, -⟩ | ⟨-, hc⟩
  · cases hx
  · cases hx
  · cases hx
  · cases hx
  obtain ⟨e1, e2⟩ := other_speed hc
  obtain ⟨d1, hd1⟩ : ∃ d1, tagTrackpoint i.quirks i.props (tagExternalMouse d0) = d1 := ⟨_, rfl⟩
  have hdpi : d.dpi = readDpi i.conv i.props d1 := by
    rw [e1]; unfold setupMouse; rw [if_pos hts, ← hd1]; rfl
  have hmul : d.multiplier = readMultiplier i.quirks d1 := by
    rw [e2]; unfold setupMouse; rw [if_pos hts, ← hd1]; rfl
  have htp : d1.tags .trackpoint = true ↔ Stick i v := by
    have := setupMouse_tags i.conv i.quirks i.props ts d0 .trackpoint
    unfold setupMouse at this
    rw [if_pos hts] at this
    simp only [Dev.cap] at this
    rw [hd1] at this
    rw [this, hr.tags, hr.prop, flag_iff]
    rw [Bool.or_eq_true] at hts
    simp [Stick, hts]
  have hpos : ∀ s, parseDpi i.conv (some s) = 0 ∨ 0 < parseDpi i.conv (some s) := by
    intro s
    have := dpi_zero_or_positive i.conv s
    omega
  rw [hdpi, hmul]
  unfold readDpi readMultiplier
  by_cases hst : Stick i v
  · have : d1.tags .trackpoint = true := htp.2 hst
    simp only [this, if_true, Bool.not_true, Bool.false_eq_true, if_false, hst, not_true_eq_false, false_implies, and_true, true_implies]
    refine ⟨by decide, ?_, trivial, ?_, ?_⟩
    · split
      · decide
      · rename_i hx; exact Rat.not_le.1 hx
    · intro m hq hm0
      rw [hq]
      simp only [Option.getD_some]
      rw [if_neg (Rat.not_le.2 hm0)]
    · intro hall
      cases hq : i.quirks.multiplier with
      | none => simp
      | some m => simp only [Option.getD_some]; rw [if_pos (hall m hq)]
  · have : d1.tags .trackpoint = false := by rw [← Bool.not_eq_true, htp]; exact hst
    simp only [this, Bool.not_false, if_true, Bool.false_eq_true, if_false, hst, not_false_eq_true, false_implies, true_and, true_implies]
    cases hp : i.props "MOUSE_DPI" with
    | none =>
      refine ⟨(by show (0 : Int) < 1000; decide), by decide, ?_, ?_⟩
      · intro hx; exact absurd rfl hx
      · intro _; rfl
    | some s =>
      simp only
      refine ⟨?_, by decide, ?_, ?_⟩
      · split
        · decide
        · rename_i hx
          rcases hpos s with h | h
          · exact absurd h hx
          · exact h
      · intro hx; rw [if_neg hx]
      · intro hx; rw [if_pos hx]

example : ask mouse (fun _ d => (d.dpi, d.multiplier)) = some (800, 1) ∧ ask stick (fun _ d => (d.dpi, d.multiplier)) = some (1000, 2) := by
  decide +kernel

/-! ### Wheels -/

theorem wheelVal_spec (s : Str) (hs : ¬ IntText s (-2147483648)) (v : Int) (hv : v ≠ 0) :
    wheelVal s = v ↔ IntText s v ∧ -360 ≤ v ∧ v ≤ 360 := by
  obtain ⟨h1, h2, h3⟩ := wheel_click_range s
  unfold wheelVal
  constructor
  · intro h
    cases hp : parseWheelClick (some s) with
    | ub => exact absurd (h3.1 hp) hs
    | val w =>
      rw [hp] at h
      simp only at h
      subst h
      rcases h1 _ hp with h | h
      · exact absurd h hv
      · exact h
  · rintro ⟨a, b, c⟩
    rw [h2 v a b c]

/-- No property has the text whose absolute value is not defined (C20). -/
def Defined (p : Props) (n : String) : Prop := ∀ s, p n = some s → ¬ IntText s (-2147483648)

theorem count_cases (p : Props) (n : String) (hd : Defined p n) :
    (∃ v, Angle p n v ∧ wheelCount p n = (some ((360 : Rat) / (v : Rat)), true)) ∨
    (NoAngle p n ∧ (wheelCount p n).2 = false) := by
  unfold wheelCount
  cases hp : p n with
  | none => exact Or.inr ⟨fun v ⟨s, hs, _⟩ => (by rw [hp] at hs; cases hs), rfl⟩
  | some s =>
    have hs := hd s hp
    by_cases h0 : wheelVal s = 0
    · refine Or.inr ⟨?_, by simp [h0]⟩
      rintro v ⟨s', hs', h1, h2, h3, h4⟩
      rw [hp] at hs'; cases hs'
      have := (wheelVal_spec s hs v h2).2 ⟨h1, h3, h4⟩
      exact h2 (this ▸ h0)
    · refine Or.inl ⟨wheelVal s, ⟨s, hp, ?_⟩, by simp [h0]⟩
      obtain ⟨a, b, c⟩ := (wheelVal_spec s hs _ h0).1 rfl
      exact ⟨a, h0, b, c⟩

theorem angle_cases (p : Props) (n : String) (hd : Defined p n) :
    (∃ v, Angle p n v ∧ wheelAngle p n = ((v : Rat), true)) ∨ (NoAngle p n ∧ wheelAngle p n = (15, false)) := by
  unfold wheelAngle
  cases hp : p n with
  | none => exact Or.inr ⟨fun v ⟨s, hs, _⟩ => (by rw [hp] at hs; cases hs), rfl⟩
  | some s =>
    have hs := hd s hp
    by_cases h0 : wheelVal s = 0
    · refine Or.inr ⟨?_, by simp [h0]⟩
      rintro v ⟨s', hs', h1, h2, h3, h4⟩
      rw [hp] at hs'; cases hs'
      have := (wheelVal_spec s hs v h2).2 ⟨h1, h3, h4⟩
      exact h2 (this ▸ h0)
    · refine Or.inl ⟨wheelVal s, ⟨s, hp, ?_⟩, by simp [h0]⟩
      obtain ⟨a, b, c⟩ := (wheelVal_spec s hs _ h0).1 rfl
      exact ⟨a, h0, b, c⟩

theorem angle_unique {p : Props} {n : String} (hd : Defined p n) {v w : Int} (hv : Angle p n v) (hw : Angle p n w) : v = w := by
  obtain ⟨s, hs, a, b, c, d⟩ := hv
  obtain ⟨s', hs', a', b', c', d'⟩ := hw
  rw [hs] at hs'; cases hs'
  rw [← (wheelVal_spec s (hd s hs) v b).2 ⟨a, c, d⟩, ← (wheelVal_spec s (hd s hs) w b').2 ⟨a', c', d'⟩]

/-- **C59.**  The angles of a wheel's clicks: the number of clicks in a turn goes before the angle, the
horizontal wheel's properties before the vertical one's, and 15 degrees is the angle of wheels without. -/
theorem wheel_angles (p : Props) (hd : ∀ n ∈ ["MOUSE_WHEEL_CLICK_COUNT", "MOUSE_WHEEL_CLICK_ANGLE",
      "MOUSE_WHEEL_CLICK_COUNT_HORIZONTAL", "MOUSE_WHEEL_CLICK_ANGLE_HORIZONTAL"], Defined p n) :
    (∀ v, Angle p "MOUSE_WHEEL_CLICK_COUNT" v → (wheelAngles p).1 = (360 : Rat) / (v : Rat)) ∧
    (NoAngle p "MOUSE_WHEEL_CLICK_COUNT" → ∀ v, Angle p "MOUSE_WHEEL_CLICK_ANGLE" v → (wheelAngles p).1 = (v : Rat)) ∧
    (NoAngle p "MOUSE_WHEEL_CLICK_COUNT" → NoAngle p "MOUSE_WHEEL_CLICK_ANGLE" → (wheelAngles p).1 = 15) ∧
    (∀ v, Angle p "MOUSE_WHEEL_CLICK_COUNT_HORIZONTAL" v → (wheelAngles p).2 = (360 : Rat) / (v : Rat)) ∧
    (NoAngle p "MOUSE_WHEEL_CLICK_COUNT_HORIZONTAL" → ∀ v, Angle p "MOUSE_WHEEL_CLICK_ANGLE_HORIZONTAL" v →
      (wheelAngles p).2 = (v : Rat)) ∧
    (NoAngle p "MOUSE_WHEEL_CLICK_COUNT_HORIZONTAL" → NoAngle p "MOUSE_WHEEL_CLICK_ANGLE_HORIZONTAL" →
      (wheelAngles p).2 = (wheelAngles p).1) := by
  have d1 := hd _ (by simp : "MOUSE_WHEEL_CLICK_COUNT" ∈ _)
  have d2 := hd _ (by simp : "MOUSE_WHEEL_CLICK_ANGLE" ∈ _)
  have d3 := hd _ (by simp : "MOUSE_WHEEL_CLICK_COUNT_HORIZONTAL" ∈ _)
  have d4 := hd _ (by simp : "MOUSE_WHEEL_CLICK_ANGLE_HORIZONTAL" ∈ _)
  have none_count : ∀ n, (wheelCount p n).2 = false → ∃ o, wheelCount p n = (o, false) := by
    intro n h; exact ⟨(wheelCount p n).1, by rw [← h]⟩
  unfold wheelAngles
  simp only
  refine ⟨?_, ?_, ?_, ?_, ?_, ?_⟩
  · intro v hv
    rcases count_cases p _ d1 with ⟨w, hw, he⟩ | ⟨hn, -⟩
    · rw [he, angle_unique d1 hv hw]
    · exact absurd hv (hn v)
  · intro hn v hv
    rcases count_cases p _ d1 with ⟨w, hw, -⟩ | ⟨-, he⟩
    · exact absurd hw (hn w)
    · obtain ⟨o, ho⟩ := none_count _ he
      rw [ho]
      rcases angle_cases p _ d2 with ⟨w, hw, hx⟩ | ⟨hn', -⟩
      · rw [angle_unique d2 hv hw]; simp [hx]
      · exact absurd hv (hn' v)
  · intro hn hn2
    rcases count_cases p _ d1 with ⟨w, hw, -⟩ | ⟨-, he⟩
    · exact absurd hw (hn w)
    · obtain ⟨o, ho⟩ := none_count _ he
      rw [ho]
      rcases angle_cases p _ d2 with ⟨w, hw, -⟩ | ⟨-, hx⟩
      · exact absurd hw (hn2 w)
      · simp [hx]
  · intro v hv
    rcases count_cases p _ d3 with ⟨w, hw, he⟩ | ⟨hn, -⟩
    · rw [he, angle_unique d3 hv hw]
    · exact absurd hv (hn v)
  · intro hn v hv
    rcases count_cases p _ d3 with ⟨w, hw, -⟩ | ⟨-, he⟩
    · exact absurd hw (hn w)
    · obtain ⟨o, ho⟩ := none_count _ he
      rw [ho]
      rcases angle_cases p _ d4 with ⟨w, hw, hx⟩ | ⟨hn', -⟩
      · rw [angle_unique d4 hv hw]; simp [hx]
      · exact absurd hv (hn' v)
  · intro hn hn2
    rcases count_cases p _ d3 with ⟨w, hw, -⟩ | ⟨-, he⟩
    · exact absurd hw (hn w)
    · obtain ⟨o, ho⟩ := none_count _ he
      rw [ho]
      rcases angle_cases p _ d4 with ⟨w, hw, -⟩ | ⟨-, hx⟩
      · exact absurd hw (hn2 w)
      · simp [hx]

/-- **C59.**  A click of a wheel is never an angle of 0. -/
theorem wheel_nonzero (p : Props) (hd : ∀ n ∈ ["MOUSE_WHEEL_CLICK_COUNT", "MOUSE_WHEEL_CLICK_ANGLE",
      "MOUSE_WHEEL_CLICK_COUNT_HORIZONTAL", "MOUSE_WHEEL_CLICK_ANGLE_HORIZONTAL"], Defined p n) :
    (wheelAngles p).1 ≠ 0 ∧ (wheelAngles p).2 ≠ 0 := by
  obtain ⟨h1, h2, h3, h4, h5, h6⟩ := wheel_angles p hd
  have d1 := hd _ (by simp : "MOUSE_WHEEL_CLICK_COUNT" ∈ _)
  have d2 := hd _ (by simp : "MOUSE_WHEEL_CLICK_ANGLE" ∈ _)
  have d3 := hd _ (by simp : "MOUSE_WHEEL_CLICK_COUNT_HORIZONTAL" ∈ _)
  have d4 := hd _ (by simp : "MOUSE_WHEEL_CLICK_ANGLE_HORIZONTAL" ∈ _)
  have hz : ∀ {n} {v : Int}, Angle p n v → (v : Rat) ≠ 0 := by
    rintro n v ⟨s, _, _, hv, _⟩ hx
    exact hv (by exact_mod_cast hx)
  have hq : ∀ {n} {v : Int}, Angle p n v → (360 : Rat) / (v : Rat) ≠ 0 := by
    intro n v hv hx
    have hv0 := hz hv
    have : (360 : Rat) / (v : Rat) * (v : Rat) = 360 := Rat.div_mul_cancel hv0
    rw [hx, Rat.zero_mul] at this
    exact absurd this (by decide)
  have hy : (wheelAngles p).1 ≠ 0 := by
    rcases count_cases p _ d1 with ⟨v, hv, -⟩ | ⟨hn, -⟩
    · rw [h1 v hv]; exact hq hv
    · rcases angle_cases p _ d2 with ⟨v, hv, -⟩ | ⟨hn2, -⟩
      · rw [h2 hn v hv]; exact hz hv
      · rw [h3 hn hn2]; decide
  refine ⟨hy, ?_⟩
  rcases count_cases p _ d3 with ⟨v, hv, -⟩ | ⟨hn, -⟩
  · rw [h4 v hv]; exact hq hv
  · rcases angle_cases p _ d4 with ⟨v, hv, -⟩ | ⟨hn2, -⟩
    · rw [h5 hn v hv]; exact hz hv
    · rw [h6 hn hn2]; exact hy

example : wheelAngles (propsOf [("MOUSE_WHEEL_CLICK_COUNT", "24"), ("MOUSE_WHEEL_CLICK_ANGLE_HORIZONTAL", "-20")]) = (15, -20) ∧
    wheelAngles (propsOf [("MOUSE_WHEEL_CLICK_COUNT", "36x"), ("MOUSE_WHEEL_CLICK_ANGLE", "20")]) = (20, 20) := by decide +kernel

end Libinput.Devices
