import Mathlib.Analysis.SpecialFunctions.Complex.Arg
import Mathlib.Analysis.SpecialFunctions.Pow.Real
/-
Model of the pointer acceleration: the velocity trackers of filter.c and the filters of filter-mouse.c,
filter-low-dpi.c, filter-touchpad.c, filter-touchpad-x230.c, filter-trackpoint.c, filter-flat.c,
filter-touchpad-flat.c and filter-tablet.c, and the functions that feed them.

Simplified: `double` is the real numbers here, so rounding errors, infinities and NaN are left out.  Division by
zero is 0 here; the divisors are shown not to be zero.  Times are natural numbers: `uint64_t` microseconds, and all
differences are taken only where they are not negative.
-/
namespace Libinput.Accel
open Classical

/-- `struct device_float_coords` and `struct normalized_coords`.  Models: /repo/src/libinput-private.h:55-57. -/
@[ext] structure V where
  x : ℝ
  y : ℝ

/-- `UNDEFINED_DIRECTION`; the directions are bits, from N = bit 0 clockwise to NW = bit 7.
Models: /repo/src/libinput-private.h:775-785. -/
def undefinedDirection : Nat := 0xff

/-- `fmod` for a dividend that is not negative. -/
noncomputable def fmod (a b : ℝ) : ℝ := a - b * ⌊a / b⌋

/-- The directions of a movement.  `Complex.arg (x + y i)` is `atan2(y, x)`.  `(int)v` is rounding down, as `v` is not
negative.  Models: /repo/src/libinput-private.h:787-830. -/
noncomputable def xyDirection (x y : ℝ) : Nat :=
  if |x| < 2 ∧ |y| < 2 then
    if x > 0 ∧ y > 0 then 2^4 ||| 2^3 ||| 2^2
    else if x > 0 ∧ y < 0 then 2^0 ||| 2^1 ||| 2^2
    else if x < 0 ∧ y > 0 then 2^4 ||| 2^5 ||| 2^6
    else if x < 0 ∧ y < 0 then 2^0 ||| 2^7 ||| 2^6
    else if x > 0 then 2^1 ||| 2^2 ||| 2^3
    else if x < 0 then 2^7 ||| 2^6 ||| 2^5
    else if y > 0 then 2^3 ||| 2^4 ||| 2^5
    else if y < 0 then 2^1 ||| 2^0 ||| 2^7
    else undefinedDirection
  else
    let r := Complex.arg ⟨x, y⟩
    let r := fmod (r + 2.5 * Real.pi) (2 * Real.pi)
    let r := r * (4 * (1 / Real.pi))
    let d1 := ⌊r + 0.9⌋₊ % 8
    let d2 := ⌊r + 0.1⌋₊ % 8
    2^d1 ||| 2^d2

/-- Models: /repo/src/libinput-private.h:842-846. -/
noncomputable def direction (d : V) : Nat := xyDirection d.x d.y

/-- `struct pointer_tracker`.  Models: /repo/src/filter-private.h:54-58. -/
structure Tracker where
  delta : V
  time : Nat
  dir : Nat

/-- `struct pointer_delta_smoothener`.  Models: /repo/src/filter-private.h:61-64. -/
structure Smoothener where
  threshold : Nat
  value : Nat

/-- `struct pointer_trackers`; the array is a function from indices.  Models: /repo/src/filter-private.h:66-72. -/
structure Trackers where
  ts : Nat → Tracker
  n : Nat
  cur : Nat
  smoothener : Option Smoothener

/-- `MOTION_TIMEOUT`: one second.  Models: /repo/src/filter.c:38. -/
def motionTimeout : Nat := 1000 * 1000

/-- Models: /repo/src/filter-private.h:100-104. -/
noncomputable def us2ms (v : ℝ) : ℝ := v * 1000
/-- Models: /repo/src/filter-private.h:106-110. -/
noncomputable def us2s (v : ℝ) : ℝ := v * 1000000
/-- Models: /repo/src/filter-private.h:113-117. -/
noncomputable def ms2us (v : ℝ) : ℝ := v / 1000

/-- A tracker as `zalloc` leaves it. -/
def Tracker.zero : Tracker := ⟨⟨0, 0⟩, 0, 0⟩

/-- Models: /repo/src/filter.c:92-100. -/
def Trackers.init (n : Nat) : Trackers := { ts := fun _ => Tracker.zero, n := n, cur := 0, smoothener := none }

/-- The index `trackers_by_offset` looks at.  Models: /repo/src/filter.c:153-160. -/
def Trackers.index (tk : Trackers) (offset : Nat) : Nat := (tk.cur + tk.n - offset) % tk.n

/-- Models: /repo/src/filter.c:153-160. -/
def Trackers.byOffset (tk : Trackers) (offset : Nat) : Tracker := tk.ts (tk.index offset)

/-- Overwrites the tracker at an index. -/
def Trackers.put (tk : Trackers) (i : Nat) (t : Tracker) : Trackers :=
  { tk with ts := fun j => if j = i then t else tk.ts j }

/-- All but the current tracker are cleared.  Models: the loop of /repo/src/filter.c:109-127. -/
def Trackers.clearOthers (tk : Trackers) : Trackers :=
  (List.range (tk.n - 1)).foldl (fun tk k => tk.put (tk.index (k + 1)) Tracker.zero) tk

/-- Models: /repo/src/filter.c:109-127. -/
def Trackers.reset (tk : Trackers) (time : Nat) : Trackers :=
  let tk := tk.clearOthers
  tk.put (tk.index 0) { tk.byOffset 0 with time := time, dir := undefinedDirection }

/-- Models: /repo/src/filter.c:129-151. -/
noncomputable def Trackers.feed (tk : Trackers) (delta : V) (time : Nat) : Trackers :=
  let tk := { tk with ts := fun i => if i < tk.n then { tk.ts i with delta := ⟨(tk.ts i).delta.x + delta.x, (tk.ts i).delta.y + delta.y⟩ } else tk.ts i }
  let current := (tk.cur + 1) % tk.n
  let tk := { tk with cur := current }
  tk.put current ⟨⟨0, 0⟩, time, direction delta⟩

/-- `hypot`. -/
noncomputable def hypot (d : V) : ℝ := Real.sqrt (d.x * d.x + d.y * d.y)

/-- The time a velocity is taken over, in µs.  Models: /repo/src/filter.c:162-174. -/
def tdelta (sm : Option Smoothener) (elapsed : Nat) : Nat :=
  match sm with
  | some s => if elapsed + 1 < s.threshold then s.value else elapsed + 1
  | none => elapsed + 1

/-- Models: /repo/src/filter.c:162-174. -/
noncomputable def trackerVelocity (t : Tracker) (time : Nat) (sm : Option Smoothener) : ℝ :=
  hypot t.delta / (tdelta sm (time - t.time) : ℝ)

/-- Models: /repo/src/filter.c:176-194. -/
noncomputable def velocityAfterTimeout (t : Tracker) (sm : Option Smoothener) : ℝ :=
  trackerVelocity t (t.time + motionTimeout) sm

/-- The loop of `trackers_velocity`, from `offset` for the `rem` trackers that are left.
Models: /repo/src/filter.c:203-264. -/
noncomputable def velocityLoop (tk : Trackers) (time : Nat) : Nat → Nat → Nat → ℝ → ℝ → ℝ
  | 0, _, _, _, result => result
  | rem + 1, offset, dir, initial, result =>
    let tracker := tk.byOffset offset
    if tracker.time > time then result
    else if time - tracker.time > motionTimeout then
      if offset = 1 then velocityAfterTimeout tracker tk.smoothener else result
    else
      let velocity := trackerVelocity tracker time tk.smoothener
      let dir := dir &&& tracker.dir
      if dir = 0 then
        if offset = 1 then velocity else result
      else if initial = 0 ∨ offset ≤ 2 then velocityLoop tk time rem (offset + 1) dir velocity velocity
      else if |initial - velocity| > ms2us 1 then result
      else velocityLoop tk time rem (offset + 1) dir initial velocity

/-- Models: /repo/src/filter.c:203-264. -/
noncomputable def Trackers.velocity (tk : Trackers) (time : Nat) : ℝ :=
  velocityLoop tk time (tk.n - 1) 1 (tk.byOffset 0).dir 0 0

/-- Models: /repo/src/filter.c:278-299 and, the same again, /repo/src/filter-touchpad-x230.c:106-127. -/
noncomputable def simpsons (profile : ℝ → ℝ) (velocity last : ℝ) : ℝ :=
  (profile velocity + profile last + 4 * profile ((last + velocity) / 2)) / 6

/-- `DEFAULT_MOUSE_DPI`.  Models: /repo/src/libinput-util.h:57. -/
def defaultMouseDpi : Nat := 1000

/-- Models: /repo/src/filter-private.h:119-128. -/
noncomputable def normalizeForDpi (d : V) (dpi : Nat) : V :=
  ⟨d.x * defaultMouseDpi / dpi, d.y * defaultMouseDpi / dpi⟩

/-- `struct pointer_accelerator`, `struct pointer_accelerator_low_dpi` and `struct pointer_accelerator_x230`, which have
the same fields.  Models: /repo/src/filter-mouse.c:46-61. -/
structure Pointer where
  lastVelocity : ℝ
  trackers : Trackers
  threshold : ℝ
  accel : ℝ
  incline : ℝ
  dpi : Nat

/-- `struct touchpad_accelerator`.  Models: /repo/src/filter-touchpad.c:43-59. -/
structure Touchpad where
  lastVelocity : ℝ
  trackers : Trackers
  threshold : ℝ
  dpi : Nat
  speedFactor : ℝ

/-- `struct trackpoint_accelerator`.  Models: /repo/src/filter-trackpoint.c:38-45. -/
structure Trackpoint where
  trackers : Trackers
  speedFactor : ℝ
  multiplier : ℝ

/-- `struct pointer_accelerator_flat` and `struct touchpad_accelerator_flat`.
Models: /repo/src/filter-flat.c:37-42. -/
structure Flat where
  factor : ℝ
  dpi : Nat

/-- `struct tablet_accelerator_flat`.  Models: /repo/src/filter-tablet.c:37-44. -/
structure Tablet where
  factor : ℝ
  xres : Nat
  yres : Nat
  xresScale : ℝ
  yresScale : ℝ

/-- The filters, told apart by their `motion_filter_interface`. -/
inductive Impl where
  | mouse (p : Pointer)
  | lowDpi (p : Pointer)
  | x230 (p : Pointer)
  | touchpad (p : Touchpad)
  | trackpoint (p : Trackpoint)
  | flat (p : Flat)
  | touchpadFlat (p : Flat)
  | tablet (p : Tablet)

/-- `struct motion_filter`.  Models: /repo/src/filter-private.h:49-52. -/
structure Filter where
  speed : ℝ
  impl : Impl

/-! ## The profiles -/

/-- Models: /repo/src/filter-mouse.c:225-299. -/
noncomputable def profileMouse (p : Pointer) (speedIn : ℝ) : ℝ :=
  let speedIn := speedIn * defaultMouseDpi / p.dpi
  let factor :=
    if us2ms speedIn < 0.07 then 10 * us2ms speedIn + 0.3
    else if speedIn < p.threshold then 1
    else p.incline * us2ms (speedIn - p.threshold) + 1
  min p.accel factor

/-- Models: /repo/src/filter-low-dpi.c:73-104. -/
noncomputable def profileLowDpi (p : Pointer) (speedIn : ℝ) : ℝ :=
  let dpiFactor : ℝ := p.dpi / defaultMouseDpi
  let maxAccel := p.accel / dpiFactor
  let threshold := p.threshold * dpiFactor
  let factor :=
    if us2ms speedIn < 0.07 then 10 * us2ms speedIn + 0.3
    else if speedIn < threshold then 1
    else p.incline * us2ms (speedIn - threshold) + 1
  min maxAccel factor

/-- Models: /repo/src/filter-touchpad-x230.c:247-284. -/
noncomputable def profileX230 (p : Pointer) (speedIn : ℝ) : ℝ :=
  let maxAccel := p.accel * 4
  let threshold := p.threshold / 4
  let incline := p.incline * 4
  let speedIn := speedIn * (0.4 / 4)
  let f1 := min 1 (us2ms speedIn * 5)
  let f2 := 1 + (us2ms speedIn - us2ms threshold) * incline
  let factor := min maxAccel (if f2 > 1 then f2 else f1)
  factor * 0.4 / 4

/-- Models: /repo/src/filter-touchpad.c:228-314. -/
noncomputable def profileTouchpad (p : Touchpad) (speedIn : ℝ) : ℝ :=
  let baseline : ℝ := 0.9
  let speedIn := us2s speedIn * 25.4 / p.dpi
  let factor :=
    if speedIn < 7 then min baseline (0.1 * speedIn + 0.3)
    else if speedIn < p.threshold then baseline
    else
      let upper := p.threshold * 4
      let speedIn := min speedIn upper
      0.0025 * (speedIn / p.threshold) * (speedIn - p.threshold) + baseline
  let factor := factor * p.speedFactor
  factor * 0.2968

/-- Models: /repo/src/filter-trackpoint.c:47-71. -/
noncomputable def profileTrackpoint (p : Trackpoint) (velocity : ℝ) : ℝ :=
  let velocity := us2ms velocity
  let factor := 10.06254 + (0.3 - 10.06254) / (1 + (velocity / 0.9205459) ^ (1.15363 : ℝ))
  factor * p.speedFactor

/-! ## The speed setting -/

/-- Models: /repo/src/filter-touchpad.c:159-165 and, the same again, /repo/src/filter-trackpoint.c:129-135. -/
noncomputable def speedFactor (s : ℝ) : ℝ :=
  let s := s + 1
  435837.2 + (0.04762636 - 435837.2) / (1 + (s / 240.4549) ^ (2.377168 : ℝ))

/-- Models: /repo/src/filter-mouse.c:197-223, /repo/src/filter-low-dpi.c:199-225 and
/repo/src/filter-touchpad-x230.c:219-245, which are the same. -/
noncomputable def Pointer.setSpeed (p : Pointer) (s : ℝ) : Pointer :=
  let threshold := ms2us 0.4 - ms2us 0.25 * s
  { p with threshold := if threshold < ms2us 0.2 then ms2us 0.2 else threshold, accel := 2 + s * 1.5, incline := 1.1 + s * 0.75 }

/-- Models: /repo/src/filter-flat.c:74-92 and /repo/src/filter-touchpad-flat.c:82-95. -/
noncomputable def Flat.setSpeed (p : Flat) (s : ℝ) : Flat := { p with factor := max 0.005 (1 + s) }

/-- The `set_speed` functions; `none`: the assertion fails.  The tablet's function does not store the speed.
Models: /repo/src/filter.c:73-78, /repo/src/filter-touchpad.c:167-180,
/repo/src/filter-trackpoint.c:137-151 and /repo/src/filter-tablet.c:123-135. -/
noncomputable def Filter.setSpeed (f : Filter) (s : ℝ) : Option Filter :=
  if ¬ (s ≥ -1 ∧ s ≤ 1) then none
  else some <|
    match f.impl with
    | .mouse p => { speed := s, impl := .mouse (p.setSpeed s) }
    | .lowDpi p => { speed := s, impl := .lowDpi (p.setSpeed s) }
    | .x230 p => { speed := s, impl := .x230 (p.setSpeed s) }
    | .touchpad p => { speed := s, impl := .touchpad { p with speedFactor := speedFactor s } }
    | .trackpoint p => { speed := s, impl := .trackpoint { p with speedFactor := speedFactor s } }
    | .flat p => { speed := s, impl := .flat (p.setSpeed s) }
    | .touchpadFlat p => { speed := s, impl := .touchpadFlat (p.setSpeed s) }
    | .tablet p => { f with impl := .tablet { p with factor := s + 1 } }

/-! ## Movements -/

/-- Multiplies both axes. -/
noncomputable def V.mul (k : ℝ) (d : V) : V := ⟨k * d.x, k * d.y⟩

/-- Models: /repo/src/filter-mouse.c:73-93, /repo/src/filter-low-dpi.c:106-126 and the
middle of /repo/src/filter-touchpad-x230.c:129-166, which are the same but for the profile. -/
noncomputable def Pointer.accelerationFactor (p : Pointer) (profile : Pointer → ℝ → ℝ) (d : V) (time : Nat) : ℝ × Pointer :=
  let p := { p with trackers := p.trackers.feed d time }
  let velocity := p.trackers.velocity time
  let factor := simpsons (profile p) velocity p.lastVelocity
  (factor, { p with lastVelocity := velocity })

/-- Models: /repo/src/filter-mouse.c:107-126, /repo/src/filter-low-dpi.c:128-147 and the end of
/repo/src/filter-touchpad-x230.c:129-166. -/
noncomputable def Pointer.filterGeneric (p : Pointer) (profile : Pointer → ℝ → ℝ) (d : V) (time : Nat) : V × Pointer :=
  let r := p.accelerationFactor profile d time
  (d.mul r.1, r.2)

/-- Models: /repo/src/filter-mouse.c:128-151. -/
noncomputable def filterMouse (p : Pointer) (d : V) (time : Nat) : V × Pointer :=
  p.filterGeneric profileMouse (normalizeForDpi d p.dpi) time

/-- Models: /repo/src/filter-low-dpi.c:149-165. -/
noncomputable def filterLowDpi (p : Pointer) (d : V) (time : Nat) : V × Pointer :=
  p.filterGeneric profileLowDpi d time

/-- Models: /repo/src/filter-touchpad-x230.c:129-166. -/
noncomputable def filterX230 (p : Pointer) (d : V) (time : Nat) : V × Pointer :=
  p.filterGeneric profileX230 (normalizeForDpi d p.dpi) time

/-- Models: /repo/src/filter-touchpad.c:71-91. -/
noncomputable def Touchpad.accelerationFactor (p : Touchpad) (d : V) (time : Nat) : ℝ × Touchpad :=
  let p := { p with trackers := p.trackers.feed d time }
  let velocity := p.trackers.velocity time
  let factor := simpsons (profileTouchpad p) velocity p.lastVelocity
  (factor, { p with lastVelocity := velocity })

/-- Models: /repo/src/filter-touchpad.c:126-141 and /repo/src/filter-touchpad.c:105-124. -/
noncomputable def filterTouchpad (p : Touchpad) (d : V) (time : Nat) : V × Touchpad :=
  let r := p.accelerationFactor d time
  (normalizeForDpi (d.mul r.1) p.dpi, r.2)

/-- Models: /repo/src/filter-trackpoint.c:73-96. -/
noncomputable def filterTrackpoint (p : Trackpoint) (d : V) (time : Nat) : V × Trackpoint :=
  let multiplied : V := ⟨d.x * p.multiplier, d.y * p.multiplier⟩
  let p := { p with trackers := p.trackers.feed multiplied time }
  let velocity := p.trackers.velocity time
  let f := profileTrackpoint p velocity
  (⟨multiplied.x * f, multiplied.y * f⟩, p)

/-- Models: /repo/src/filter-flat.c:44-61. -/
noncomputable def filterFlat (p : Flat) (d : V) : V := ⟨p.factor * d.x, p.factor * d.y⟩

/-- Models: /repo/src/filter-touchpad-flat.c:47-64. -/
noncomputable def filterTouchpadFlat (p : Flat) (d : V) : V := ⟨0.2968 * p.factor * d.x, 0.2968 * p.factor * d.y⟩

/-- Models: /repo/src/filter-tablet.c:46-68. -/
noncomputable def filterTabletMouse (p : Tablet) (d : V) : V :=
  ⟨d.x * p.xresScale * p.factor, d.y * p.yresScale * p.factor⟩

/-- Models: /repo/src/filter-tablet.c:70-93. -/
noncomputable def filterTabletPen (p : Tablet) (d : V) : V :=
  let conversion : ℝ := 96 / 25.4 * 2.5
  let mm : V := ⟨1 * d.x / p.xres, 1 * d.y / p.yres⟩
  ⟨mm.x * p.factor * conversion, mm.y * p.factor * conversion⟩

/-- The `filter` functions.  `cursor`: for a tablet, whether the tool is a mouse or a lens cursor.
Models: /repo/src/filter.c:40-46 and /repo/src/filter-tablet.c:95-121. -/
noncomputable def Filter.dispatch (f : Filter) (cursor : Bool) (d : V) (time : Nat) : V × Filter :=
  match f.impl with
  | .mouse p => let r := filterMouse p d time; (r.1, { f with impl := .mouse r.2 })
  | .lowDpi p => let r := filterLowDpi p d time; (r.1, { f with impl := .lowDpi r.2 })
  | .x230 p => let r := filterX230 p d time; (r.1, { f with impl := .x230 r.2 })
  | .touchpad p => let r := filterTouchpad p d time; (r.1, { f with impl := .touchpad r.2 })
  | .trackpoint p => let r := filterTrackpoint p d time; (r.1, { f with impl := .trackpoint r.2 })
  | .flat p => (filterFlat p d, f)
  | .touchpadFlat p => (filterTouchpadFlat p d, f)
  | .tablet p => (if cursor then filterTabletMouse p d else filterTabletPen p d, f)

/-- The `filter_constant` functions; `none`: the tablet has none and the call crashes.
Models: /repo/src/filter.c:48-54, /repo/src/filter-mouse.c:165-174, /repo/src/filter-low-dpi.c:167-176,
/repo/src/filter-touchpad-x230.c:168-184, /repo/src/filter-touchpad.c:182-205,
/repo/src/filter-trackpoint.c:98-111, /repo/src/filter-flat.c:63-72 and
/repo/src/filter-touchpad-flat.c:66-80. -/
noncomputable def Filter.constant (f : Filter) (d : V) : Option V :=
  match f.impl with
  | .mouse p => some (normalizeForDpi d p.dpi)
  | .lowDpi p => some (normalizeForDpi d p.dpi)
  | .x230 p => some ((normalizeForDpi d p.dpi).mul (0.4 / 4))
  | .touchpad p => some ((normalizeForDpi d p.dpi).mul (0.9 * 0.2968))
  | .trackpoint p => some ⟨d.x * p.multiplier, d.y * p.multiplier⟩
  | .flat p => some (normalizeForDpi d p.dpi)
  | .touchpadFlat p => some ((normalizeForDpi d p.dpi).mul 0.2968)
  | .tablet _ => none

/-- The `restart` functions; the flat ones and the tablet's are NULL.
Models: /repo/src/filter.c:56-62, /repo/src/filter-mouse.c:176-185, /repo/src/filter-low-dpi.c:178-187,
/repo/src/filter-touchpad-x230.c:186-207, /repo/src/filter-touchpad.c:207-216 and
/repo/src/filter-trackpoint.c:153-162. -/
def Filter.restart (f : Filter) (time : Nat) : Filter :=
  match f.impl with
  | .mouse p => { f with impl := .mouse { p with trackers := p.trackers.reset time } }
  | .lowDpi p => { f with impl := .lowDpi { p with trackers := p.trackers.reset time } }
  | .x230 p => { f with impl := .x230 { p with trackers := p.trackers.reset time } }
  | .touchpad p => { f with impl := .touchpad { p with trackers := p.trackers.reset time } }
  | .trackpoint p => { f with impl := .trackpoint { p with trackers := p.trackers.reset time } }
  | .flat _ | .touchpadFlat _ | .tablet _ => f

/-! ## New filters -/

/-- What kind of filter a device gets. -/
inductive Kind where
  | mouse | lowDpi | x230 | touchpad (bluetooth : Bool) | trackpoint | flat | touchpadFlat | tablet
deriving DecidableEq

/-- What a filter is made for.  `averaging`: `use_velocity_averaging`; `multiplier`: for trackpoints; `xres`, `yres`: for tablets. -/
structure Hw where
  kind : Kind
  dpi : Nat
  averaging : Bool
  multiplier : ℝ
  xres : Nat
  yres : Nat

/-- How many trackers there are.  Models: /repo/src/filter-mouse.c:310-326. -/
def Hw.ntrackers (hw : Hw) : Nat := if hw.averaging then 16 else 2

/-- The smoothing of timestamps.  Models: /repo/src/evdev-mt-touchpad.c:2957-3001 and
/repo/src/filter-trackpoint.c:183-219. -/
def Kind.smoothener : Kind → Option Smoothener
  | .touchpad true => some ⟨50 * 1000, 10 * 1000⟩
  | .touchpad false => some ⟨0, 0⟩
  | .trackpoint => some ⟨10 * 1000, 10 * 1000⟩
  | _ => none

/-- The trackers of a new filter. -/
def Hw.trackers (hw : Hw) : Trackers := { Trackers.init hw.ntrackers with smoothener := hw.kind.smoothener }

/-- The filters as they are created.  Models: /repo/src/filter-mouse.c:310-326, /repo/src/filter-mouse.c:328-341,
/repo/src/filter-low-dpi.c:254-267, /repo/src/filter-touchpad-x230.c:299-317,
/repo/src/filter-touchpad.c:325-351, /repo/src/filter-trackpoint.c:183-219,
/repo/src/filter-flat.c:112-122, /repo/src/filter-touchpad-flat.c:115-125 and
/repo/src/filter-tablet.c:155-168. -/
noncomputable def Hw.create (hw : Hw) : Filter :=
  let p : Pointer := ⟨0, hw.trackers, ms2us 0.4, 2, 1.1, hw.dpi⟩
  { speed := 0
    impl :=
      match hw.kind with
      | .mouse => .mouse p
      | .lowDpi => .lowDpi p
      | .x230 => .x230 p
      | .touchpad _ => .touchpad ⟨0, hw.trackers, 130, hw.dpi, 0⟩
      | .trackpoint => .trackpoint ⟨hw.trackers, 0, hw.multiplier⟩
      | .flat => .flat ⟨0, hw.dpi⟩
      | .touchpadFlat => .touchpadFlat ⟨0, hw.dpi⟩
      | .tablet => .tablet ⟨1, hw.xres, hw.yres, defaultMouseDpi / (25.4 * hw.xres), defaultMouseDpi / (25.4 * hw.yres)⟩ }

/-- What happens to a filter. -/
inductive Op where
  | move (cursor : Bool) (d : V) (time : Nat)
  | restart (time : Nat)
  | setSpeed (s : ℝ)

/-- One operation on a filter; the output of a movement is what `Filter.dispatch` returns. -/
noncomputable def Filter.step (f : Filter) : Op → Option Filter
  | .move c d t => some (f.dispatch c d t).2
  | .restart t => some (f.restart t)
  | .setSpeed s => f.setSpeed s

/-- A history of operations; `none`: an assertion failed. -/
noncomputable def Filter.run (f : Filter) : List Op → Option Filter
  | [] => some f
  | op :: ops => match f.step op with
    | some f => f.run ops
    | none => none

/-- The filter of a device: the speed is set to the speed of the filter before, or to 0 on the first one.
Models: /repo/src/evdev.c:1209-1231 and /repo/src/evdev.c:1163-1187. -/
noncomputable def Hw.filter (hw : Hw) (s : ℝ) : Option Filter := hw.create.setSpeed s

end Libinput.Accel
