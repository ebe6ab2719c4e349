import Verif.SoftButtons.Model
/-
What a user may expect of the software buttons of a clickpad, independent of the code.
-/
namespace Libinput.SoftButtons.Spec
open Libinput.SoftButtons

/-- What is known from outside.  `down`: the physical button is down; `old`: it was down at the last frame;
`suspended`: the touchpad is suspended. -/
structure Env where
  down : Bool := false
  old : Bool := false
  suspended : Bool := false
deriving DecidableEq, Repr

/-- Nothing is read from a suspended touchpad unless it has top buttons. -/
def Env.read (hasTop : Bool) (e : Env) : Bool := !e.suspended || hasTop

/-- How the outside changes.  Suspending and resuming release the physical button. -/
def Env.follow (hasTop : Bool) (e : Env) : Op → Env
  | .button v => if e.read hasTop then { e with down := v } else e
  | .frame _ _ => if e.read hasTop then { e with old := e.down } else e
  | .suspend _ _ => if e.suspended then e else ⟨false, false, true⟩
  | .resume _ _ => if !e.suspended then e else if hasTop then ⟨false, false, false⟩ else { e with suspended := false }
  | _ => e

/-- How far the current click is.  `up`: there is none; `waiting`: the physical button is down but nothing was
reported yet; `held`: a press was reported; `over`: nothing more will be reported for it. -/
inductive Click where
  | up | waiting | held (d : Dest) (code : Nat) | over
deriving DecidableEq, Repr

/-- A frame, or the end of the click when the touchpad is suspended or resumed, at time `t` with the physical button
`down` takes a click from one stage to the next and reports these events. -/
inductive Frame (t : Nat) : Bool → Click → List Note → Click → Prop
  | idle : Frame t false .up [] .up
  | wait : Frame t true .up [] .waiting
  | waitMore : Frame t true .waiting [] .waiting
  | press (d b) : Frame t true .up [⟨t, d, b, true⟩] (.held d b)
  | pressLate (d b) : Frame t true .waiting [⟨t, d, b, true⟩] (.held d b)
  | ignore : Frame t true .up [] .over
  | ignoreLate : Frame t true .waiting [] .over
  | hold (d b) : Frame t true (.held d b) [] (.held d b)
  | still : Frame t true .over [] .over
  | release (d b) : Frame t false (.held d b) [⟨t, d, b, false⟩] .up
  | drop : Frame t false .waiting [] .up
  | done : Frame t false .over [] .up

/-- What an operation may do to the current click.  Removing the trackpoint ends a click that was reported to it. -/
def Allowed (hasTop : Bool) (e : Env) (c : Click) (op : Op) (ns : List Note) (c' : Click) : Prop :=
  match op with
  | .frame t _ => if e.read hasTop then Frame t e.down c ns c' else ns = [] ∧ c' = c
  | .suspend t _ => if e.suspended then ns = [] ∧ c' = c else Frame t false c ns c'
  | .resume t _ => if e.suspended ∧ hasTop then Frame t false c ns c' else ns = [] ∧ c' = c
  | .removeTrackpoint => ns = [] ∧
      match c with
      | .held .trackpoint _ => c' = .over
      | _ => c' = c
  | _ => ns = [] ∧ c' = c

/-- Every physical click is reported as `Allowed` says. -/
def Clicks (hasTop : Bool) : Env → Click → List Op → List (List Note) → Prop
  | _, _, [], nss => nss = []
  | _, _, _ :: _, [] => False
  | e, c, op :: ops, ns :: nss => ∃ c', Allowed hasTop e c op ns c' ∧ Clicks hasTop (e.follow hasTop op) c' ops nss

/-- No trackpoint comes or goes while the touchpad is suspended and clicked. -/
def Careful (hasTop : Bool) : Env → List Op → Prop
  | _, [] => True
  | e, op :: ops =>
    (match op with
      | .addTrackpoint | .removeTrackpoint => ¬ (e.suspended = true ∧ e.old = true)
      | _ => True) ∧ Careful hasTop (e.follow hasTop op) ops

/-- Where a point is: in the strip of bottom buttons (right, middle, left from right to left), in the strip of top
buttons, or in the main area. -/
def zone (e : Edges) (p : Pt) : Zone :=
  if e.top ≤ p.2 then
    if e.right < p.1 then .bottomR else if e.mid < p.1 then .bottomM else .bottomL
  else if p.2 ≤ e.upper then
    if e.upR < p.1 then .topR else if p.1 < e.upL then .topL else .topM
  else .area

def isBottom (z : Zone) : Bool := z == .bottomL || z == .bottomM || z == .bottomR
def isTop (z : Zone) : Bool := z == .topL || z == .topM || z == .topR

/-- One of the fingers counts as being on one of the two buttons. -/
def on (zs : List (Option Zone)) (a b : Zone) : Bool := decide (some a ∈ zs ∨ some b ∈ zs)

/-- A finger counts as being on a top button. -/
def onTop (zs : List (Option Zone)) : Bool :=
  decide (some Zone.topL ∈ zs ∨ some Zone.topM ∈ zs ∨ some Zone.topR ∈ zs)

/-- The button for a click with fingers that count as being in the zones `zs` (`none`: nowhere): middle with a finger
on a middle button, or with fingers left and right if the emulation is on or a top button is touched; else right with
a finger on a right button; else left.  Left-handed users get left and right swapped, but not for top buttons or when
no software button is touched. -/
def button (zs : List (Option Zone)) (emul left : Bool) : Nat :=
  let l := on zs .bottomL .topL
  let m := on zs .bottomM .topM
  let r := on zs .bottomR .topR
  let top := onTop zs
  if m || ((emul || top) && l && r) then 0x112
  else if !top && left then (if r then 0x110 else if l then 0x111 else 0x110)
  else if r then 0x111 else 0x110

/-- What happens to one finger.  `at`: it is seen in a zone; `click`: the physical button is pressed; `tick`: its timer
is checked at a time. -/
inductive Item where
  | at (z : Zone) (t : Nat) | click (t : Nat) | tick (t : Nat)
deriving DecidableEq, Repr

/-- The zones a finger was seen in, in order. -/
def zones : List Item → List Zone
  | [] => []
  | .at z _ :: is => z :: zones is
  | _ :: is => zones is

/-- What a frame does to the record of a finger: `e` are the edges in use, `clicked` says that the physical button was
pressed since the last frame. -/
def record (e : Edges) (clicked : Bool) (t : Nat) (v : View) (is : List Item) : List Item :=
  match v.ts with
  | .none | .hovering | .end_ => []
  | _ =>
    (if v.ts = .begin then [] else is) ++ (if v.dirty then [.at (zone e v.pt) t] else []) ++
      (if clicked then [.click t] else [])

/-- The record of finger `i` since it landed, after an operation. -/
def follow (i : Nat) (s : Pad) (is : List Item) : Op → List Item
  | .frame t vs => if s.closed then is else match vs[i]? with
      | some v => record s.edges s.qPress t v is
      | none => is
  | .timeout t j => if i = j ∧ is ≠ [] then is ++ [.tick t] else is
  | .suspend _ _ => if s.suspended then is else []
  | .resume _ _ => if s.suspended && s.hasTop then [] else is
  | _ => is

/-- The record of finger `i` since it landed (empty if it is not there), at the end of a history. -/
def history (i : Nat) : Pad → List Item → List Op → List Item
  | _, is, [] => is
  | s, is, op :: ops => history i (step s op).1 (follow i s is op) ops

/-- A finger lands only where none is, it moves and stays only after landing, and it is seen when it lands. -/
def fits (here : Bool) (v : View) : Bool :=
  match v.ts with
  | .none | .hovering => !here
  | .begin => !here && v.dirty
  | .update | .maybeEnd => here
  | .end_ => true

/-- The finger is there after the frame. -/
def there (v : View) : Bool := v.ts == .begin || v.ts == .update || v.ts == .maybeEnd

/-- Every finger of the frame fits what was before, and no slot is left out. -/
def fitsAll : List Bool → List View → Bool
  | [], [] => true
  | h :: hs, v :: vs => fits h v && fitsAll hs vs
  | _, _ => false

/-- The touches are lifted when the touchpad is suspended or resumed. -/
def lifted (v : View) : Bool := v.ts == .none || v.ts == .end_

/-- A history the rest of the touchpad code can produce: `hs` says which slots have a finger. -/
def Possible (hasTop : Bool) : Env → List Bool → List Op → Prop
  | _, _, [] => True
  | e, hs, op :: ops =>
    match op with
    | .frame _ vs =>
      if e.read hasTop then fitsAll hs vs = true ∧ Possible hasTop (e.follow hasTop op) (vs.map there) ops
      else Possible hasTop (e.follow hasTop op) hs ops
    | .suspend _ vs =>
      if e.suspended then Possible hasTop (e.follow hasTop op) hs ops
      else (fitsAll hs vs = true ∧ vs.all lifted = true) ∧
        Possible hasTop (e.follow hasTop op) (hs.map fun _ => false) ops
    | .resume _ vs =>
      if e.suspended && hasTop then (fitsAll hs vs = true ∧ vs.all lifted = true) ∧
        Possible hasTop (e.follow hasTop op) (hs.map fun _ => false) ops
      else Possible hasTop (e.follow hasTop op) hs ops
    | _ => Possible hasTop (e.follow hasTop op) hs ops

/-- What a finger that did not land on a top button counts as: the bottom button it is on, as long as it has been on
bottom buttons only; else the main area. -/
def counts : List Zone → Option Zone
  | [] => none
  | z :: zs => if (z :: zs).all isBottom then some ((z :: zs).getLast (by simp)) else some .area

/-- A finger on top buttons: the button it is on, since when, and whether it has settled there: after 100 ms, or when
the physical button is pressed. -/
structure Stay where
  on : Zone
  since : Nat
  settled : Bool
deriving DecidableEq, Repr

def Stay.next (s : Stay) : Item → Stay
  | .at z t => if z = s.on then s else ⟨z, t, false⟩
  | .click _ => { s with settled := true }
  | .tick now => if s.since + 100000 ≤ now then { s with settled := true } else s

/-- The stay of a finger that landed on the top button `z` at time `t`. -/
def stay (z : Zone) (t : Nat) (is : List Item) : Stay := is.foldl Stay.next ⟨z, t, false⟩

/-- Is this a press of the physical button? -/
def isClick : Item → Bool
  | .click _ => true
  | _ => false

/-- The timer is checked only before time `t`. -/
def ticksBefore (t : Nat) (is : List Item) : Prop := ∀ now, Item.tick now ∈ is → now < t

/-- The settings: those asked for last, and those in force. -/
structure Conf where
  method : Method
  emul : Bool := false
  emulWant : Bool := false
  left : Bool := false
  leftWant : Bool := false
deriving DecidableEq, Repr

/-- The click method changes at once.  Middle button emulation and left-handed mode change at once while the physical
button is up; else emulation with the first frame in which it is up, left-handed mode with the next release of a
button. -/
def Conf.follow (hasTop : Bool) (e : Env) (c : Conf) : Op → Conf
  | .setMethod m => { c with method := m }
  | .setMiddle b => if e.down then { c with emulWant := b } else { c with emulWant := b, emul := b }
  | .setLeft b => if e.down then { c with leftWant := b } else { c with leftWant := b, left := b }
  | .applyLeft => if e.down then c else { c with left := c.leftWant }
  | .frame _ _ => if e.read hasTop && !e.down then { c with emul := c.emulWant } else c
  | .suspend _ _ => if e.suspended then c else { c with emul := c.emulWant }
  | .resume _ _ => if e.suspended && hasTop then { c with emul := c.emulWant } else c
  | _ => c

/-- The outside at the end of a history. -/
def env (hasTop : Bool) : Env → List Op → Env
  | e, [] => e
  | e, op :: ops => env hasTop (e.follow hasTop op) ops

/-- The settings at the end of a history. -/
def conf (hasTop : Bool) : Env → Conf → List Op → Conf
  | _, c, [] => c
  | e, c, op :: ops => conf hasTop (e.follow hasTop op) (c.follow hasTop e op) ops

/-- The fingers that count for the clickfinger method. -/
def clicking (vs : List View) : List View :=
  vs.filter fun v => (v.ts == .begin || v.ts == .update) && !v.thumb && !v.palm

/-- Two fingers belong together: at most 40 mm apart sideways and 30 mm in height; if more than 20 mm apart in height,
then on a touchpad less than 50 mm high, or both or neither in its lowest 20 mm. -/
def Together (g : Geo) (a b : Pt) : Prop :=
  ((a.1 - b.1).natAbs : Int) ≤ 40 * g.xres ∧ ((a.2 - b.2).natAbs : Int) ≤ 30 * g.yres ∧
    (((a.2 - b.2).natAbs : Int) ≤ 20 * g.yres ∨ Int.tdiv g.height g.yres < 50 ∨
      (a.2 > g.ymax - 20 * g.yres ↔ b.2 > g.ymax - 20 * g.yres))

/-- The button for the clickfinger method: left for one finger (or none), right for two together, middle for three,
none for more. -/
inductive Fingers (g : Geo) : List View → Option Nat → Prop
  | zero : Fingers g [] (some 0x110)
  | one (a) : Fingers g [a] (some 0x110)
  | two (a b) (h : Together g a.pt b.pt) : Fingers g [a, b] (some 0x111)
  | apart (a b) (h : ¬ Together g a.pt b.pt) : Fingers g [a, b] (some 0x110)
  | three (a b c) : Fingers g [a, b, c] (some 0x112)
  | more (vs) (h : 4 ≤ vs.length) : Fingers g vs none

/-- The physical button was pressed since the last frame. -/
def clicked (hasTop : Bool) : Env → Bool → List Op → Bool
  | _, p, [] => p
  | e, p, op :: ops =>
    clicked hasTop (e.follow hasTop op)
      (match op with
        | .button v => p || (e.read hasTop && v)
        | .frame _ _ => p && !e.read hasTop
        | .suspend _ _ => p && e.suspended
        | .resume _ _ => p && !(e.suspended && hasTop)
        | _ => p) ops

/-- The edges of the software buttons that belong to the settings: with the emulation the bottom strip is split in the
middle, else it has a middle button; without software buttons there is no bottom strip; top buttons are larger while
the touchpad is suspended. -/
structure EdgesFor (g : Geo) (hasTop suspended : Bool) (c : Conf) (e : Edges) : Prop where
  strip : c.method = .areas → e.top = g.top
  split : c.method = .areas → c.emul = true → e.right = g.half ∧ e.mid = 2147483647
  middle : c.method = .areas → c.emul = false → e.right = g.midR ∧ e.mid = g.midL
  noStrip : c.method ≠ .areas → e.top = 2147483647
  upper : hasTop = true → e.upper = (if suspended then g.upperBig else g.upper) ∧ e.upL = g.upL ∧ e.upR = g.upR
  noUpper : hasTop = false → e.upper = -2147483648

/-- The click method is not chosen while a change of the middle button emulation is pending. -/
def Calm (hasTop : Bool) : Env → Conf → List Op → Prop
  | _, _, [] => True
  | e, c, op :: ops =>
    (match op with
      | .setMethod _ => c.emul = c.emulWant
      | _ => True) ∧ Calm hasTop (e.follow hasTop op) (c.follow hasTop e op) ops

end Libinput.SoftButtons.Spec
