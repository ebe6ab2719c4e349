import Verif.Tablet.Model
/-
What a client of a tablet relies on, told from the events alone.
-/
namespace Libinput.Tablet

/-- What the client knows of a tool that is in proximity. -/
structure View where
  tool : ToolId
  tip : Bool
  held : List Nat
deriving DecidableEq, Repr

/-- The next event must make sense: a tool comes into proximity only when there is none; everything else concerns the
tool that is there; the tip goes down only when it is up and up only when it is down; a button is pressed only when it
is up and released only when it is down; and the tool leaves only when its tip is up and no button is down. -/
def next : Option View → Ev → Option (Option View)
  | none, .prox true d => if d.tip = false then some (some ⟨d.tool, false, []⟩) else none
  | none, _ => none
  | some v, .prox isIn d =>
    if isIn = false ∧ d.tool = v.tool ∧ d.tip = false ∧ v.tip = false ∧ v.held = [] then some none else none
  | some v, .tip down d => if d.tool = v.tool ∧ down ≠ v.tip ∧ d.tip = down then some (some { v with tip := down }) else none
  | some v, .axis d => if d.tool = v.tool ∧ d.tip = v.tip then some (some v) else none
  | some v, .button c pressed d =>
    if d.tool = v.tool ∧ d.tip = v.tip then
      if pressed then (if c ∈ v.held then none else some (some { v with held := c :: v.held }))
      else if c ∈ v.held then some (some { v with held := v.held.filter (· != c) }) else none
    else none

/-- A whole stream of events. -/
def follow (v : Option View) : List Ev → Option (Option View)
  | [] => some v
  | e :: es => match next v e with
    | some v' => follow v' es
    | none => none

/-- Whether a tool is in proximity, as far as the events tell. -/
def near : List Ev → Bool := List.foldl (fun b e => match e with | .prox isIn _ => isIn | _ => b) false

/-- Whether the tip is down, as far as the events tell. -/
def tipDown : List Ev → Bool := List.foldl (fun b e => match e with | .tip down _ => down | _ => b) false

/-- The buttons that are down, as far as the events tell. -/
def down (es : List Ev) (c : Nat) : Bool :=
  es.foldl (fun b e => match e with | .button c' p _ => if c' = c then p else b | _ => b) false

/-- Whether a kernel event is the key of a tool (`BTN_TOOL_PEN` to `BTN_TOOL_LENS`, without `BTN_TOOL_FINGER`). -/
def isToolKey : KEv → Bool
  | .key c _ => decide (320 ≤ c) && decide (c ≤ 327) && c != 325
  | _ => false

/-- The key of each tool: `BTN_TOOL_PEN`, `BTN_TOOL_RUBBER`, `BTN_TOOL_BRUSH`, `BTN_TOOL_PENCIL`, `BTN_TOOL_AIRBRUSH`,
`BTN_TOOL_MOUSE`, `BTN_TOOL_LENS`. -/
def toolKey : Kind → Nat
  | .pen => 320 | .eraser => 321 | .brush => 322 | .pencil => 323 | .airbrush => 324 | .mouse => 326 | .lens => 327

/-- Whether it is the key of a puck or a lens cursor. -/
def isCursorKey : KEv → Bool
  | .key c _ => c == 326 || c == 327
  | _ => false

/-- Whether it is the key of the tip going down or up. -/
def isTouchKey (v : Nat) : KEv → Bool
  | .key c w => c == 330 && ((w == 0) == (v == 0)) && w != 2
  | _ => false

/-- Whether it is one of the buttons of a tool being pressed. -/
def isPress : KEv → Bool
  | .key c v => ((decide (272 ≤ c) && decide (c ≤ 279)) || c == 331 || c == 332) && v != 0 && v != 2
  | _ => false

/-- What the kernel is expected to do, frame by frame.  `es` are the events delivered before the frame and `es'` those
delivered after it; `serial` is the serial number the kernel has reported last; `here` tells that a tool was in
proximity already when the tablet was plugged in and that no frame has come since.
* Tools come and go one at a time.
* No button goes down while no tool is in proximity.
* A tool does not change its serial number while it is in proximity.
* On a tablet without pressure, the tip goes down only while a tool is in proximity, and not in a frame in which another
  tool comes or goes; and it goes up only after it has gone down. -/
structure Orderly (cfg : Cfg) (serial : Nat) (here : Bool) (es es' : List Ev) (evs : List KEv) : Prop where
  oneTool : (evs.filter isToolKey).length ≤ 1
  press : near es' = false → ∀ e ∈ evs, isPress e = false
  sameSerial : near es = true → ∀ n, .serial n ∈ evs → n = serial ∨ n = 4294967295
  touchOnce : cfg.has .pressure = false → (evs.filter (fun e => isTouchKey 0 e || isTouchKey 1 e)).length ≤ 1
  touchDown : cfg.has .pressure = false → ∀ e ∈ evs, isTouchKey 1 e = true →
    near es' = true ∧ tipDown es = false ∧ (near es = true ∨ here = true → ∀ e ∈ evs, isToolKey e = false)
  touchUp : cfg.has .pressure = false → ∀ e ∈ evs, isTouchKey 0 e = true → tipDown es = true

/-- The history never suspends the tablet. -/
def Awake (ops : List Op) : Prop := ∀ op ∈ ops, ∀ t, op ≠ .suspend t

/-- The history has no keys of pucks and lens cursors. -/
def PensOnly (ops : List Op) : Prop := ∀ op ∈ ops, ∀ evs t, op = .frame evs t → ∀ e ∈ evs, isCursorKey e = false

/-- A history of which every frame is orderly, with pens only, and in which no other tablet gets to know the tool that is
in proximity. -/
def Polite (cfg : Cfg) : Pen → List Ev → List Op → Prop
  | _, _, [] => True
  | s, es, op :: ops =>
    let r := step cfg s op
    let es' := es ++ events r.2
    (match op with
     | .frame evs _ => (∀ e ∈ evs, isCursorKey e = false) ∧ Orderly cfg s.t.serial s.st.entering es es' evs
     | .foreign t => near es = true → t.serial ≠ s.t.serial
     | _ => True) ∧
    Polite cfg r.1 es' ops

end Libinput.Tablet
