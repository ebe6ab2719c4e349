import Verif.Quirks.Fetch
import Verif.Parsers.Props
/-!
# Hardware quirks

* **C52** A quirks file is taken exactly as written, or refused as a whole.
* **C53** A device gets the last value of all sections that apply to it.
-/
namespace Libinput.Quirks
open Libinput.Strings Libinput.Strings.Spec Libinput.Parsers Libinput.Parsers.Spec Spec

variable {F : Type}

/-! ### C52: files -/

/-- **C52, accepted.**  A readable file is accepted exactly if it is well-formed. -/
theorem file_accepted (E : Env F) (s : Str) (hr : Readable s) : (∃ secs, parseFile E (.content s) = .ok secs) ↔ ∃ ss, IsFile E s ss := by
  constructor
  · rintro ⟨secs, h⟩
    obtain ⟨ss, h, _⟩ := (parseFile_iff E s hr).1 secs h
    exact ⟨ss, h⟩
  · rintro ⟨ss, h⟩
    obtain ⟨secs, h, _⟩ := (parseFile_iff E s hr).2 ss h
    exact ⟨secs, h⟩

/-- **C52, refused.**  Any other file is refused: nothing of it has an effect, and no assertion fails. -/
theorem file_refused (E : Env F) (s : Str) (hr : Readable s) : parseFile E (.content s) = .fail ↔ ¬ ∃ ss, IsFile E s ss := by
  rw [← file_accepted E s hr]
  cases h : parseFile E (.content s) with
  | ok secs => simp
  | fail => simp
  | crash => exact absurd h (parseFile_no_crash E _)

/-- **C52, robust.**  No file at all makes the parser fail an assertion, readable or not. -/
theorem file_robust (E : Env F) (f : File) : parseFile E f ≠ .crash := parseFile_no_crash E f

/-- An environment for the examples: `*` as the only pattern, and integers for doubles. -/
def someEnv : Env Nat where
  names := someNames
  conv := glibcConv
  round d := if d.scale = 0 ∧ d.neg = false then some d.mant else none
  glob p s := p = s ∨ p = ['*']
  hex v := v.toNat % 4294967296
  hex_exact := by intro v h; simp; omega

theorem line_short {s : Str} {ls : List Str} (h : LinesOf s ls) : ∀ l ∈ ls, l.length ≤ s.length := by
  induction h with
  | nil => simp
  | last l hl hn => simp
  | cons l rest ls hn hr ih =>
    intro x hx
    rw [List.length_append, List.length_cons]
    rcases List.mem_cons.mp hx with rfl | hx
    · omega
    · have := ih x hx
      omega

theorem readable_short (s : Str) (h0 : '\x00' ∉ s) (hl : s.length ≤ 510) : Readable s :=
  ⟨h0, fun _ h l hm => Nat.le_trans (line_short h l hm) hl⟩

/-- A file with two sections. -/
def sample : Str := ("# Some mice\n[Mouse]\nMatchVendor=0x046D\nMatchName=*\nModelTrackball=1 # really\n\n[Pad]\nMatchUdevType=touchpad\n" ++
  "AttrSizeHint=50x40\nAttrPressureRange=10:8\n").toList

example : Readable sample := readable_short _ (by decide +kernel) (by decide +kernel)
example : ∃ ss, IsFile someEnv sample ss := Classical.byContradiction fun h =>
  absurd ((file_refused someEnv sample (readable_short _ (by decide +kernel) (by decide +kernel))).mpr h) (by decide +kernel)
/-- A value before the conditions; a key twice; a section without values; a lower case digit; no section. -/
example : ∀ s ∈ ["[a]\nModelTrackball=1\nMatchName=*\n", "[a]\nMatchName=*\nMatchName=x\nModelTrackball=1\n", "[a]\nMatchName=*\n",
      "[a]\nMatchVendor=0x46d\nModelTrackball=1\n", "# nothing\n"], ¬ ∃ ss, IsFile someEnv s.toList ss := by
  have h : ∀ s ∈ ["[a]\nModelTrackball=1\nMatchName=*\n", "[a]\nMatchName=*\nMatchName=x\nModelTrackball=1\n", "[a]\nMatchName=*\n",
      "[a]\nMatchVendor=0x46d\nModelTrackball=1\n", "# nothing\n"], '\x00' ∉ s.toList ∧ s.toList.length ≤ 510 ∧ parseFile someEnv (.content s.toList) = .fail := by decide +kernel
  intro s hs
  obtain ⟨h1, h2, h3⟩ := h s hs
  exact (file_refused someEnv s.toList (readable_short _ h1 h2)).mp h3

/-- **C52, one meaning.**  Two readings of a file have the same values in the same order, under the same conditions. -/
theorem file_meaning_unique (E : Env F) (s : Str) (hr : Readable s) (ss ss' : List (Sect F)) (h : IsFile E s ss) (h' : IsFile E s ss') :
    Each (fun a b => a.props = b.props ∧ ∀ dmi dt dev, a.Applies E dmi dt dev ↔ b.Applies E dmi dt dev) ss ss' := by
  obtain ⟨secs, e1, h1⟩ := (parseFile_iff E s hr).2 ss h
  obtain ⟨secs', e2, h2⟩ := (parseFile_iff E s hr).2 ss' h'
  rw [e1] at e2
  simp only [Res.ok.injEq] at e2
  subst e2
  have w1 : ∀ x ∈ ss, WF E x := part_wf (f := .content s) h
  have w2 : ∀ x ∈ ss', WF E x := part_wf (f := .content s) h'
  clear h h' e1
  induction secs generalizing ss ss' with
  | nil =>
    cases ss with
    | cons => cases h1
    | nil => cases ss' with
      | nil => trivial
      | cons => cases h2
  | cons sec secs ih =>
    cases ss with
    | nil => cases h1
    | cons x ss => cases ss' with
      | nil => cases h2
      | cons y ss' =>
        refine ⟨⟨h1.1.2.symm.trans h2.1.2, fun dmi dt dev => ?_⟩, ih ss ss' h1.2 h2.2 (fun z hz => w1 z (by simp [hz])) (fun z hz => w2 z (by simp [hz]))⟩
        rw [← applies_iff E dmi dt dev sec x h1.1 (w1 x (by simp)).nodup, ← applies_iff E dmi dt dev sec y h2.1 (w2 y (by simp)).nodup]

/-- The values of a parsed file. -/
def values (r : Res (List (Section F))) : Option (List (List (Property F))) :=
  match r with
  | .ok secs => some (secs.map Section.properties)
  | _ => none

example : values (parseFile someEnv (.content sample)) =
    some [[⟨.modelTrackball, .bool true⟩], [⟨.attrSizeHint, .dimension 50 40⟩, ⟨.attrPressureRange, .range 8 10⟩]] := by decide +kernel

/-- **C52, long lines.**  A file is read in pieces of 511 bytes: what a comment says after the first 511 has an effect. -/
theorem long_comment_has_effect : ∃ text comment : Str, '\n' ∉ comment ∧
    values (parseFile someEnv (.content text)) = some [[⟨.modelTrackball, .bool true⟩]] ∧
    values (parseFile someEnv (.content (text ++ '#' :: comment ++ ['\n']))) = some [[⟨.modelTrackball, .bool true⟩, ⟨.modelTrackball, .bool false⟩]] :=
  ⟨"[a]\nMatchName=*\nModelTrackball=1\n".toList, List.replicate 510 'x' ++ "ModelTrackball=0".toList, by decide +kernel, by decide +kernel, by decide +kernel⟩

/-- **C52, numbers.**  The number of a vendor or product is checked only after it was cut to 32 bits. -/
theorem hex_id_is_cut : HexId "0x10000046D".toList 0x46D := (parseHex_iff _ _).mp (by decide +kernel)

/-! ### C53: devices -/

/-- **C53, data.**  The data is accepted exactly if there is an identity of the machine and a data file, and all files are well-formed; otherwise no quirk has an
effect.  No assertion fails. -/
theorem data_accepted (E : Env F) (dmi dt : Option Str) (dir files : List (Str × File)) (override : Option File) (hd : Directory dir)
    (ho : ∀ f, override = some f → FileReadable f) (hs : Scandir dir files) :
    ((∃ ctx, Context.init E dmi dt files override = .ok ctx) ↔ (dmi.isSome ∨ dt.isSome) ∧ ∃ ss, IsData E dir override ss) ∧
    Context.init E dmi dt files override ≠ .crash := by
  refine ⟨⟨?_, ?_⟩, init_no_crash E dmi dt files override⟩
  · rintro ⟨ctx, h⟩
    obtain ⟨h1, _, _, ss, h2, _⟩ := (init_iff E dmi dt dir files override hd ho hs).1 ctx h
    exact ⟨h1, ss, h2⟩
  · rintro ⟨h1, ss, h2⟩
    obtain ⟨secs, h, _⟩ := (init_iff E dmi dt dir files override hd ho hs).2 ss h1 h2
    exact ⟨_, h⟩

/-- **C53, values.**  The value of a quirk for a device is the last one of all sections that apply to it, in the order of the files and then the override file;
there is none if no such section has it. -/
theorem device_gets_last_value (E : Env F) (dmi dt : Option Str) (dir files : List (Str × File)) (override : Option File) (hd : Directory dir)
    (ho : ∀ f, override = some f → FileReadable f) (hs : Scandir dir files) (ctx : Context F) (hc : Context.init E dmi dt files override = .ok ctx)
    (ss : List (Sect F)) (hss : IsData E dir override ss) (dev : Udev) (key : String) (q : Quirk) (kind : Kind) (hk : (key, q, kind) ∈ keys) :
    (∀ v, get kind.type (Context.fetch E (some ctx) dev) q = .ok v ↔ LastValue E dmi dt dev ss q v) ∧
    (get kind.type (Context.fetch E (some ctx) dev) q = .fail ↔ ∀ s ∈ ss, s.Applies E dmi dt dev → ∀ p ∈ s.props, p.id ≠ q) := by
  obtain ⟨hm, _⟩ := (init_iff E dmi dt dir files override hd ho hs).1 ctx hc
  obtain ⟨secs, h1, h2⟩ := (init_iff E dmi dt dir files override hd ho hs).2 ss hm hss
  rw [hc] at h1
  simp only [Res.ok.injEq] at h1
  subst h1
  have := get_value E ⟨dmi, dt, secs⟩ ss h2 (data_wf hss) dev key q kind hk
  exact ⟨this.1, this.2.1⟩

/-- **C53, types.**  Every quirk libinput asks for is asked for with the type of its values: no assertion fails, whatever the data and the device. -/
theorem quirks_have_their_types (E : Env F) (dmi dt : Option Str) (dir files : List (Str × File)) (override : Option File) (hd : Directory dir)
    (ho : ∀ f, override = some f → FileReadable f) (hs : Scandir dir files) (ctx : Context F) (hc : Context.init E dmi dt files override = .ok ctx)
    (dev : Udev) (q : Quirk) (type : PropType) (hq : (q, type) ∈ callSites) :
    get type (Context.fetch E (some ctx) dev) q ≠ .crash ∧ get type (Context.fetch E none dev) q = .fail := by
  have h : ∀ x ∈ callSites, ∃ y ∈ keys, y.2.1 = x.1 ∧ y.2.2.type = x.2 := by decide +kernel
  obtain ⟨⟨key, q', kind⟩, hk, h1, h2⟩ := h _ hq
  simp only at h1 h2
  subst h1 h2
  obtain ⟨_, hdm, hdt, ss, hss, he⟩ := (init_iff E dmi dt dir files override hd ho hs).1 ctx hc
  exact ⟨(get_value E ctx ss he (data_wf hss) dev key q' kind hk).2.2, rfl⟩

/-- **C53, order.**  There is only one order of the data files: the order of versions of their names, whatever the order in the directory. -/
theorem file_order_unique (dir files files' : List (Str × File)) (hd : Directory dir) (h : Scandir dir files) (h' : Scandir dir files') : files = files' :=
  scandir_unique dir files files' hd h.perm h.sorted h'.perm h'.sorted

/-! A directory, whose files are in the order 9, 10, an override file and a device. -/

def fileA : Str := "[a]\nMatchUdevType=mouse\nModelTrackball=0\nAttrKeyboardIntegration=internal\n".toList
def fileB : Str := "[b]\nMatchVendor=0x046D\nMatchBus=usb\nModelTrackball=1\n[c]\nMatchName=none\nAttrThumbSizeThreshold=7\n".toList
def fileO : Str := "[o]\nMatchDMIModalias=dmi:x\nAttrKeyboardIntegration=external\n".toList
def someDir : List (Str × File) := [("10-b.quirks".toList, .content fileB), ("README.md".toList, .unreadable), ("9-a.quirks".toList, .content fileA)]
def sorted : List (Str × File) := [("9-a.quirks".toList, .content fileA), ("10-b.quirks".toList, .content fileB)]
def someMouse : Udev :=
  [fun p => if p = "ID_INPUT_MOUSE".toList then some ['1'] else none,
   fun p => if p = "PRODUCT".toList then some "3/46d/c52b/111".toList else if p = "NAME".toList then some "\"A mouse\"".toList else none]

theorem someDir_ok : Directory someDir where
  distinct := by decide +kernel
  bytes := by decide +kernel
  readable := by
    intro f hf
    simp only [someDir, List.mem_cons, List.not_mem_nil, or_false] at hf
    rcases hf with rfl | rfl | rfl
    · exact readable_short _ (by decide +kernel) (by decide +kernel)
    · trivial
    · exact readable_short _ (by decide +kernel) (by decide +kernel)

theorem sorted_ok : Scandir someDir sorted where
  perm := by
    have : (someDir.filter fun f => isDataFile f.1) = sorted.reverse := by rfl
    rw [this]
    exact (List.reverse_perm sorted).symm
  sorted := by
    unfold Quirks.sorted
    simp only [List.pairwise_cons, List.mem_cons, List.not_mem_nil, or_false, forall_eq, false_implies, implies_true, List.Pairwise.nil, and_true]
    decide +kernel

theorem fileO_ok : ∀ f, some (File.content fileO) = some f → FileReadable f := by
  rintro f h
  simp only [Option.some.injEq] at h
  subst h
  exact readable_short _ (by decide +kernel) (by decide +kernel)

/-- The data of the example. -/
def someContext : Context Nat :=
  match Context.init someEnv (some "dmi:x".toList) none sorted (some (.content fileO)) with
  | .ok c => c
  | _ => ⟨none, none, []⟩

theorem someContext_ok : Context.init someEnv (some "dmi:x".toList) none sorted (some (.content fileO)) = .ok someContext := by
  have h : Context.init someEnv (some "dmi:x".toList) none sorted (some (.content fileO)) ≠ .fail := by decide +kernel
  have h' := init_no_crash someEnv (some "dmi:x".toList) none sorted (some (.content fileO))
  unfold someContext
  cases e : Context.init someEnv (some "dmi:x".toList) none sorted (some (.content fileO)) with
  | ok c => rfl
  | fail => exact absurd e h
  | crash => exact absurd e h'

example : ∃ ss, IsData someEnv someDir (some (.content fileO)) ss :=
  ((data_accepted someEnv _ none someDir sorted _ someDir_ok fileO_ok sorted_ok).1.mp ⟨_, someContext_ok⟩).2
example : get .bool (Context.fetch someEnv (some someContext) someMouse) .modelTrackball = .ok (.bool true) ∧
    get .string (Context.fetch someEnv (some someContext) someMouse) .attrKeyboardIntegration = .ok (.string "external".toList) ∧
    get .uint (Context.fetch someEnv (some someContext) someMouse) .attrThumbSizeThreshold = .fail := by decide +kernel
example : ∀ ss, IsData someEnv someDir (some (.content fileO)) ss → LastValue someEnv (some "dmi:x".toList) none someMouse ss .modelTrackball (.bool true) := by
  intro ss h
  exact ((device_gets_last_value someEnv _ none someDir sorted _ someDir_ok fileO_ok sorted_ok _ someContext_ok ss h someMouse "ModelTrackball" .modelTrackball .flag
    (by decide +kernel)).1 _).mp (by decide +kernel)
example : get .bool (Context.fetch someEnv (some someContext) someMouse) .modelTrackball ≠ .crash :=
  (quirks_have_their_types someEnv _ none someDir sorted _ someDir_ok fileO_ok sorted_ok _ someContext_ok someMouse _ _ (by decide +kernel)).1
example : (Match.new someEnv someMouse none none).name = some "A mouse".toList ∧ (Match.new someEnv someMouse none none).bus = some .usb := by decide +kernel

/-- **C53, names.**  A name of nothing but quotes is a quote. -/
theorem empty_name_is_a_quote : Unquoted "\"\"".toList "\"".toList := (unquote_iff _ _).mpr (by decide)

end Libinput.Quirks
