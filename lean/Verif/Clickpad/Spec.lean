import Verif.Config.Model
/-!
The words the properties of click methods are stated with.  0x110 is the left button, 0x111 the right one, 0x112 the middle one; click method 0 is none, 1 button areas
and 2 clickfinger.
-/
namespace Libinput.Clickpad.Spec
open Config

/-- It is the whole pad that is pressed: there is no right button, and the kernel says so or there is a left button. Apple's touchpads with one button below the pad
are known by their model. -/
def PadIsPressed (buttonpad : Bool) (hw : Hw) : Prop :=
  hw.key 0x111 = false ∧ (buttonpad = true ∨ (hw.key 0x110 = true ∧ hw.onebutton = false))

/-- The models for which clickfinger is the default, whatever the buttons are. -/
def ClickfingerModel (hw : Hw) : Prop := hw.clickfingerQuirk = true ∨ hw.onebutton = true

end Libinput.Clickpad.Spec
