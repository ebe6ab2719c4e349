import Verif.Config.Model
/-!
From the buttons and properties the kernel reports for a touchpad to the click methods it has: what `tp_guess_clickpad` makes of them, and the configuration model
of `Config` on top.
-/
namespace Libinput.Clickpad
open Config

/-- `tp_guess_clickpad`: whether the touchpad is taken for a clickpad, and whether a bug of the kernel is logged.  `buttonpad` is `INPUT_PROP_BUTTONPAD`; the codes and
properties are those that are left after quirks.
Models: /repo/src/evdev-mt-touchpad-buttons.c:938-968. -/
def guess (buttonpad hasLeft hasRight onebutton : Bool) : Bool × Bool :=
  let isClickpad := buttonpad
  if isClickpad then
    if hasRight then (false, true) else (isClickpad, false)
  else if hasLeft && !hasRight && !onebutton then (true, true)
  else (isClickpad, false)

/-- The touchpad of `tp_init_buttons`: as `Config` has it, except that being a clickpad is what was guessed.
Models: /repo/src/evdev-mt-touchpad-buttons.c:970-981. -/
def hardware (buttonpad : Bool) (hw : Hw) : Hw := { hw with clickpad := (guess buttonpad (hw.key 0x110) (hw.key 0x111) hw.onebutton).1 }

/-- The device is added, then anything is called: see `Config.run`.
Models: /repo/src/evdev-mt-touchpad-buttons.c:970-1019, /repo/src/libinput.c:4036-4085. -/
def run (buttonpad : Bool) (hw : Hw) (ops : List Op) : Option Dev := Config.run (hardware buttonpad hw) ops

end Libinput.Clickpad
