import Verif.EventQueue.Props
import Verif.Buttons.Props
import Verif.Debounce.Props
import Verif.MiddleButton.Props
import Verif.Scroll.Props
import Verif.ButtonScroll.Props
import Verif.Strings.Props
import Verif.Parsers.Props
import Verif.Util.Ratelimit
import Verif.Util.Time
import Verif.Util.Versionsort
import Verif.Util.Lists
import Verif.Timer.Props
import Verif.Tap.Props
import Verif.Mouse.Props
import Verif.Switch.Props
import Verif.SendEvents.Props
import Verif.TouchSlots.Props
import Verif.Hysteresis.Props
import Verif.Refs.Props
import Verif.SoftButtons.Choice
import Verif.Touch.Compose
import Verif.Config.Props
import Verif.Motion.Props
import Verif.Motion.EdgeProps
import Verif.Motion.TypingProps
import Verif.Motion.PalmProps
import Verif.Tablet.ArbProps
import Verif.Tablet.ContactProps
import Verif.Tablet.History
import Verif.Pad.Props
import Verif.Accel.Memory
import Verif.Coords.Props
import Verif.Quirks.Props
import Verif.Quirks.Life
import Verif.Backend.Props
import Verif.Backend.PathProps
import Verif.Totem.Props
import Verif.Events.Props
import Verif.Devices.Props
import Verif.Dispatch.Props
import Verif.Follow.Model
import Verif.Follow.Spec
import Verif.Follow.Touches
import Verif.Follow.Frames
import Verif.Follow.Inv
import Verif.Follow.Walk
import Verif.Follow.More
import Verif.Follow.Props
import Verif.Follow.Smooth
import Verif.Follow.Speed
import Verif.Tools.Props
import Verif.Pairing.Model
import Verif.Pairing.Spec
import Verif.Pairing.Safe
import Verif.Pairing.Keep
import Verif.Pairing.Steps
import Verif.Pairing.Inv
import Verif.Pairing.Gone
import Verif.Pairing.Right
import Verif.Pairing.Reasons
import Verif.Pairing.Effects
import Verif.Pairing.Off
import Verif.Pairing.Opens
import Verif.Pairing.Others
import Verif.Pairing.Props
import Verif.Hand.Model
import Verif.Hand.Spec
import Verif.Hand.Lemmas
import Verif.Hand.Life
import Verif.Hand.Place
import Verif.Hand.Props
import Verif.Zones.Model
import Verif.Zones.Spec
import Verif.Zones.Lemmas
import Verif.Zones.Props
import Verif.Ways.Model
import Verif.Ways.Spec
import Verif.Ways.Lemmas
import Verif.Ways.Props
import Verif.Pinch.Model
import Verif.Pinch.Spec
import Verif.Pinch.Props
import Verif.Together.Model
import Verif.Together.Spec
import Verif.Together.Constant
import Verif.Together.Props
import Verif.Axis.Model
import Verif.Axis.Spec
import Verif.Axis.Props
import Verif.Axis.Change
import Verif.Bits.Model
import Verif.Bits.Spec
import Verif.Bits.Props
import Verif.Log.Model
import Verif.Log.Spec
import Verif.Log.Props
import Verif.Leds.Model
import Verif.Leds.Spec
import Verif.Leds.Props
import Verif.TwoFinger.Model
import Verif.TwoFinger.Spec
import Verif.TwoFinger.Props
import Verif.Clickpad.Model
import Verif.Clickpad.Spec
import Verif.Clickpad.Props
import Verif.PadButtons.Model
import Verif.PadButtons.Spec
import Verif.PadButtons.Props
