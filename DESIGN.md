# Formal model of libinput: design

## Layout

* `lean/Verif/<Area>/Model.lean`: the executable model, one Lean definition per C function where the
  function is modelled whole, each with a comment citing file and lines in `/repo` and naming what is left
  out.
* `lean/Verif/<Area>/Spec.lean`: the small, model-independent vocabulary the theorems are stated in
  (for example "alternating press/release sequence", "FIFO queue", "the value most recently set").
* `lean/Verif/<Area>/Lemmas.lean` and others: helper lemmas and invariants.
* `lean/Verif/<Area>/Props.lean` (and the files it is split into): the property theorems listed in
  `MANIFEST.json`, each with a non-vacuity `example`.
* `seeded/LOG.jsonl`: the wrong programs the theorems were tried on.

## Conventions

* A C function that mutates through a pointer is a Lean function that returns the new state.
* `assert()` failures, `abort()` and undefined behaviour are distinct outcomes (`none`, `.error`, or a
  `crashed` flag), never assumed away.
* Timers: a timer in a component model is an `Option` expiry. The environment may deliver the timeout at
  any time not before the expiry; the timer subsystem itself is modelled separately (C14).
* Kernel events are modelled as operations given to `step`; every operation sequence is considered unless
  a theorem names a hypothesis on it.
* Times are `Nat` microseconds unless wrap-around is the subject (C27).
* `double`/`float` arithmetic is modelled over exact rationals or left abstract; rounding is not modelled.
* Log messages are not modelled, except where the rate limiter is the subject (C26) and for the "libinput
  error" messages that stand for a broken invariant.
* Where the code does not do what a user would expect, the property names the exception and a theorem with
  a concrete history shows it; the list is below.

## Plan per property

| id | modelled | proof method |
|----|----------|--------------|
| C01 | ring buffer of `libinput_post_event`/`libinput_get_event` with an allocation-failure oracle | refinement to a list queue |
| C02 | seat button/key counters | induction, refinement to a multiset count |
| C03 | whole button pipeline of the mouse path: debounce, left-handed, middle button, button scroll, use count | invariant over histories |
| C04, C05 | debounce state machine with both timers | invariant by induction; liveness as "fire pending timers" |
| C06, C07, C08 | middle-button state machine | invariant by induction, exact input/output statements |
| C09 | button-scroll and lock state machines | invariant by induction |
| C10 | suspend path on the pipeline model | direct proof plus negated witness where the code aborts |
| C11 | left-handed setting on the pipeline | invariant; witness for the debounce race |
| C12, C13 | seat slot bitmap, touch slots, frame flush | invariant across devices; witness for the missing frame |
| C14 | timer list, timerfd arming, handler loop | invariant and refinement to a set of deadlines |
| C15, C16, C17 | tap state machine | invariant by induction over events |
| C18 | key processing | invariant by induction |
| C19 | lid and tablet-mode switch | invariant by induction |
| C20, C21, C22, C23, C24 | string parsers on character lists | direct proofs; witnesses for the range errors |
| C25 | `strverscmp` | order-theoretic proof |
| C26 | rate limiter | induction over calls |
| C27 | time conversions on 64-bit words | arithmetic |
| C28 | heap of doubly linked nodes | separation-style refinement to sequences |
| C29 | creation of the configuration of every kind of device, every setter, getter, default and query | invariant (hooks follow the hardware) by induction over calls; refinement to "last value set" |
| C30 | reference counts of seats, devices, groups, tools, mode groups, events, on both backends | invariant "count = number of holders" by induction |
| C31 | clickpad software buttons, click finger, top buttons, trackpoint | invariant by induction, independent choice function |
| C32 | hysteresis over integers | algebra |
| C33 | scroll posting | invariant by induction |
| C34 | send-events mode, external mice, lid and tablet-mode switches | invariant by induction |
| C35 | string helpers on byte lists | direct proofs |
| C36 | list-valued udev properties | direct proofs |
| C37 | whole mouse histories in which the caller avoids the races | composition of the pipeline theorems |
| C38 | wheel events, high resolution and inhibition | invariant by induction |
| C39 | touches of a touchpad: slots, fake fingers, pressure, size, tool events | invariant by induction, history functions of the kernel events |
| C40 | gestures, two-finger scrolling, pointer motion, palms, thumbs, edge scrolling, disabling while typing: everything between the touches and the events | acceptor of event sequences kept in step by an invariant, induction over operations |
| C41 | edge scrolling: one state machine per touch inside the same model | acceptor per touch; invariant of each touch kept by every operation of a careful history |
| C42 | disabling while typing and by the trackpoint: the keyboard and trackpoint parts of the same model | refinement of those parts to two small machines; invariants over any later history; touches followed with an invariant of their palm state |
| C43 | palm detection of the same model, by pressure, size, pen, device and edge | what one frame makes of one touch, then an invariant of that touch over any later history |
| C44 | all of evdev-tablet.c except relative motion: kernel events, tools, contact, axes, history, events, arbitration, suspension, quirk timer | acceptor of event streams kept in step by an invariant; invariants over every history; ring buffer refined to a list |
| C45 | the tablet of C44 with its touch device: messages, state and timer | invariant tying what was said last to what the device does |
| C46 | the tablet of C44 with the values of its axes | invariant: the axes, the samples and the thresholds of the tools are within their ranges |
| C47 | the tablet of C44 with the thresholds of its tools, beside a small machine of what the kernel said last | invariant: the thresholds of every known tool; the tip after every round of a frame |
| C48 | all of evdev-tablet-pad.c and evdev-tablet-pad-leds.c: button maps, mode groups, LEDs, frames, positions, suspension | invariants over every history: told state, groups up to their modes, what the kernel said last; positions as real numbers |
| C49 | all of filter.c and filter-*.c: trackers, profiles, speed settings, the filters of mice, touchpads, trackpoints and tablets, over the real numbers | the trackers are refined to the history of movements; the factor as a monotone function with limits, by analysis of each profile |
| C50 | the same | an inductive specification of the velocity, shown to exist and to be unique; two histories that agree since a turn, pause or restart give the same velocity |
| C51 | `Coords`: matrices of reals, calibration, rotation, the relative and absolute part of `fallback_handle_state`, on top of `Accel` | invariant over histories: the device is as the movements since the last report and the last settings say; algebra of the matrices |
| C52 | `Quirks.Model`: all of quirks.c from the bytes of a file to its sections | a grammar of files; an invariant ties the sections so far to the lines so far; completeness by induction over the grammar |
| C53 | `Quirks.Model`: the data directory, matching, and the getters | sections refine conditions and values of the grammar; the last value by induction over the sections; uniqueness of sorting |
| C54 | `Quirks.Life`: reference counts of context, properties and quirks handed out | invariant: each count is one plus the number of uses; exact characterization of proper use |
| C55 | `Backend.Udev`: udev's nodes and its messages, the enumeration as steps that interleave with udev, the monitor handler, suspend, resume, moving | invariant by induction over histories: per path, the devices, the message queue, the rest of the enumeration and udev's node fit together; explicit crash (`none`) |
| C56 | `Backend.Path`: remembered paths, devices, suspend, resume, moving | invariant: each remembered path stands for one `udev_device`; in careful histories devices and remembered paths correspond |
| C57 | `Totem.Model`: all of evdev-totem.c, with what libevdev knows of the slots as part of the state | invariant between and within reports; refinement to the difference of two kernel states; phases of tools by induction over histories; explicit crash (`none`) |
| C58 | `Events.Model`: all accessors of events and all functions that post them, with the structures they share; reading another structure is `none` | case analysis over all accessors and posts against a table of what is told |
| C59 | `Devices.Model`: `evdev_device_create` and everything it calls, on a description of the device as libevdev holds it, with quirks and udev properties as inputs | the description is followed through every change; equivalence with a specification that never mentions the order of the steps |
| C60 | `Dispatch.Model`: `libinput_dispatch`, sources as heap objects with faults for bad uses, the reading of a device's events, suspending, resuming, creating and removing devices, the monitor and the end of a context; `Dispatch.Sync`: a kernel device whose buffer overflows and libevdev's sync | an invariant between heap, epoll instance, holders and log, preserved by every act; induction over rounds and histories |
| C61 | `Follow.Model`: the motion history of touches with its ring buffer, jumps, jitter, rotation, pinning, timestamps, speed | invariant of the ring buffer; refinement to positions: a touch that stays moves by the difference of two places; induction over histories |
| C62 | `Tools.Model`: the lists of tools, looking tools up, what a new tool can do, the API's answers, the axes read at proximity-in | invariant over histories of several tablets (lists agree with everything told); tables of axes and buttons against a separate specification; witnesses |
| C63 | `Pairing.Model`: the device list of a seat, the listeners between devices, adding, removing, suspending and resuming devices with every implementation's reaction, lid and tablet-mode switches, keys | invariant: what a device holds on to is there and belongs to it, it listens just to that, and whoever is on is held on to; induction over histories, over the devices told and over the listeners called |
| C64 | `Hand.Model`: the area `tablet_calculate_arbitration_rect` gives, its conversion to units of the screen, when the tablet sets and moves it, on top of the touch screen of `TouchSlots.Model` | invariant: the screen's area is the one for the last position of the pen; each slot has the seat slot the events say and the place the kernel said; induction over histories; the area by integer arithmetic |
| C65 | `Zones.Model`: the size of a touchpad and the boundaries the `tp_init_*` functions compute from it, put into the configurations of `SoftButtons.Model` and `Motion.Model` | conversion to units and back with its rounding, for rational sizes; case analysis |
| C66 | `Ways.Model`: the directions of a movement (`Accel.Model`) computed from the positions of a finger, put into the decision about gestures and about palms of `Motion.Model` | octants differ by the angle between the ways modulo 8, with the rounding of the two octants that are marked; short ways by signs |
| C67 | `Pinch.Model`: distance, angle and centre of two fingers and what each report of a pinch tells of them | invariant: the fields hold the values of the last report; an angle told differs from the turn by full circles and both are less than one; induction over reports |
| C68 | `Together.Model`: the sum or mean of what the touches of `Follow.Model` move, scaled to the horizontal axis, as movement of the pointer, scrolling and swipes | sums over fingers and over reports are exchanged; each finger is followed exactly (C61) |
| C69 | `Axis.Model`: the fading vector, the durations and the active axes of `tp_gesture_apply_scroll_constraints` | cones of directions are closed under fading and adding; durations are at least the time that passed; induction over movements |
| C70 | `Bits.Model`: the bit arrays of `util-bits.h`, the loops over bytes and over the bits of a byte in `evdev-tablet-pad.c` and `evdev-tablet.c`, with bit vectors | each write changes one bit (for any word size); induction over presses and releases; the loop that shifts a byte finds its bits in order, by induction over the number of bits left |
| C71 | `Log.Model`: priority, handler, `log_msg_ratelimit` on top of `Util.Ratelimit`, the range of `evdev_device_check_abs_axis_range` | the settings are the last ones set, by induction; each limit goes its own way through the history, so C26 bounds it; arithmetic of truncation for the range |
| C72 | `Leds.Model`: what `evdev_device_led_update` writes; a small kernel in the specification | bits of the argument one by one, induction over the calls |
| C73 | `TwoFinger.Model`: `tp_gesture_handle_state_scroll` as a whole, from the models of C68 and C69 | the movement that decides about the axis is that of the middle in mm, the one that is told is a multiple of it; the invariants of C69 over the frames |
| C74 | `Clickpad.Model`: `tp_guess_clickpad`, feeding the model of the configuration interface | the decision by cases; induction over the calls for what the getter can never return |
| C75 | `PadButtons.Model`: the button bits of a touchpad, `tp_post_physical_buttons`, the left-handed change in the callback after a release, the counters of C01's model | the loop is unrolled bit by bit; invariant between bits, counters and the hand; equation with the specification by induction over the history |

## Trusted base

* Lean's kernel (version 4.33.0). No axioms are added, there is no `sorry`, no `native_decide` and no
  `bv_decide`; every theorem depends at most on `propext`, `Classical.choice` and `Quot.sound`. The table at
  the end gives the axioms of every theorem in `MANIFEST.json` as `#print axioms` reports them.
* The tie between model and C source is by reading: each definition cites the lines it models and says where
  it simplifies.
* Below the model: the kernel's input events, libevdev (its view of the state of the device is modelled as
  whatever the kernel said last), libudev and libwacom (their answers are arbitrary facts about the
  hardware), the C library, the compiler, and memory allocation, which succeeds except where the property is
  about its failure (C01).

## Where the code departs from the simple statement

Each of these is named as an exception in the property and shown by a theorem (given in brackets), or was
only noted while reading (marked *noted*).

Buttons
* A 17th button held at once is lost by the debouncer (C04: in `Debounce`).
* A left-handed change while a debounced release is pending aborts (`hasty_left_handed_aborts`).
* Pending left-handed change with left and right released in one frame aborts; a button held over a suspend
  swallows the next press and its release aborts; left-handed with a held button aborts at suspend; a
  physical and an emulated middle button at suspend leave the middle button pressed; odd buttons and a
  change of middle emulation abort (witnesses in `Mouse` and `MiddleButton`).
* The same on touchpads with physical buttons: left and right released in one report while a left-handed change waits abort, because the callback after the first
  release looks at the new state of both (`PadButtons.released_together_aborts`).
* Enabling middle emulation while a button outside its mask is held swallows events.
* On-button scrolling: a motion below the threshold after the timeout loses the click.
* Touchpad scroll threshold 0: a stop event on an axis that never scrolled.
* *noted*: `any_button_down` looks at codes 0x110 to 0x11f only; Lenovo ScrollPoint never stops continuous
  scrolling; `wheel.is_inhibited` survives a suspend; changing the scroll method while locked resets the lock
  but leaves scrolling on.

Touch
* `fallback_flush_mt_events` overwrites `sent`: a touch frame can be missing; an end and a begin in one frame
  combined with a palm leak a seat slot; a slot change dropped during arbitration leaves a touch stuck
  (witnesses in `TouchSlots`).
* Hysteresis overflows for jumps of 46341 units or more.
* ALPS serial touchpads can abort, a ghost finger and a stuck finger are possible
  (`alps_aborts`, `ghost_finger`, `synaptics_stuck`).
* *noted*: touch motion carries the point from before the filter.

Touchpad buttons and tapping
* A trackpoint that comes or goes while a touchpad is suspended and clicked; a suspended touchpad with top
  buttons still clicks; a lost middle button (witnesses in `SoftButtons`).
* A click in the idle tap state swallows the next tap (witness in `Tap`).
* *noted*: `tp_release_all_taps` does not cancel the timer.

Touchpad motion and scrolling
* `evdev_device_suspend` marks the device as suspended before the touchpad is cleared, so the stop of edge scrolling
  is never sent (`no_stop_when_suspended`); `tp_suspend` alone clears first.
* A palm by pressure, size or tool in the frame that ends a touch skips the stop; the next touch in that slot changes
  the axis without one (`no_stop_when_palm`).
* A click in the frame that ends a scrolling touch leaves the ended touch in the area state: the next touch in that slot
  logs a bug and moves the pointer instead of scrolling (`no_scroll_after_click`).
* Changing the scroll method with a finger down leaves stale edges (`scroll_and_motion_after_method_change`).
* A keyboard removed or suspended while a key is held stops being heard before its keys are released: the key stays in
  the mask, so the touchpad stays disabled after the next typing (`key_held_by_a_removed_keyboard`), or with a modifier
  is never disabled (`modifier_held_by_a_removed_keyboard`).
* The trackpoint timer resumes tapping while the user types (`trackpoint_resumes_tapping_while_typing`).
* *noted*: the distance of a pinch may be 0 when it starts, and a gesture may keep a lifted finger as one of its two when
  fingers are exchanged in one frame.

Tablets
* Two tools that change places within one kernel frame: eraser to pen gives a second proximity-in without a
  proximity-out (`eraser_never_leaves`), pen to eraser loses the eraser (`eraser_lost`).
* `tablet_suspend` keeps `tool_state`: a pen taken away meanwhile is lost the next time it comes (`lost_after_resume`).
* A puck that comes and goes out of range leaves `TABLET_TOOL_OUT_OF_RANGE` set, and every pen is dead
  (`puck_kills_pen`); two tool keys while a puck is in range make `tablet_flush` loop forever (`puck_hangs`).
* `tp_interface_toggle_touch` returns early, without cancelling its timer, when a pen is back within 90 ms: a touchpad
  listens while a tilted pen is near (`touchpad_wakes_up`). `tablet_device_removed` and `tablet_device_added` keep the old
  arbitration state (`next_touch_not_told`), and a second touch device strands the first (`first_touch_forgotten`).
* Without pressure, `BTN_TOUCH` after or with the proximity-out: `tip_up_out_of_nowhere`, `leaves_with_tip_down`.
* A button pressed out of proximity: `release_without_press`.  A late serial number: `tool_changes_identity`.
* A quirk's pressure range that ends above the device's maximum makes pressures larger than 1 (`quirk_breaks_pressure`); so does a
  pen whose thresholds were computed on another tablet, and its tip never goes down (`shared_pen_breaks_pressure`).
* A pressure equal to the last one before a suspension is dropped as noise, the tip stays up (`same_pressure_is_missed`).

Configuration
* The speed of tablets and totems always reads 0 (`tablet_speed_is_zero`); the getter of the scroll button
  lock lags (`lock_getter_lags`); the default click method may be refused (`default_not_supported`, and `Clickpad.default_refused` for single-touch Apple pads).
* *noted*: `tp_requires_rotation` passes NULL to libwacom in the loop over paired devices;
  `evdev_device_has_button` returns -1 for devices without a pointer, which counts as true.

Tablet pads
* `ABS_THROTTLE` without `ABS_WHEEL`, `ABS_RY` without `ABS_RX`, or a ring or strip libwacom lists no LEDs for,
  fails an assertion when touched (`second_ring_alone_aborts`, `unlisted_strip_aborts`).
* Buttons without a kernel code are left out when buttons are numbered, but not when groups are made
  (`codeless_buttons_shift_groups`).
* `pad_sendevents_set_mode` releases what is down but goes on listening (`disabled_pad_sends_events`).
* Without `ABS_MISC` a finger that leaves a ring is told as a position; an `ABS_MISC` without an axis is kept for the next
  frame with one (`finger_leaves_unnoticed`, `finger_comes_unnoticed`).
* LEDs of unknown kind leave gaps in the numbers of groups (`unknown_leds_hide_groups`).

Send events and switches
* Disabled external mice keep the touchpad off; a second switch is not used; removing an unrelated device
  clears the pairing; enabling overrides tablet mode; a keyboard can be lost together with its switch
  (witnesses in `SendEvents`).
* A reliable lid found closed is not reopened by typing; tablet-mode values other than 0 and 1 repeat
  (witnesses in `Switch`).

Pointer acceleration
* The mouse filter normalizes to 1000 dpi twice, once in `normalize_for_dpi` and again in its profile, so that mice of different resolution moved
  alike are accelerated differently (`Accel.resolution_matters`), against the comment in filter.h.
* The velocity of the last movement survives a restart and enters the first movement after it
  (`Accel.first_movement_after_restart_remembers`).
* A pen in relative mode does not move the pointer at the lowest speed setting (`Accel.slowest_pen_stands_still`); the X230 filter drops a movement
  when the clock goes backwards (`Accel.x230_loses_movement`).
* *noted*: `filter_dispatch_constant` on a tablet filter calls a null pointer; the speed a tablet filter was set to is not stored, `filter_get_speed` remains 0.
* *noted*: the documentation says that the velocity is measured over many events; without the quirk for velocity averaging it is measured over one.

Coordinates
* The calibration maps the axis to [0, 1] with `max - min + 1` units, so that -x + 1 maps the minimum to one after the maximum: turned upside down by the
  documented matrix, the edge of the device is outside of the screen (`Coords.upside_down_leaves_screen`).
* *noted*: `max - min + 1` is computed in `int` and overflows for axes that use all of it; `evdev_device_units_to_mm` divides integers and gives whole mm only;
  `evdev_transform_relative` has no callers.

Quirks
* Files are read with `fgets` into 512 bytes: the rest of a longer line, also of a comment, is parsed as another line
  (`Quirks.long_comment_has_effect`).
* `parse_hex` cuts to 32 bits before it compares with 0xFFFF (`Quirks.hex_id_is_cut`); a `NAME` of two quotes becomes one quote
  (`Quirks.empty_name_is_a_quote`).
* *noted*: stripping the blanks before a comment that starts a line compares a pointer to before the line; `quirks_has_quirk(NULL)` would read a null pointer,
  but has no callers; `evdev_need_velocity_averaging` and others may ask for the quirks of a device again and again, each time matching all sections.

Backends
* The handler of messages of udev looks for duplicates only on the logical seat the message's device would be on: a device the client moved while the
  message about it waited is added a second time (`Backend.Props.moved_too_early_is_doubled`), as is a device replaced during the enumeration by one with another `WL_SEAT`
  (`doubled_for_a_while`).
* `libinput_device_set_seat_logical_name` on a device kept from before a suspend creates a device in the suspended context, and resuming creates it again
  (`moved_while_suspended_is_doubled`); in a udev context it reports success although the device could not be opened again (`lost_while_moving`).
* When `udev_monitor_filter_add_match_subsystem_devtype` fails, `udev_input_enable` leaves the monitor behind: the next resume succeeds without doing anything, and suspending
  gives a null pointer to `libinput_remove_source` (`resume_after_filter_failure_does_nothing`, `suspend_after_filter_failure_crashes`).
* A path context resumed twice adds its devices twice (`Backend.PathSeat.Props.resumed_twice_is_doubled`), as it does for paths added while suspended
  (`added_while_suspended_is_doubled`), and `libinput_path_remove_device` on a device kept from before a suspend forgets the path but keeps the device (`removed_with_old_device`). The
  logical seat that was set is lost on resume (`seat_forgotten`).

Totem
* A totem that comes and goes within one report fails `assert(slot->tool)` (`Totem.brief_totem_crashes`), or is told to go without having come (`brief_totem_goes_only`).
* Suspending does not reset the state of the slots: after resuming a totem moves without having come near (`resumed_totem_never_comes`), the area of one lifted meanwhile stays
  ignored (`lifted_while_suspended_still_ignored`), and removing a suspended device lifts it again (`suspended_twice`). The current slot is stale after resuming (`stale_slot`).
* Suspending looks at the kernel's button, not at what was told (`released_in_the_air`, `pressed_in_the_air`), and tells tools that are away once more that they are gone.
* `totem_reject_device` wants the resolution of one size only; the other is then divided by zero (`size_not_a_number`).

Events
* `libinput_event_tablet_pad_get_ring_source` and `…_strip_source` return 1, not 0 as documented, for other events (`source_of_other_events`).

Devices
* A multitouch axis keeps a fuzz of the kernel's although the comment in `evdev_read_fuzz_prop` has it set to 0;
  it is then applied twice (`mt_fuzz_kept`).
* `AttrSizeHint` larger than the range of an axis gives a resolution of 0, which is divided by later
  (`size_hint_zero`); so does a touchpad without resolution whose range is less than 69 or 50 units.
* *noted*: `evdev_disable_accelerometer_axes` names `REL_X`, `REL_Y` and `REL_Z` but with `EV_ABS`: relative axes stay.
* *noted*: a resolution of 1 given by `AttrResolutionHint` counts as made up, so the device has no size.

Main loop
* `evdev_device_resume` that cannot add the descriptor deletes the mtdev converter but keeps the pointer; the next suspend deletes it again
  (`Dispatch.freed_twice`). It also keeps the descriptor open, so that the next resume returns 0 at once and the device is never read (`resumed_but_not_read`).
* `udev_input_disable` unrefs the udev monitor, which closes its socket, before `libinput_remove_source`: if a forked child has the socket too, `EPOLL_CTL_DEL` fails
  and the freed source stays registered (`monitor_after_free`).
* *noted*: a device that failed to be read keeps its descriptor, so that resuming alone does not help; the counter of `libinput_dispatch` is a `uint8_t`, so that after the 250th call
  the next time is taken in the 256th; the lag in the message is truncated to 32 bits of milliseconds.

Following the finger
* `tp_process_msc_timestamp` goes on waiting for a jump after the first interval and compares the time since the device woke up with twice the interval:
  regular timestamps v, 2v, 3v are taken for missing events at 3v (`Follow.regular_timestamps_taken_for_missing`).
* The left-handed rotation is applied between touches, but the kernel does not repeat a coordinate that did not change: the next touch starts with one
  that is not rotated and the pointer jumps when it changes (`turned_touchpad_jumps`).
* `tp_detect_wobbling` takes left, still, left for left, right, left if another touch has events in the frame between (`standing_still_taken_for_jitter`).
* *noted*: the comment in `tp_process_state` counts fast events up to 10, the code up to 15.

Fingers next to a pen
* `tablet_calculate_arbitration_rect` sets `r.w -= r.x` where `r.x` is negative, so that the area grows by what is cut off at the left, instead of shrinking; the same at
  the top (`Hand.edge_too_wide`).
* When a tilted pen leaves, fingers are heard of at once; the timer that delays them only matters after an upright pen (`lift_not_delayed`). After an upright pen the whole
  screen stays ignored until the pen leaves, also while it is tilted (`upright_sticks`).
* Screens without slots never look at the area when a touch comes down (`single_touch_not_ignored`).

Tablet tools
* A serial number that comes after the first frame of a tool is ignored for as long as the tablet exists, and all pens of that tablet become one (`Tools.late_serial_hidden`); the code says so.
* `MSC_SERIAL` minus one leaves the previous tool's serial number in place (`minus_one_inherits`).
* A tool with a serial number keeps what it could do on the tablet it was first used on (`first_tablet_decides`); with a tool that has an axis another tablet lacks,
  `libevdev_get_abs_info` returns `NULL` there and `tablet_update_*` reads through it (`foreign_tool_reads_nothing`).
* `tool_set_bits_from_libwacom` copies the rotation without the test for `ABS_Z` that `tool_set_bits` has to avoid exactly that (`art_pen_reads_nothing`); a tablet with only one tilt axis (`lone_tilt_reads_nothing`).
* A puck known to libwacom has rotation on tablets that report neither rotation nor tilt (`puck_turns_anyway`).
* `libinput_tablet_tool_has_button` reads one byte past its array for code 776, and shifts by a negative number for the last seven 32-bit codes (`asking_for_a_button`).

Devices that belong together
* Two keyboards that are tablet-mode switches too turn each other off, and after the client enables one an assertion of `libinput_device_add_event_listener` fails
  (`Pairing.two_switches_crash`); both found on, they stay off for good (`two_switches_off`).
* A keyboard that is added while tablet mode is on is suspended before the touchpad is told of it, is paired all the same, and is paired again when it is resumed: each key is
  heard twice (`typing_twice`).
* The record of a paired keyboard is not freed when the touchpad is removed (`records_lost`).
* A keyboard or trackpoint that a tablet-mode switch turned off stays off when the switch is removed; touchpads are turned on (`keyboard_left_off`).
* Setting the send-events mode turns a keyboard on although tablet mode is on (`keyboard_back_on`).
* A second lid, tablet-mode switch or trackpoint is not used when the first one goes (`second_stick_unused`); a touchpad that comes while the lid is closed is not
  turned off (`late_touchpad_works`); typing does not open a lid that was found closed (`found_closed_stays`).

Zones of a touchpad
* 69 mm are assumed for a touchpad that does not say its size, "1 under palm detection"; but the resolution is rounded down and the size computed from it can be 70 mm
  or more, so that there are strips for palms (`assumed_size_has_strips`).

Ways of fingers
* The directions of movements below 2 mm are known only up to a quadrant, and quadrants that touch count as the same direction: two fingers that move straight apart by
  less than 2 mm, but at least 1.5 mm, each, are taken to scroll if both drift down (or up) by one unit (`slow_pinch_scrolls`).

Scrolling along an axis
* The vector that fades is a sum, so up and down cancel out while small movements to the side add up: two fingers that scroll up by 2 mm and then down by 1.6 mm, at 75
  degrees or more, are taken to scroll to the side, and the movement down is lost (`turning_round_is_lost`).

Lifetimes
* A tool without serial number or a pad mode group kept past its device is used after it is freed (`Refs`).

Parsers and helpers
* `parse_mouse_wheel_click_angle` calls `abs(INT_MIN)`; `safe_atou` and `sscanf("%d")` truncate
  (witnesses in `Strings` and `Parsers`).
* Timers re-armed at or before the current time keep the handler loop from ending (`Timer`).
* *noted*: `libinput_tablet_pad_mode_group_has_*` shifts by 31 or more for large numbers.
* Messages that the priority keeps from being heard use up the rate limit all the same, so one that could be
  heard after the priority was lowered is not (`Log.unheard_messages_count`).
* With a burst of one the message that further messages will be discarded never comes
  (`Log.burst_of_one_never_says`); the warnings about values out of range have such a limit.
* *noted*: the comment at the warnings about values out of range says every 5 minutes, the code says 3000 seconds,
  which is 50 minutes.

## What is modelled and what is not

For every source file: the functions a definition of the model cites (whole or in part; the comment at the
definition says which), and the functions no definition cites, which are not modelled. Accessors that only
return a field and constructors that only allocate count as not modelled unless cited.

### evdev-debounce.c (23 of 25; Debounce, Mouse)

Modelled: log_debounce_bug, debounce_set_state, debounce_set_timer, debounce_set_timer_short, debounce_cancel_timer, debounce_cancel_timer_short, debounce_enable_spurious, debounce_notify_button, debounce_is_up_handle_event, debounce_is_down_handle_event, debounce_is_down_waiting_handle_event, debounce_is_up_delaying_handle_event, debounce_is_up_delaying_spurious_handle_event, debounce_is_up_detecting_spurious_handle_event, debounce_is_down_detecting_spurious_handle_event, debounce_is_up_waiting_handle_event, debounce_is_down_delaying_handle_event, debounce_disabled_handle_event, debounce_handle_event, fallback_debounce_handle_state, debounce_timeout, debounce_timeout_short, fallback_init_debounce.

Not modelled: debounce_state_to_str, debounce_event_to_str.

### evdev-fallback.c (59 of 65; ButtonScroll, Buttons, Config, Coords, Debounce, Devices, Hand, Mouse, Pairing, SendEvents, Switch, Tablet, TouchSlots)

Modelled: fallback_keyboard_notify_key, fallback_lid_notify_toggle, fallback_notify_physical_button, normalize_delta, post_trackpoint_scroll, fallback_filter_defuzz_touch, fallback_rotate_relative, fallback_flush_relative_motion, fallback_flush_wheels, fallback_flush_absolute_motion, fallback_flush_mt_down, fallback_flush_mt_motion, fallback_flush_mt_up, fallback_flush_mt_cancel, fallback_flush_st_down, fallback_flush_st_up, fallback_flush_st_cancel, fallback_process_touch_button, fallback_process_key, fallback_process_touch, fallback_process_absolute_motion, fallback_lid_keyboard_event, fallback_lid_toggle_keyboard_listener, fallback_lid_toggle_keyboard_listeners, fallback_process_switch, fallback_reject_relative, fallback_process_relative, fallback_process_absolute, fallback_any_button_down, fallback_arbitrate_touch, fallback_flush_mt_events, fallback_handle_state, fallback_interface_process, cancel_touches, release_pressed_keys, fallback_return_to_neutral_state, fallback_interface_suspend, fallback_interface_remove, fallback_interface_sync_initial_state, fallback_interface_update_rect, fallback_interface_toggle_touch, fallback_lid_pair_keyboard, fallback_resume, fallback_suspend, fallback_tablet_mode_switch_event, fallback_pair_tablet_mode, fallback_interface_device_added, fallback_interface_device_removed, fallback_change_to_left_handed, fallback_change_scroll_method, fallback_rotation_config_set_angle, fallback_rotation_config_get_angle, fallback_init_rotation, fallback_dispatch_init_slots, fallback_dispatch_init_abs, fallback_dispatch_init_switch, fallback_arbitration_timeout, fallback_init_arbitration, fallback_dispatch_create.

Not modelled: fallback_interface_get_switch_state, fallback_flush_st_motion, fallback_interface_destroy, fallback_rotation_config_is_available, fallback_rotation_config_get_default_angle, fallback_dispatch_init_rel.

### evdev-fallback.h (3 of 7; Bits, Common, Debounce, Mouse, Pairing, Switch, Tablet, TouchSlots)

Modelled: fallback_dispatch, get_key_type, hw_set_key_down.

Not modelled: hw_key_has_changed, hw_key_update_last_state, hw_is_key_down, get_key_down_count.

### evdev-middle-button.c (21 of 26; Config, MiddleButton, Mouse)

Modelled: middlebutton_state_error, middlebutton_timer_set, middlebutton_timer_cancel, middlebutton_set_state, evdev_middlebutton_idle_handle_event, evdev_middlebutton_ldown_handle_event, evdev_middlebutton_rdown_handle_event, evdev_middlebutton_middle_handle_event, evdev_middlebutton_lup_pending_handle_event, evdev_middlebutton_rup_pending_handle_event, evdev_middlebutton_passthrough_handle_event, evdev_middlebutton_ignore_lr_handle_event, evdev_middlebutton_ignore_l_handle_event, evdev_middlebutton_ignore_r_handle_event, evdev_middlebutton_handle_event, evdev_middlebutton_apply_config, evdev_middlebutton_filter_button, evdev_middlebutton_handle_timeout, evdev_middlebutton_set, evdev_middlebutton_get, evdev_init_middlebutton.

Not modelled: middlebutton_state_to_str, middlebutton_event_to_str, middlebutton_post_event, evdev_middlebutton_is_available, evdev_middlebutton_get_default.

### evdev-mt-touchpad-buttons.c (39 of 53; Clickpad, Config, Motion, PadButtons, SoftButtons, Zones)

Modelled: is_inside_bottom_button_area, is_inside_bottom_right_area, is_inside_bottom_middle_area, is_inside_top_button_area, is_inside_top_right_area, is_inside_top_middle_area, tp_button_set_state, tp_button_none_handle_event, tp_button_area_handle_event, tp_button_release_other_bottom_touches, tp_button_bottom_handle_event, tp_button_top_handle_event, tp_button_top_new_handle_event, tp_button_top_to_ignore_handle_event, tp_button_ignore_handle_event, tp_button_handle_event, tp_button_check_for_movement, tp_button_handle_state, tp_button_handle_timeout, tp_process_button, tp_release_all_buttons, tp_init_softbuttons, tp_init_top_softbuttons, tp_button_config_click_get_methods, tp_switch_click_method, tp_button_config_click_set_method, tp_button_config_click_get_method, tp_click_get_default_method, tp_clickpad_middlebutton_apply_config, tp_clickpad_middlebutton_set, tp_init_clickpad_middlebutton_emulation, tp_init_middlebutton_emulation, tp_guess_clickpad, tp_init_buttons, tp_post_physical_buttons, tp_clickfinger_within_distance, tp_clickfinger_set_button, tp_notify_clickpadbutton, tp_post_clickpadbutton_buttons.

Not modelled: button_state_to_str, button_event_to_str, is_inside_bottom_left_area, is_inside_top_left_area, tp_button_set_enter_timer, tp_button_set_leave_timer, tp_button_config_click_get_default_method, tp_clickpad_middlebutton_is_available, tp_clickpad_middlebutton_get, tp_clickpad_middlebutton_get_default, tp_remove_buttons, tp_post_button_events, tp_button_touch_active, tp_button_is_inside_softbutton_area.

### evdev-mt-touchpad-edge-scroll.c (14 of 17; Motion, Zones)

Modelled: tp_touch_get_edge, tp_edge_scroll_set_timer, tp_edge_scroll_set_state, tp_edge_scroll_handle_none, tp_edge_scroll_handle_edge_new, tp_edge_scroll_handle_edge, tp_edge_scroll_handle_area, tp_edge_scroll_handle_event, tp_edge_scroll_handle_timeout, tp_edge_scroll_init, tp_edge_scroll_handle_state, tp_edge_scroll_post_events, tp_edge_scroll_stop_events, tp_edge_scroll_touch_active.

Not modelled: edge_state_to_str, edge_event_to_str, tp_remove_edge_scroll.

### evdev-mt-touchpad-gestures.c (28 of 32; Axis, Devices, Events, Follow, Motion, Pinch, Together, TwoFinger, Ways)

Modelled: tp_get_touches_delta, tp_gesture_init_scroll, tp_get_combined_touches_delta, tp_get_average_touches_delta, tp_gesture_start, tp_get_raw_pointer_motion, tp_gesture_post_pointer_motion, tp_gesture_get_active_touches, tp_gesture_same_directions, tp_gesture_mm_moved, tp_gesture_get_direction, tp_gesture_get_pinch_info, tp_gesture_init_pinch, tp_gesture_set_scroll_buildup, tp_gesture_apply_scroll_constraints, tp_gesture_detect_motion_gestures, tp_gesture_handle_state_none, tp_gesture_handle_state_unknown, tp_gesture_handle_state_scroll, tp_gesture_handle_state_swipe, tp_gesture_handle_state_pinch, tp_gesture_post_gesture, tp_gesture_post_events, tp_gesture_stop_twofinger_scroll, tp_gesture_end, tp_gesture_finger_count_switch_timeout, tp_gesture_handle_state, tp_init_gesture.

Not modelled: gesture_state_to_str, tp_gesture_cancel, tp_gesture_stop, tp_remove_gesture.

### evdev-mt-touchpad-tap.c (45 of 56; Config, Tap)

Modelled: log_tap_bug, tp_tap_notify, tp_tap_set_timer, tp_tap_set_drag_timer, tp_tap_set_draglock_timer, tp_tap_clear_timer, tp_tap_move_to_dead, tp_tap_idle_handle_event, tp_tap_touch_handle_event, tp_tap_hold_handle_event, tp_tap_tapped_handle_event, tp_tap_touch2_handle_event, tp_tap_touch2_hold_handle_event, tp_tap_touch2_release_handle_event, tp_tap_touch3_handle_event, tp_tap_touch3_hold_handle_event, tp_tap_touch3_release_handle_event, tp_tap_touch3_release2_handle_event, tp_tap_dragging_or_doubletap_handle_event, tp_tap_dragging_handle_event, tp_tap_dragging_wait_handle_event, tp_tap_dragging_tap_handle_event, tp_tap_dragging2_handle_event, tp_tap_dead_handle_event, tp_tap_handle_event, tp_tap_enabled, tp_tap_handle_state, tp_tap_update_map, tp_tap_handle_timeout, tp_tap_enabled_update, tp_tap_config_count, tp_tap_config_set_enabled, tp_tap_config_is_enabled, tp_tap_default, tp_tap_config_set_map, tp_tap_config_get_map, tp_tap_config_set_drag_enabled, tp_tap_config_get_drag_enabled, tp_tap_config_set_draglock_enabled, tp_tap_config_get_draglock_enabled, tp_init_tap, tp_release_all_taps, tp_tap_suspend, tp_tap_resume, tp_tap_dragging.

Not modelled: tap_state_to_str, tap_event_to_str, tp_tap_exceeds_motion_threshold, tp_tap_post_process_state, tp_tap_config_get_default, tp_tap_config_get_default_map, tp_drag_default, tp_tap_config_get_default_drag_enabled, tp_drag_lock_default, tp_tap_config_get_default_draglock_enabled, tp_remove_tap.

### evdev-mt-touchpad-thumb.c (14 of 16; Motion, Quirks, Zones)

Modelled: tp_thumb_set_state, tp_thumb_reset, tp_thumb_lift, tp_thumb_in_exclusion_area, tp_thumb_detect_pressure_size, tp_thumb_needs_jail, tp_thumb_ignored, tp_thumb_ignored_for_gesture, tp_thumb_suppress, tp_thumb_pinch, tp_thumb_revive, tp_thumb_update_touch, tp_thumb_update_multifinger, tp_init_thumb.

Not modelled: thumb_state_to_str, tp_thumb_ignored_for_tap.

### evdev-mt-touchpad.c (124 of 143; Accel, Config, Devices, Follow, Hysteresis, Motion, PadButtons, Pairing, Pinch, Quirks, Scroll, SendEvents, SoftButtons, Tablet, Tap, Together, Touch, Ways, Zones)

Modelled: tp_motion_history_offset, tp_filter_motion, tp_filter_motion_unaccelerated, tp_calculate_motion_speed, tp_motion_history_push, tp_detect_wobbling, tp_motion_hysteresis, tp_motion_history_reset, tp_current_touch, tp_fake_finger_count, tp_fake_finger_set, tp_new_touch, tp_begin_touch, tp_maybe_end_touch, tp_recover_ended_touch, tp_end_touch, tp_end_sequence, tp_stop_actions, tp_get_delta, rotated, tp_process_absolute, tp_process_absolute_st, tp_restore_synaptics_touches, tp_process_fake_touches, tp_process_key, tp_unpin_finger, tp_pin_fingers, tp_touch_active, tp_touch_active_for_gesture, tp_palm_was_in_side_edge, tp_palm_was_in_top_edge, tp_palm_in_side_edge, tp_palm_in_top_edge, tp_palm_in_edge, tp_palm_detect_dwt_triggered, tp_palm_detect_trackpoint_triggered, tp_palm_detect_tool_triggered, tp_palm_detect_move_out_of_edge, tp_palm_detect_multifinger, tp_palm_detect_touch_size_triggered, tp_palm_detect_edge, tp_palm_detect_pressure_triggered, tp_palm_detect_arbitration_triggered, tp_palm_detect, tp_unhover_pressure, tp_unhover_size, tp_unhover_fake_touches, tp_unhover_touches, tp_position_fake_touches, tp_need_motion_history_reset, tp_detect_jumps, tp_motion_history_fix_last, tp_process_msc_timestamp, tp_pre_process_state, tp_process_state, tp_post_process_state, tp_post_events, tp_apply_rotation, tp_handle_state, tp_interface_process, tp_remove_sendevents, tp_clear_state, tp_suspend, tp_interface_suspend, tp_sync_touch, tp_sync_slots, tp_resume, tp_trackpoint_timeout, tp_trackpoint_event, tp_keyboard_timeout, tp_key_is_modifier, tp_key_ignore_for_dwt, tp_keyboard_event, tp_want_dwt, tp_dwt_pair_keyboard, tp_pair_trackpoint, tp_lid_switch_event, tp_tablet_mode_switch_event, tp_pair_lid_switch, tp_pair_tablet_mode_switch, tp_change_rotation, tp_pair_tablet, tp_interface_device_added, tp_interface_device_removed, evdev_tag_touchpad_internal, evdev_tag_touchpad_external, evdev_tag_touchpad, tp_arbitration_timeout, tp_interface_toggle_touch, tp_init_touch, tp_disable_abs_mt, tp_init_slots, tp_init_accel, tp_accel_config_set_speed, tp_accel_config_set_profile, tp_scroll_get_methods, tp_scroll_config_scroll_method_set_method, tp_scroll_config_scroll_method_get_method, tp_scroll_get_default_method, tp_init_scroll, tp_dwt_config_set, tp_dwt_config_get, tp_is_tpkb_combo_below, tp_is_tablet, tp_init_dwt, tp_init_palmdetect_edge, tp_read_palm_pressure_prop, tp_init_palmdetect_size, tp_init_palmdetect_arbitration, tp_init_palmdetect, tp_pass_sanity_check, tp_init_default_resolution, tp_init_hysteresis, tp_init_pressure, tp_init_touch_size, tp_init_pressurepad, tp_init, tp_sendevents_get_modes, tp_suspend_conditional, tp_sendevents_set_mode, tp_sendevents_get_mode, tp_change_to_left_handed, tp_init_left_handed, evdev_mt_touchpad_create.

Not modelled: tp_get_touch, tp_fake_finger_is_touching, tp_process_trackpoint_button, tp_process_msc, tp_palm_tap_is_palm, tp_debug_touch_state, tp_interface_remove, tp_interface_destroy, tp_release_fake_touches, touchpad_left_handed_toggled, tp_scroll_config_scroll_method_get_methods, tp_scroll_config_scroll_method_get_default_method, tp_dwt_config_is_available, tp_dwt_default_enabled, tp_dwt_config_get_default, tp_init_palmdetect_pressure, tp_init_sendevents, tp_sendevents_get_default_mode, tp_requires_rotation.

### evdev-mt-touchpad.h (3 of 6; Axis, Follow, Motion, PadButtons, Pairing, Pinch, SendEvents, SoftButtons, Tablet, Tap, Together, Touch, TwoFinger, Ways)

Modelled: tp_normalize_delta, tp_phys_delta, tp_scale_to_xaxis.

Not modelled: touch_state_to_str, tp_dispatch, tp_libinput_context.

### evdev-tablet-pad-leds.c (18 of 23; Pad, Refs)

Modelled: pad_led_group_get_mode, pad_led_new, pad_led_group_destroy, pad_group_new_basic, pad_group_new, pad_init_led_groups, pad_get_mode_group, pad_find_button_group, pad_init_mode_buttons, pad_init_mode_rings, pad_init_mode_strips, pad_init_leds_from_libwacom, pad_init_fallback_group, pad_init_leds, pad_destroy_leds, pad_button_update_mode, evdev_device_tablet_pad_get_num_mode_groups, evdev_device_tablet_pad_get_mode_group.

Not modelled: pad_mode_toggle_button_new, pad_mode_toggle_button_destroy, pad_led_destroy, is_litest_device, pad_led_get_sysfs_base_path.

### evdev-tablet-pad.c (32 of 37; Bits, Config, Devices, Pad, Pairing)

Modelled: pad_get_buttons_pressed, pad_get_buttons_released, pad_any_button_down, pad_button_set_down, pad_process_absolute, normalize_ring, normalize_strip, pad_handle_ring, pad_handle_strip, pad_ring_get_mode_group, pad_strip_get_mode_group, pad_check_notify_axes, pad_process_key, pad_button_get_mode_group, pad_notify_button_mask, pad_notify_buttons, pad_change_to_left_handed, pad_flush, pad_process, pad_suspend, pad_init_buttons_from_libwacom, pad_init_buttons_from_kernel, pad_init_keys, pad_init_buttons, pad_init, pad_sendevents_get_modes, pad_sendevents_set_mode, evdev_tablet_pad_create, evdev_device_tablet_pad_has_key, evdev_device_tablet_pad_get_num_buttons, evdev_device_tablet_pad_get_num_rings, evdev_device_tablet_pad_get_num_strips.

Not modelled: pad_button_is_down, pad_destroy, pad_init_left_handed, pad_sendevents_get_mode, pad_sendevents_get_default_mode.

### evdev-tablet.c (81 of 91; Bits, Config, Devices, Hand, Pairing, Quirks, Refs, Tablet, Tools)

Modelled: tablet_get_pressed_buttons, tablet_get_released_buttons, tablet_force_button_presses, tablet_history_reset, tablet_history_push, tablet_history_get, tablet_device_has_axis, tablet_filter_axis_fuzz, tablet_process_absolute, tablet_apply_rotation, tablet_change_rotation, tablet_change_to_left_handed, tablet_update_tool, normalize_slider, normalize_distance, normalize_pressure, adjust_tilt, invert_axis, convert_tilt_to_rotation, convert_to_degrees, tablet_update_xy, tablet_tool_process_delta, tablet_update_pressure, tablet_update_distance, tablet_update_slider, tablet_update_tilt, tablet_update_artpen_rotation, tablet_update_mouse_rotation, tablet_update_rotation, tablet_update_wheel, tablet_smoothen_axes, tablet_check_notify_axes, tablet_update_button, tablet_evcode_to_tool, tablet_process_key, tablet_process_relative, tablet_process_misc, copy_axis_cap, copy_button_cap, tool_set_bits_from_libwacom, tool_set_bits, axis_range_percentage, tool_set_pressure_thresholds, tablet_get_tool, tablet_notify_button_mask, tablet_notify_buttons, sanitize_pressure_distance, sanitize_mouse_lens_rotation, detect_pressure_offset, detect_tool_contact, tablet_mark_all_axes_changed, tablet_update_proximity_state, tablet_calculate_arbitration_rect, tablet_update_touch_device_rect, tablet_send_proximity_in, tablet_send_proximity_out, tablet_send_tip, tablet_send_axes, tablet_send_buttons, tablet_send_events, tablet_proximity_out_quirk_set_timer, tablet_update_tool_state, tablet_get_current_tool, tablet_flush, tablet_set_touch_device_enabled, tablet_toggle_touch_device, tablet_reset_state, tablet_proximity_out_quirk_timer_func, tablet_process, tablet_suspend, tablet_destroy, tablet_device_added, tablet_device_removed, tablet_check_initial_proximity, tablet_left_handed_toggled, tablet_accel_config_get_profiles, tablet_accel_config_set_profile, tablet_accel_config_get_profile, tablet_init_accel, tablet_reject_device, tablet_init.

Not modelled: tablet_history_size, tablet_reset_changed_axes, normalize_wheel, sanitize_tablet_axes, tablet_init_calibration, tablet_init_proximity_threshold, tablet_accel_config_get_default_profile, tablet_init_left_handed, tablet_init_smoothing, evdev_tablet_create.

### evdev-totem.c (19 of 25; Config, Devices, Pairing, Tools, Totem)

Modelled: totem_new_tool, totem_set_touch_device_enabled, totem_process_key, totem_process_abs, totem_slot_fetch_axes, totem_slot_mark_all_axes_changed, slot_axes_initialize, totem_handle_slot_state, totem_handle_state, totem_interface_process, totem_interface_suspend, totem_interface_device_added, totem_interface_device_removed, totem_interface_initial_proximity, totem_reject_device, totem_accel_config_get_profiles, totem_accel_config_set_profile, totem_init_accel, evdev_totem_create.

Not modelled: totem_dispatch, totem_libinput_context, totem_slot_reset_changed_axes, totem_interface_destroy, totem_accel_config_get_profile, totem_accel_config_get_default_profile.

### evdev.c (103 of 124; Accel, Backend, ButtonScroll, Buttons, Config, Coords, Debounce, Devices, Dispatch, Events, Leds, MiddleButton, Mouse, Pad, PadButtons, Pairing, Quirks, Refs, Scroll, SendEvents, SoftButtons, Switch, Tablet, Totem, TouchSlots, Zones)

Modelled: parse_udev_flag, evdev_update_key_down_count, evdev_pointer_notify_physical_button, evdev_pointer_post_button, evdev_button_scroll_timeout, evdev_button_scroll_button, evdev_pointer_notify_button, evdev_device_led_update, evdev_transform_absolute, scale_axis, evdev_device_transform_x, evdev_device_transform_y, evdev_notify_axis, evdev_tag_external_mouse, evdev_tag_trackpoint, evdev_tag_keyboard_internal, evdev_tag_keyboard_external, evdev_tag_keyboard, evdev_tag_tablet_touchpad, evdev_calibration_has_matrix, evdev_calibration_set_matrix, evdev_calibration_get_matrix, evdev_calibration_get_default_matrix, evdev_sendevents_get_modes, evdev_sendevents_set_mode, evdev_sendevents_get_mode, evdev_left_handed_set, evdev_left_handed_get, evdev_init_left_handed, evdev_scroll_get_methods, evdev_scroll_set_method, evdev_scroll_get_method, evdev_scroll_get_default_method, evdev_scroll_set_button, evdev_scroll_get_button, evdev_scroll_get_default_button, evdev_scroll_set_button_lock, evdev_scroll_get_button_lock, evdev_set_button_scroll_lock_enabled, evdev_init_button_scroll, evdev_init_calibration, evdev_init_sendevents, evdev_scroll_config_natural_set, evdev_scroll_config_natural_get, evdev_init_natural_scroll, evdev_need_mtdev, evdev_is_fake_mt_device, evdev_read_switch_reliability_prop, evdev_process_event, evdev_device_dispatch_one, evdev_sync_device, evdev_note_time_delay, evdev_device_dispatch, evdev_init_accel, evdev_accel_config_set_speed, evdev_accel_config_get_speed, evdev_accel_config_get_profiles, evdev_accel_config_set_profile, evdev_accel_config_get_profile, evdev_device_init_pointer_acceleration, evdev_read_wheel_click_prop, evdev_read_wheel_click_count_prop, evdev_read_wheel_click_props, evdev_get_trackpoint_multiplier, evdev_need_velocity_averaging, evdev_read_dpi_prop, evdev_read_model_flags, evdev_read_attr_res_prop, evdev_read_attr_size_prop, evdev_fix_abs_resolution, evdev_device_get_udev_tags, evdev_fix_android_mt, evdev_check_min_max, evdev_reject_device, evdev_extract_abs_axes, evdev_disable_accelerometer_axes, evdev_configure_device, evdev_notify_added_device, evdev_device_have_same_syspath, evdev_set_device_group, evdev_pre_configure_model_quirks, udev_device_should_be_ignored, evdev_device_create, evdev_device_set_default_calibration, evdev_device_calibrate, evdev_read_calibration_prop, evdev_read_fuzz_prop, evdev_device_has_capability, evdev_device_get_size, evdev_device_has_button, evdev_device_has_key, evdev_device_get_touch_count, evdev_device_has_switch, evdev_is_scrolling, evdev_start_scrolling, evdev_post_scroll, evdev_stop_scroll, evdev_notify_suspended_device, evdev_notify_resumed_device, evdev_device_suspend, evdev_device_resume, evdev_device_remove, evdev_device_destroy.

Not modelled: evdev_device_switch_get_state, evdev_transform_relative, evdev_sendevents_get_default_mode, evdev_left_handed_has, evdev_left_handed_get_default, evdev_scroll_get_default_button_lock, evdev_scroll_config_natural_has, evdev_scroll_config_natural_get_default, evdev_print_event, evdev_accel_config_available, evdev_accel_config_get_default_speed, evdev_accel_config_get_default_profile, evdev_drain_fd, libevdev_log_func, evdev_device_get_output, evdev_device_get_sysname, evdev_device_get_name, evdev_device_get_id_product, evdev_device_get_id_vendor, evdev_device_get_udev_device, evdev_tablet_has_left_handed.

### evdev.h (12 of 17; ButtonScroll, Buttons, Coords, Devices, Events, Follow, Hand, Hysteresis, Log, MiddleButton, Mouse, PadButtons, Pairing, Quirks, Scroll, SoftButtons, Switch, Tablet, Totem, TouchSlots, Zones)

Modelled: evdev_device, evdev_device_has_model_quirk, evdev_convert_to_mm, evdev_to_left_handed, evdev_hysteresis, evdev_device_unit_delta_to_mm, evdev_device_units_to_mm, evdev_device_mm_to_units, evdev_phys_rect_to_units, evdev_device_init_abs_range_warnings, evdev_device_check_abs_axis_range, evdev_paired_keyboard_destroy.

Not modelled: evdev_verify_dispatch_type, evdev_libinput_context, evdev_convert_xy_to_mm, evdev_log_msg, evdev_log_msg_ratelimit.

### filter-flat.c (4 of 5; Accel, Config)

Modelled: accelerator_filter_flat, accelerator_filter_noop_flat, accelerator_set_speed_flat, create_pointer_accelerator_filter_flat.

Not modelled: accelerator_destroy_flat.

### filter-low-dpi.c (7 of 9; Accel, Config)

Modelled: calculate_acceleration_factor, accelerator_filter_generic, accelerator_filter_unnormalized, accelerator_filter_noop, accelerator_restart, accelerator_set_speed, create_pointer_accelerator_filter_linear_low_dpi.

Not modelled: accelerator_destroy, create_default_filter.

### filter-mouse.c (8 of 9; Accel, Config)

Modelled: calculate_acceleration_factor, accelerator_filter_generic, accelerator_filter_pre_normalized, accelerator_filter_noop, accelerator_restart, accelerator_set_speed, create_default_filter, create_pointer_accelerator_filter_linear.

Not modelled: accelerator_destroy.

### filter-tablet.c (5 of 7; Accel, Config)

Modelled: tablet_accelerator_filter_flat_mouse, tablet_accelerator_filter_flat_pen, tablet_accelerator_filter_flat, tablet_accelerator_set_speed, create_tablet_filter_flat.

Not modelled: tablet_accelerator_destroy, create_pointer_accelerator_filter_tablet.

### filter-touchpad-flat.c (4 of 5; Accel, Config)

Modelled: accelerator_filter_touchpad_flat, accelerator_filter_noop_touchpad_flat, accelerator_set_speed_touchpad_flat, create_pointer_accelerator_filter_touchpad_flat.

Not modelled: accelerator_destroy_touchpad_flat.

### filter-touchpad-x230.c (6 of 8; Accel, Config)

Modelled: calculate_acceleration, accelerator_filter_x230, accelerator_filter_constant_x230, accelerator_restart_x230, accelerator_set_speed_x230, create_pointer_accelerator_filter_lenovo_x230.

Not modelled: acceleration_profile, accelerator_destroy_x230.

### filter-touchpad.c (8 of 9; Accel, Config)

Modelled: calculate_acceleration_factor, accelerator_filter_generic, accelerator_filter_post_normalized, speed_factor, touchpad_accelerator_set_speed, touchpad_constant_filter, touchpad_accelerator_restart, create_pointer_accelerator_filter_touchpad.

Not modelled: touchpad_accelerator_destroy.

### filter-trackpoint.c (7 of 8; Accel, Config)

Modelled: trackpoint_accel_profile, trackpoint_accelerator_filter, trackpoint_accelerator_filter_noop, speed_factor, trackpoint_accelerator_set_speed, trackpoint_accelerator_restart, create_pointer_accelerator_filter_trackpoint.

Not modelled: trackpoint_accelerator_destroy.

### filter.c (12 of 16; Accel, Config)

Modelled: filter_dispatch, filter_dispatch_constant, filter_restart, filter_set_speed, trackers_init, trackers_reset, trackers_feed, trackers_by_offset, calculate_trackers_velocity, trackers_velocity_after_timeout, trackers_velocity, calculate_acceleration_simpsons.

Not modelled: filter_destroy, filter_get_speed, filter_get_type, trackers_free.

### libinput-private.h (11 of 14; Accel, Axis, Buttons, Coords, EventQueue, Events, Log, Pad, Pairing, Pinch, Tablet, Timer, Together, Tools, TouchSlots, Ways)

Modelled: is_logged, device_delta, device_average, device_float_delta, device_float_is_zero, normalized_length, normalized_is_zero, xy_get_direction, phys_get_direction, device_float_get_direction, point_in_rect.

Not modelled: libinput_now, device_float_average, length_in_mm.

### libinput-versionsort.h (1 of 3; Util)

Modelled: libinput_strverscmp.

Not modelled: strverscmp, versionsort.

### libinput.c (229 of 317; Backend, Buttons, Clickpad, Config, Coords, Dispatch, EventQueue, Events, Leds, Log, Pad, Pairing, Refs, SendEvents, Switch, Tablet, Tools)

Modelled: event_type_to_str, check_event_type, log_msg_va, log_msg, log_msg_ratelimit, libinput_log_set_priority, libinput_log_get_priority, libinput_log_set_handler, libinput_event_get_pointer_event, libinput_event_get_keyboard_event, libinput_event_get_touch_event, libinput_event_get_gesture_event, libinput_event_get_tablet_tool_event, libinput_event_get_tablet_pad_event, libinput_event_get_device_notify_event, libinput_event_get_switch_event, libinput_event_keyboard_get_time, libinput_event_keyboard_get_time_usec, libinput_event_keyboard_get_key, libinput_event_keyboard_get_key_state, libinput_event_keyboard_get_seat_key_count, libinput_event_pointer_get_time, libinput_event_pointer_get_time_usec, libinput_event_pointer_get_dx, libinput_event_pointer_get_dy, libinput_event_pointer_get_dx_unaccelerated, libinput_event_pointer_get_dy_unaccelerated, libinput_event_pointer_get_absolute_x, libinput_event_pointer_get_absolute_y, libinput_event_pointer_get_absolute_x_transformed, libinput_event_pointer_get_absolute_y_transformed, libinput_event_pointer_get_button, libinput_event_pointer_get_button_state, libinput_event_pointer_get_seat_button_count, libinput_event_pointer_has_axis, libinput_event_pointer_get_axis_value, libinput_event_pointer_get_axis_value_discrete, libinput_event_pointer_get_axis_source, libinput_event_touch_get_time, libinput_event_touch_get_time_usec, libinput_event_touch_get_slot, libinput_event_touch_get_seat_slot, libinput_event_touch_get_x, libinput_event_touch_get_x_transformed, libinput_event_touch_get_y_transformed, libinput_event_touch_get_y, libinput_event_gesture_get_time, libinput_event_gesture_get_time_usec, libinput_event_gesture_get_finger_count, libinput_event_gesture_get_cancelled, libinput_event_gesture_get_dx, libinput_event_gesture_get_dy, libinput_event_gesture_get_dx_unaccelerated, libinput_event_gesture_get_dy_unaccelerated, libinput_event_gesture_get_scale, libinput_event_gesture_get_angle_delta, libinput_event_tablet_tool_x_has_changed, libinput_event_tablet_tool_y_has_changed, libinput_event_tablet_tool_pressure_has_changed, libinput_event_tablet_tool_distance_has_changed, libinput_event_tablet_tool_tilt_x_has_changed, libinput_event_tablet_tool_tilt_y_has_changed, libinput_event_tablet_tool_rotation_has_changed, libinput_event_tablet_tool_slider_has_changed, libinput_event_tablet_tool_size_major_has_changed, libinput_event_tablet_tool_size_minor_has_changed, libinput_event_tablet_tool_wheel_has_changed, libinput_event_tablet_tool_get_x, libinput_event_tablet_tool_get_y, libinput_event_tablet_tool_get_dx, libinput_event_tablet_tool_get_dy, libinput_event_tablet_tool_get_pressure, libinput_event_tablet_tool_get_distance, libinput_event_tablet_tool_get_tilt_x, libinput_event_tablet_tool_get_tilt_y, libinput_event_tablet_tool_get_rotation, libinput_event_tablet_tool_get_slider_position, libinput_event_tablet_tool_get_size_major, libinput_event_tablet_tool_get_size_minor, libinput_event_tablet_tool_get_wheel_delta, libinput_event_tablet_tool_get_wheel_delta_discrete, libinput_event_tablet_tool_get_x_transformed, libinput_event_tablet_tool_get_y_transformed, libinput_event_tablet_tool_get_tool, libinput_event_tablet_tool_get_proximity_state, libinput_event_tablet_tool_get_tip_state, libinput_event_tablet_tool_get_time, libinput_event_tablet_tool_get_time_usec, libinput_event_tablet_tool_get_button, libinput_event_tablet_tool_get_button_state, libinput_event_tablet_tool_get_seat_button_count, libinput_tablet_tool_get_type, libinput_tablet_tool_get_tool_id, libinput_tablet_tool_is_unique, libinput_tablet_tool_get_serial, libinput_tablet_tool_has_pressure, libinput_tablet_tool_has_distance, libinput_tablet_tool_has_tilt, libinput_tablet_tool_has_rotation, libinput_tablet_tool_has_slider, libinput_tablet_tool_has_wheel, libinput_tablet_tool_has_size, libinput_tablet_tool_has_button, libinput_tablet_tool_ref, libinput_tablet_tool_unref, libinput_event_switch_get_base_event, libinput_event_switch_get_switch, libinput_event_switch_get_switch_state, libinput_event_switch_get_time, libinput_event_switch_get_time_usec, libinput_add_fd, libinput_remove_source, libinput_init, libinput_drop_destroyed_sources, libinput_unref, libinput_event_tablet_tool_destroy, libinput_event_tablet_pad_destroy, libinput_event_destroy, libinput_seat_init, libinput_seat_ref, libinput_seat_destroy, libinput_seat_unref, libinput_device_ref, libinput_device_destroy, libinput_device_unref, libinput_dispatch, libinput_device_add_event_listener, libinput_device_remove_event_listener, update_seat_key_count, update_seat_button_count, init_event_base, post_base_event, post_device_event, notify_added_device, notify_removed_device, device_has_cap, keyboard_notify_key, pointer_notify_motion, pointer_notify_motion_absolute, pointer_notify_button, pointer_notify_axis, touch_notify_touch_down, touch_notify_touch_motion, touch_notify_touch_up, touch_notify_touch_cancel, touch_notify_frame, tablet_notify_axis, tablet_notify_proximity, tablet_notify_tip, tablet_notify_button, tablet_pad_notify_button, tablet_pad_notify_ring, tablet_pad_notify_strip, tablet_pad_notify_key, gesture_notify, gesture_notify_swipe, gesture_notify_swipe_end, gesture_notify_pinch, gesture_notify_pinch_end, switch_notify_toggle, libinput_post_event, libinput_get_event, libinput_next_event_type, libinput_resume, libinput_suspend, libinput_device_set_seat_logical_name, libinput_device_led_update, libinput_tablet_pad_mode_group_has_button, libinput_tablet_pad_mode_group_has_ring, libinput_tablet_pad_mode_group_has_strip, libinput_tablet_pad_mode_group_button_is_toggle, libinput_tablet_pad_mode_group_ref, libinput_tablet_pad_mode_group_unref, libinput_event_device_notify_get_base_event, libinput_event_keyboard_get_base_event, libinput_event_pointer_get_base_event, libinput_event_touch_get_base_event, libinput_event_gesture_get_base_event, libinput_event_tablet_tool_get_base_event, libinput_event_tablet_pad_get_ring_position, libinput_event_tablet_pad_get_ring_number, libinput_event_tablet_pad_get_ring_source, libinput_event_tablet_pad_get_strip_position, libinput_event_tablet_pad_get_strip_number, libinput_event_tablet_pad_get_strip_source, libinput_event_tablet_pad_get_button_number, libinput_event_tablet_pad_get_button_state, libinput_event_tablet_pad_get_key, libinput_event_tablet_pad_get_key_state, libinput_event_tablet_pad_get_mode, libinput_event_tablet_pad_get_mode_group, libinput_event_tablet_pad_get_time, libinput_event_tablet_pad_get_time_usec, libinput_event_tablet_pad_get_base_event, libinput_device_group_ref, libinput_device_group_create, libinput_device_group_find_group, libinput_device_set_device_group, libinput_device_group_destroy, libinput_device_group_unref, libinput_device_config_tap_get_finger_count, libinput_device_config_tap_set_enabled, libinput_device_config_tap_set_button_map, libinput_device_config_tap_set_drag_enabled, libinput_device_config_tap_set_drag_lock_enabled, libinput_device_config_calibration_has_matrix, libinput_device_config_calibration_set_matrix, libinput_device_config_calibration_get_matrix, libinput_device_config_send_events_get_modes, libinput_device_config_send_events_set_mode, libinput_device_config_send_events_get_mode, libinput_device_config_accel_is_available, libinput_device_config_accel_set_speed, libinput_device_config_accel_get_profiles, libinput_device_config_accel_set_profile, libinput_device_config_scroll_set_natural_scroll_enabled, libinput_device_config_left_handed_set, libinput_device_config_click_get_methods, libinput_device_config_click_set_method, libinput_device_config_click_get_method, libinput_device_config_click_get_default_method, libinput_device_config_middle_emulation_is_available, libinput_device_config_middle_emulation_set_enabled, libinput_device_config_scroll_get_methods, libinput_device_config_scroll_set_method, libinput_device_config_scroll_set_button, libinput_device_config_scroll_set_button_lock, libinput_device_config_dwt_set_enabled, libinput_device_config_rotation_set_angle.

Not modelled: libinput_default_log_func, libinput_event_get_type, libinput_event_get_context, libinput_event_get_device, libinput_tablet_tool_set_user_data, libinput_tablet_tool_get_user_data, libinput_init_quirks, libinput_ref, open_restricted, close_restricted, ignore_litest_test_suite_device, libinput_seat_set_user_data, libinput_seat_get_user_data, libinput_seat_get_context, libinput_seat_get_physical_name, libinput_seat_get_logical_name, libinput_device_init, libinput_get_fd, libinput_device_init_event_listener, libinput_set_user_data, libinput_get_user_data, libinput_device_set_user_data, libinput_device_get_user_data, libinput_device_get_context, libinput_device_get_device_group, libinput_device_get_sysname, libinput_device_get_name, libinput_device_get_id_product, libinput_device_get_id_vendor, libinput_device_get_output_name, libinput_device_get_seat, libinput_device_get_udev_device, libinput_device_has_capability, libinput_device_get_size, libinput_device_pointer_has_button, libinput_device_keyboard_has_key, libinput_device_touch_get_touch_count, libinput_device_switch_has_switch, libinput_device_tablet_pad_has_key, libinput_device_tablet_pad_get_num_buttons, libinput_device_tablet_pad_get_num_rings, libinput_device_tablet_pad_get_num_strips, libinput_device_tablet_pad_get_num_mode_groups, libinput_device_tablet_pad_get_mode_group, libinput_tablet_pad_mode_group_get_num_modes, libinput_tablet_pad_mode_group_get_mode, libinput_tablet_pad_mode_group_get_index, libinput_tablet_pad_mode_group_set_user_data, libinput_tablet_pad_mode_group_get_user_data, libinput_device_group_set_user_data, libinput_device_group_get_user_data, libinput_config_status_to_str, libinput_device_config_tap_get_enabled, libinput_device_config_tap_get_default_enabled, libinput_device_config_tap_get_button_map, libinput_device_config_tap_get_default_button_map, libinput_device_config_tap_get_drag_enabled, libinput_device_config_tap_get_default_drag_enabled, libinput_device_config_tap_get_drag_lock_enabled, libinput_device_config_tap_get_default_drag_lock_enabled, libinput_device_config_calibration_get_default_matrix, libinput_device_config_send_events_get_default_mode, libinput_device_config_accel_get_speed, libinput_device_config_accel_get_default_speed, libinput_device_config_accel_get_profile, libinput_device_config_accel_get_default_profile, libinput_device_config_scroll_has_natural_scroll, libinput_device_config_scroll_get_natural_scroll_enabled, libinput_device_config_scroll_get_default_natural_scroll_enabled, libinput_device_config_left_handed_is_available, libinput_device_config_left_handed_get, libinput_device_config_left_handed_get_default, libinput_device_config_middle_emulation_get_enabled, libinput_device_config_middle_emulation_get_default_enabled, libinput_device_config_scroll_get_method, libinput_device_config_scroll_get_default_method, libinput_device_config_scroll_get_button, libinput_device_config_scroll_get_default_button, libinput_device_config_scroll_get_button_lock, libinput_device_config_scroll_get_default_button_lock, libinput_device_config_dwt_is_available, libinput_device_config_dwt_get_enabled, libinput_device_config_dwt_get_default_enabled, libinput_device_config_rotation_is_available, libinput_device_config_rotation_get_angle, libinput_device_config_rotation_get_default_angle, libinput_libwacom_ref, libinput_libwacom_unref.

### path-seat.c (13 of 16; Backend, Buttons, Dispatch, Refs)

Modelled: path_disable_device, path_input_disable, path_seat_create, path_seat_get_named, path_seat_get_for_device, path_device_enable, path_input_enable, path_device_destroy, path_create_device, path_device_change_seat, udev_device_from_devnode, libinput_path_add_device, libinput_path_remove_device.

Not modelled: path_seat_destroy, path_input_destroy, libinput_path_create_context.

### quirks.c (39 of 47; Quirks)

Modelled: quirk_get_name, property_new, property_ref, property_unref, property_cleanup, section_new, section_destroy, parse_hex, parse_match, parse_model, parse_attr, parse_value_line, parse_file, parse_files, quirks_init_subsystem, quirks_context_ref, quirks_context_unref, quirks_new, quirks_unref, udev_prop, match_fill_name, match_fill_bus_vid_pid, match_fill_udev_type, match_fill_dmi_dt, match_new, quirk_apply_section, quirk_match_section, quirks_fetch_for_device, quirk_find_prop, quirks_has_quirk, quirks_get_int32, quirks_get_uint32, quirks_get_double, quirks_get_string, quirks_get_bool, quirks_get_dimensions, quirks_get_range, quirks_get_tuples, quirks_get_uint32_array.

Not modelled: quirk_log_msg_va, quirk_log_msg, matchflagname, init_dmi_linux, init_dmi_freebsd, init_dmi, init_dt, match_free.

### timer.c (8 of 11; ButtonScroll, Debounce, Dispatch, MiddleButton, Timer)

Modelled: libinput_timer_arm_timer_fd, libinput_timer_set_flags, libinput_timer_cancel, libinput_timer_handler, libinput_timer_dispatch, libinput_timer_subsys_init, libinput_timer_subsys_destroy, libinput_timer_flush.

Not modelled: libinput_timer_init, libinput_timer_destroy, libinput_timer_set.

### udev-seat.c (12 of 15; Backend, Buttons, Dispatch, Refs)

Modelled: filter_duplicates, device_added, device_removed, udev_input_add_devices, evdev_udev_handler, udev_input_remove_devices, udev_input_disable, udev_input_enable, udev_seat_create, udev_seat_get_named, udev_device_change_seat, libinput_udev_assign_seat.

Not modelled: udev_input_destroy, udev_seat_destroy, libinput_udev_create_context.

### util-bits.h (8 of 8; Bits, Events, Tools)

Modelled: bit_is_set, set_bit, clear_bit, long_bit_is_set, long_set_bit, long_clear_bit, long_set_bit_state, long_any_bit_set.

### util-input-event.h (1 of 3; Dispatch)

Modelled: input_event_time.

Not modelled: input_event_init, input_event_set_time.

### util-list.c (5 of 5; Debounce, Pairing, Util)

Modelled: list_init, list_insert, list_append, list_remove, list_empty.

### util-matrix.h (10 of 11; Config, Coords)

Modelled: deg2rad, matrix_init_identity, matrix_from_farray6, matrix_init_scale, matrix_init_translate, matrix_init_rotate, matrix_is_identity, matrix_mult, matrix_mult_vec, matrix_to_farray6.

Not modelled: matrix_to_relative.

### util-prop-parsers.c (11 of 12; Devices, Parsers)

Modelled: parse_mouse_dpi_property, parse_mouse_wheel_click_count_property, parse_mouse_wheel_click_angle_property, parse_dimension_property, parse_calibration_property, parse_switch_reliability_property, parse_range_property, parse_evcode_string, parse_evcode_property, parse_input_prop_property, parse_evdev_abs_prop.

Not modelled: parse_tpkbcombo_layout_poperty.

### util-ratelimit.c (2 of 2; Util)

Modelled: ratelimit_init, ratelimit_test.

### util-strings.c (5 of 6; Strings)

Modelled: next_word, strv_from_string, strv_join, safe_basename, trunkname.

Not modelled: strv_from_argv.

### util-strings.h (9 of 14; Config, Parsers, Strings)

Modelled: zalloc, safe_atoi_base, safe_atoi, safe_atou_base, safe_atou, safe_atod, strstrip, strendswith, strstartswith.

Not modelled: streq, strneq, safe_strdup, xasprintf, xvasprintf.

### util-time.h (7 of 9; Dispatch, Events, Util)

Modelled: ns2us, ms2us, s2us, us2ms, tv2us, us2tv, to_human_time.

Not modelled: msleep, us.

## Axioms of every listed theorem

**none**: Debounce.seventeen_buttons_lose_one, ButtonScroll.small_motion_loses_click, ButtonScroll.lock_double_press_aborts, Scroll.touchpad_terminates_unscrolled_axis, Log.no_handler_silent, Log.unheard_messages_count.

**propext**: Mouse.suspend_left_handed_aborts, Mouse.suspend_double_middle_leaves_pressed, Mouse.suspend_held_then_press_aborts, Mouse.late_left_handed_aborts, Mouse.hasty_left_handed_aborts, Mouse.all_three_abort, Mouse.odd_button_aborts, MiddleButton.enabling_while_held_sticks, MiddleButton.out_of_mask_button_aborts, Strings.join_defined, Strings.startswith_iff, Strings.basename_spec, Strings.trunkname_spec, Parsers.wheel_click_missing, Lists.empty_iff, Tap.map_set_at_rest, Tap.click_without_finger_swallows_tap, Switch.found_closed_not_reopened, Switch.odd_value_repeats, SendEvents.disabled_mice_keep_touchpad_off, SendEvents.second_switch_unused, SendEvents.Keyboard.enabling_overrides_tablet_mode, SendEvents.Keyboard.keyboard_lost_with_switch, SoftButtons.settings_in_force, SoftButtons.press_seen_once, SoftButtons.release_without_press, SoftButtons.press_without_release, SoftButtons.middle_button_lost, Touch.alps_aborts, Touch.ghost_finger, Touch.synaptics_stuck, Pad.unknown_leds_hide_groups, Backend.PathSeat.Props.add_refused, Backend.PathSeat.Props.resumed_twice_is_doubled, Backend.PathSeat.Props.added_while_suspended_is_doubled, Backend.PathSeat.Props.seat_forgotten, Totem.refused, Pairing.on_not_announced, Pairing.two_switches_crash, Pairing.two_switches_off, Pairing.second_stick_unused, Pairing.typing_twice, Pairing.records_lost, Pairing.found_closed_stays, Pairing.late_touchpad_works, Pairing.keyboard_left_off, Pairing.keyboard_back_on, Clickpad.bug_logged_iff.

**propext, Quot.sound**: MiddleButton.middle_getter_returns_last_set, Scroll.scroll_always_terminated, Scroll.scroll_terminator_exact, Strings.atoi_accepts_exactly_numerals, Strings.numeral_unique, Strings.atou_accepts_numerals, Strings.atou_exact, Strings.atod_accepts_exactly_decimals, Strings.split_returns_exactly_words, Strings.join_split_round_trip, Strings.strip_spec, Strings.endswith_iff, Parsers.wheel_click_range, Parsers.fields_total, Parsers.dimension_iff, Parsers.calibration_iff, Parsers.kv_doubles_iff, Ratelimit.window_results, Ratelimit.at_most_two_bursts, Ratelimit.disabled_passes, Ratelimit.begin_is_windowStart, Time.timeval_round_trip, Time.timeval_round_trip', Time.us2ms_spec, Time.to_us_exact, Time.human_time, Lists.walk_elements, Switch.switch_events_alternate, SendEvents.Keyboard.disabled_is_closed, SendEvents.Keyboard.plain_device_follows_mode, SendEvents.Keyboard.closing_releases, TouchSlots.palm_in_same_frame_sticks, TouchSlots.missed_slot_change_sticks, TouchSlots.one_frame_at_most, TouchSlots.frame_lost, Refs.event_takes, SoftButtons.clicks_reported, SoftButtons.click_events_alternate, SoftButtons.only_three_buttons, SoftButtons.areas_in_force, Touch.landed_on, Touch.fake_said, Config.lock_getter_lags, Motion.no_stop_when_suspended, Motion.no_stop_when_palm, Motion.no_scroll_after_click, Motion.scroll_and_motion_after_method_change, Motion.typing_stops_touchpad, Motion.typing_held, Motion.typing_ends, Motion.only_typing_disables, Motion.shortcut_does_not_disable, Motion.typing_suspends_tapping, Motion.trackpoint_ends, Motion.few_nudges_do_not_disable, Motion.key_held_by_a_removed_keyboard, Motion.modifier_held_by_a_removed_keyboard, Motion.trackpoint_resumes_tapping_while_typing, Tablet.ring_push, Tablet.ring_sum, Tablet.cDiv_four, Pad.pad_buttons_have_their_keys, Events.posted, Events.destroyed, Dispatch.no_fault, Dispatch.no_fault_with_room, Dispatch.no_fault_plain, Dispatch.order, Dispatch.nothing_left, Dispatch.destroy_frees, Dispatch.failed_wait, Dispatch.one_device, Dispatch.slow, Dispatch.suspended, Dispatch.caught_up, Dispatch.freed_twice, Dispatch.resumed_but_not_read, Dispatch.monitor_after_free, Dispatch.suspending_oneself, Tools.tools_are_told, Tools.devices, Tools.serial_sticks, Tools.kind_sticks, Tools.id_sticks, Tools.already_there, Tools.asking_for_a_button, Tools.totems, Tools.late_serial_hidden, Tools.minus_one_inherits, Tools.first_tablet_decides, Tools.foreign_tool_reads_nothing, Tools.art_pen_reads_nothing, Tools.lone_tilt_reads_nothing, Tools.puck_turns_anyway, Hand.hand_ignored, Hand.moving_pen_silent, Hand.edge_too_wide, Hand.lift_not_delayed, Hand.upright_sticks, Hand.single_touch_not_ignored, Log.message_heard, Log.limited_at_most, Log.limited_heard, Log.in_range_silent, Log.out_of_range_logged, Log.range_warning_heard, Log.range_warnings_at_most, Log.burst_of_one_never_says, Leds.others_untouched.

**propext, Classical.choice, Quot.sound**: EventQueue.event_queue_refines_fifo, EventQueue.event_queue_delivers_in_order, EventQueue.event_queue_conserves, EventQueue.next_type_predicts_get, Buttons.seat_count_is_devices_holding, Buttons.seat_events_alternate, Buttons.seat_count_zero_iff_none_left, Mouse.pointer_buttons_alternate, Buttons.device_events_alternate, Buttons.device_held_iff_more_presses, Buttons.device_run_survives_iff, Mouse.suspend_releases_everything, Mouse.left_handed_never_splits_click, Mouse.keyboard_keys_alternate, Mouse.keyboard_keys_faithful, Mouse.careful_keys_faithful, Mouse.careful_history_survives, Mouse.careful_history_rests, Mouse.wheel_reported_unless_middle_held, Debounce.debounced_edges_alternate, Debounce.debounce_converges, Debounce.debounce_no_internal_error, Debounce.debounce_delay_bounded, Debounce.debounce_timestamps, Debounce.clean_press_is_immediate, MiddleButton.middle_events_alternate_no_abort, MiddleButton.middle_all_up_nothing_held, MiddleButton.middle_other_buttons_untouched, MiddleButton.middle_setting_deferred, MiddleButton.middle_setting_in_effect_at_rest, MiddleButton.chord_is_one_middle_click, MiddleButton.short_click_reported, MiddleButton.long_press_reported, ButtonScroll.button_scroll_click_or_scroll, ButtonScroll.button_scroll_never_both, ButtonScroll.button_scroll_lock, Strings.atou_truncates, Strings.atou_accepts_negative, Parsers.wheel_click_undefined, Parsers.evdev_abs_values, Parsers.dpi_zero_or_positive, Parsers.dpi_list, Parsers.dpi_garbage, Parsers.range_iff, Parsers.dimension_truncates, Parsers.evcodes_iff, Parsers.input_props_iff, Parsers.reliability_iff, Versionsort.cmp_zero_iff, Versionsort.cmp_antisymm, Versionsort.cmp_trans, Versionsort.cmp_total, Versionsort.numbers_in_order, Lists.lists_refine, Lists.lists_refine_run, Lists.sweep_filters, Timer.timer_fires_only_when_due, Timer.kernel_timer_is_earliest, Timer.nothing_due_after_flush, Timer.timers_never_abort, Timer.flush_terminates, Timer.list_is_armed, Timer.rearming_never_ends, Tap.tap_buttons_alternate, Tap.one_button_at_a_time, Tap.held_button_has_cause, Tap.timer_releases, Tap.nothing_stuck, Tap.no_bug_no_fault, Tap.tap_clicks, Tap.no_drag_when_off, Tap.turning_off_releases, Tap.silent_until_new_touch, Switch.switch_state_reported, Switch.typing_reopens_once, SendEvents.touchpad_suspended_iff, SendEvents.disabled_is_suspended, SendEvents.external_touchpad_follows_mode, SendEvents.set_mode_status, SendEvents.suspending_releases, SendEvents.Keyboard.keyboard_open_iff, TouchSlots.touches_well_formed, TouchSlots.seat_slots_unique, TouchSlots.suspend_ends_touches, TouchSlots.down_has_contact, TouchSlots.contact_is_down, TouchSlots.arbitration_silences, TouchSlots.frame_follows, Hysteresis.inside_unchanged, Hysteresis.outside_dragged, Hysteresis.reported_near_finger, Hysteresis.path_follows_finger, Hysteresis.path_rests, Hysteresis.far_jump_overflows, Refs.alive_iff_reachable, Refs.device_alive_iff, Refs.destroy_releases, Refs.context_frees_all, Refs.tool_outlives_tablet, Refs.mode_group_outlives_pad, SoftButtons.clicking_and_tapping_survive, SoftButtons.press_button, SoftButtons.press_button_by_position, SoftButtons.finger_counts, SoftButtons.finger_on_top, SoftButtons.finger_crossed_top, SoftButtons.finger_left_top, SoftButtons.finger_forgotten, SoftButtons.finger_returned, SoftButtons.click_waits, Touch.touches_live, Touch.never_confused, Touch.fingers_counted, Touch.all_cleared, Touch.never_aborts, Touch.slots_followed, Touch.extra_touches_followed, Touch.buttons_count, Touch.size_decides, Touch.pressure_decides, Touch.pressure_extra, Touch.values_heard, Touch.extra_touches_topmost, Touch.tap_histories, Touch.button_histories, Config.calls_never_crash, Config.call_succeeds_iff, Config.failed_call_changes_nothing, Config.getter_follows_history, Config.lock_follows_history, Config.set_then_get, Config.default_is_first_value, Config.queries_agree, Config.tablet_speed_is_zero, Config.default_not_supported, Motion.gestures_well_formed, Motion.gestures_end, Motion.gestures_end_when_cleared, Motion.gesture_fingers, Motion.lifting_completes, Motion.fingers_back, Motion.gesture_fingers_down, Motion.motion_of_fingers, Motion.only_frames, Motion.edge_scrolling_ordered, Motion.edge_scrolling_terminated, Motion.edge_scrolling_stops_typing, Motion.edge_scroll_where, Motion.edge_scroll_needs_landing, Motion.edge_scroll_threshold, Motion.edge_scroll_no_motion, Motion.trackpoint_stops_touchpad, Motion.touch_while_typing_ignored, Motion.touch_while_trackpoint_ignored, Motion.heavy_touch_ignored, Motion.heavy_touch_still, Motion.big_touch_ignored, Motion.touch_near_pen_ignored, Motion.tool_palm_ignored, Motion.edge_palm_ignored, Motion.edge_palm_released, Motion.finger_is_no_palm, Tablet.inside_proximity, Tablet.leaves_clean, Tablet.pens_terminate, Tablet.stream_makes_sense, Tablet.tool_comes, Tablet.tool_goes, Tablet.eraser_never_leaves, Tablet.eraser_lost, Tablet.lost_after_resume, Tablet.puck_kills_pen, Tablet.puck_hangs, Tablet.tip_up_out_of_nowhere, Tablet.leaves_with_tip_down, Tablet.release_without_press, Tablet.tool_changes_identity, Tablet.touch_ignored, Tablet.touch_listens, Tablet.touchpad_wakes_up, Tablet.next_touch_not_told, Tablet.first_touch_forgotten, Tablet.values_in_range, Tablet.plainTilt_bound, Tablet.puckAngle_bound, Tablet.quirk_breaks_pressure, Tablet.shared_pen_breaks_pressure, Tablet.unseen_pen_at_zero, Tablet.tip_follows_pressure, Tablet.tip_at_thresholds, Tablet.tip_without_distance, Tablet.tip_however_worn, Tablet.down_needs_pressure, Tablet.full_feels, Tablet.same_pressure_is_missed, Tablet.noise_hides_contact, Pad.pad_buttons_alternate, Pad.pad_buttons_follow_the_kernel, Pad.pad_suspends_with_nothing_down, Pad.pad_events_fit, Pad.pad_modes_change_at_switches, Pad.pad_starts_in_the_mode_shown, Pad.pad_buttons_have_one_group, Pad.pad_groups_are_numbered, Pad.pad_assertions_hold, Pad.pad_positions, Pad.pad_hand_changes_with_nothing_down, Pad.second_ring_alone_aborts, Pad.unlisted_strip_aborts, Pad.codeless_buttons_shift_groups, Pad.disabled_pad_sends_events, Pad.finger_leaves_unnoticed, Pad.finger_comes_unnoticed, Accel.movement_is_scaled, Accel.filters_run, Accel.higher_speed_is_not_slower, Accel.movement_keeps_direction, Accel.constant_is_constant, Accel.resolution_matters, Accel.slowest_pen_stands_still, Accel.x230_loses_movement, Accel.velocity_is_determined, Accel.time_is_positive, Accel.straight_on_is_alike, Accel.going_back_is_a_turn, Accel.steady_movement, Accel.turns_and_pauses_forget, Accel.restart_forgets, Accel.first_movement_after_restart_remembers, Coords.devices_run, Coords.reports_tell_movements, Coords.points_are_calibrated, Coords.settings_are_told, Coords.screen_position, Coords.screen_range, Coords.mm_range, Coords.turns, Coords.upside_down_leaves_screen, Quirks.file_accepted, Quirks.file_refused, Quirks.file_robust, Quirks.file_meaning_unique, Quirks.long_comment_has_effect, Quirks.hex_id_is_cut, Quirks.data_accepted, Quirks.device_gets_last_value, Quirks.quirks_have_their_types, Quirks.file_order_unique, Quirks.empty_name_is_a_quote, Quirks.Life.quirks_lifetime, Quirks.Life.libinput_frees_quirks, Backend.Props.device_events, Backend.Props.no_duplicates_on_a_seat, Backend.Props.devices_are_those_of_udev, Backend.Props.devices_follow_udev, Backend.Props.no_devices_while_suspended, Backend.Props.suspend_removes_all, Backend.Props.seat_of_new_devices, Backend.Props.change_of_seat, Backend.Props.assign_refused, Backend.Props.resume_again, Backend.Props.resume_listens, Backend.Props.resume_fails, Backend.Props.no_crash, Backend.Props.moved_too_early_is_doubled, Backend.Props.moved_while_suspended_is_doubled, Backend.Props.lost_while_moving, Backend.Props.doubled_for_a_while, Backend.Props.suspend_after_filter_failure_crashes, Backend.PathSeat.Props.device_events, Backend.PathSeat.Props.add_path, Backend.PathSeat.Props.remove_device, Backend.PathSeat.Props.suspend_removes_all, Backend.PathSeat.Props.change_of_seat, Backend.PathSeat.Props.one_device_each, Backend.PathSeat.Props.suspend_resume, Backend.PathSeat.Props.removed_with_old_device, Totem.starts, Totem.no_crash, Totem.start_events, Totem.report_events, Totem.angles, Totem.well_formed, Totem.button_alternates, Totem.button_current, Totem.suspend_ends, Totem.touch_free, Totem.touch_ignores, Totem.touch_below, Totem.touch_taken, Totem.brief_totem_crashes, Totem.brief_totem_goes_only, Totem.resumed_totem_never_comes, Totem.lifted_while_suspended_still_ignored, Totem.suspended_twice, Totem.released_in_the_air, Totem.pressed_in_the_air, Totem.size_not_a_number, Totem.stale_slot, Events.tells, Events.conversions, Events.source_of_other_events, Devices.seen_unique, Devices.device_iff, Devices.device_role, Devices.file_once, Devices.device_axes, Devices.device_size, Devices.device_marks, Devices.touchpad_place, Devices.device_buttons, Devices.device_touches, Devices.device_switches, Devices.device_capabilities, Devices.mouse_speed, Devices.wheel_angles, Devices.wheel_nonzero, Devices.mt_fuzz_kept, Devices.size_hint_zero, Dispatch.round, Dispatch.all_reported, Dispatch.resumed_ok, Follow.follows, Follow.turns_only_without_fingers, Follow.fingers_change_without_motion, Follow.no_jump, Follow.no_sudden_jump, Follow.no_jump_after_missing, Follow.wrong_position_ignored, Follow.silence_before_motion, Follow.jitter_stays, Follow.jitter_of_one_finger, Follow.one_way_is_not_jitter, Follow.click_without_motion, Follow.click_holds, Follow.click_releases, Follow.restarts, Follow.slow_is_not_fast, Follow.fast_is_counted, Follow.regular_timestamps_taken_for_missing, Follow.turned_touchpad_jumps, Follow.standing_still_taken_for_jitter, Follow.no_jump_at_first, Follow.jitter_smoothed, Tools.right_tool, Tools.recognised, Tools.one_per_tablet, Tools.never_mixed_up, Tools.serial_is_told, Tools.what_it_can_do, Tools.thresholds, Tools.no_more_than_the_tablet, Tools.size_of_totems_only, Tools.answers, Tools.reads_only_what_exists, Pairing.never_crashes, Pairing.partners_present, Pairing.listeners_present, Pairing.typing_heard, Pairing.typing_only, Pairing.stick_heard, Pairing.stick_only, Pairing.touchpad_off, Pairing.touchpad_on, Pairing.touchpad_tablet, Pairing.lid_followed, Pairing.typing_opens, Pairing.tablet_followed, Pairing.disabled_stays_off, Pairing.tablet_finds_touch, Pairing.tablet_finds_turned, Pairing.touchpad_finds_tablet, Hand.area_exact, Hand.hand_only, Hand.covered_not_heard, Hand.finger_heard, Hand.finger_ignored, Hand.pen_arrives, Zones.bottom_buttons, Zones.which_button, Zones.top_buttons, Zones.palm_strips, Zones.no_strips, Zones.scroll_edges, Zones.thumb_lines, Zones.hysteresis_margins, Zones.middle_free, Zones.assumed_size, Zones.assumed_size_has_strips, Ways.same_way_scrolls, Ways.contrary_ways_pinch, Ways.palm_leaves_side, Ways.palm_leaves_top, Ways.slow_pinch_scrolls, Pinch.scale_is_distance, Pinch.turns_add_up, Pinch.moves_add_up, Pinch.event_iff_moved, Together.middle_followed, Together.one_report, Together.resting_fingers, Together.constant_multiplies, Axis.one_axis_at_most, Axis.free_stays_free, Axis.upright_stays, Axis.level_stays, Axis.diagonal_free, Axis.diagonal_breaks_out, Axis.level_taken, Axis.upright_taken, Axis.upright_to_level, Axis.level_to_upright, Axis.long_diagonal_frees, Axis.turning_round_is_lost, Bits.remembered, Bits.any_held, Bits.pressed_told, Bits.released_told, Bits.forced_told, Leds.last_update_shines, Leds.one_report, TwoFinger.scrolls_up, TwoFinger.scrolls_sideways, TwoFinger.scrolls_diagonally, TwoFinger.whole_way_up, TwoFinger.whole_way_sideways, TwoFinger.whole_way_diagonally, Clickpad.areas_iff, Clickpad.clickfinger_iff, Clickpad.methods_told, Clickpad.default_method, Clickpad.right_click_possible, Clickpad.right_button_no_areas, Clickpad.middle_iff, Clickpad.default_refused, PadButtons.changes_told, PadButtons.aborts_iff, PadButtons.caller_knows, PadButtons.wish_granted, PadButtons.released_together_aborts.

**propext,  Classical.choice,  Quot.sound**: Backend.Props.resume_after_filter_failure_does_nothing.
