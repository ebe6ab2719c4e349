{"id": "C01", "title": "Event queue is a lossless FIFO", "statement": "libinput_get_event() returns the queued events in exactly the order in which they were queued, each exactly once, and NULL exactly when no queued event is left; libinput_next_event_type() reports the type of the event the next libinput_get_event() returns. When growing the queue fails for lack of memory the one event being queued is dropped and every event already queued is still delivered in order.", "quantifier": "every interleaving of queueing and reading, every queue length, every wrap position of the ring and every pattern of allocation failure", "why_tests_cant": "The ring wraps and doubles; the wrong-copy bugs only show for particular in/out offsets at particular sizes, an unbounded family.", "anchors": ["src/libinput.c: libinput_post_event, libinput_get_event, libinput_next_event_type, libinput_init"]}
{"id": "C02", "title": "Seat-wide button count", "statement": "The seat button count carried by every button event equals the number of presses minus the number of matched releases of that button code reported so far on the whole seat (all devices together), and a release never makes it negative.", "quantifier": "every sequence of button and key notifications from any number of devices on one seat", "why_tests_cant": "Depends on the whole history of all devices on the seat.", "anchors": ["src/libinput.c: update_seat_button_count, update_seat_key_count, pointer_notify_button, keyboard_notify_key"]}
{"id": "C03", "title": "Pointer buttons alternate press/release per device", "statement": "For each device and each button code the POINTER_BUTTON events sent to the caller strictly alternate pressed, released, pressed, ... starting with pressed: never two presses in a row, never a release of a button that is not down.", "quantifier": "every sequence of physical button changes, debounce, middle-button and scroll timers, configuration changes and suspends, on any device handled by the mouse/keyboard path", "why_tests_cant": "The stages (debounce, left-handed mapping, middle-button emulation, button scrolling, use counting) interact; the interleavings are unbounded.", "anchors": ["src/evdev.c: evdev_update_key_down_count, evdev_pointer_post_button, evdev_pointer_notify_button, evdev_pointer_notify_physical_button", "src/evdev-debounce.c", "src/evdev-middle-button.c"]}
{"id": "C04", "title": "Debouncing converges to the physical state", "statement": "Whatever sequence of bounces a mouse button produces, once the button stops changing and the pending debounce timers have fired, the button state last reported to the caller equals the physical state, and while bouncing each press reported is followed by a release before the next press.", "quantifier": "every sequence of frames of physical press/release, up to 16 buttons changing in one frame, and every admissible firing of the two debounce timers (with a 17th changing button the property fails, see the theorem)", "why_tests_cant": "Unbounded histories and timer schedules; a state machine of nine states with two timers.", "anchors": ["src/evdev-debounce.c: fallback_debounce_handle_state, debounce_handle_event, debounce_*_handle_event"]}
{"id": "C05", "title": "Debouncing delays at most one timeout and never reorders or back-dates", "statement": "A press or release reported after debouncing carries the timestamp of the physical change it reports, and is reported no later than the debounce timeout (25 ms; 12 ms for the short one) after that change.", "quantifier": "every button history and timer schedule in which timers fire no earlier than they are due", "why_tests_cant": "A timing bound over all schedules.", "anchors": ["src/evdev-debounce.c: DEBOUNCE_TIMEOUT_BOUNCE, DEBOUNCE_TIMEOUT_SPURIOUS, debounce_notify_button, debounce_set_timer"]}
{"id": "C06", "title": "Middle-button emulation never loses a release", "statement": "With middle-button emulation, the sequence of logical left/right/middle events alternates press/release per button, and whenever no physical button is held no emulated button is reported as held.", "quantifier": "every sequence of physical button events (each button alternating down/up), timeouts and configuration changes, except switching emulation on while a button is held, for which the property fails, see the theorem", "why_tests_cant": "Ten-state machine with a timer; all histories.", "anchors": ["src/evdev-middle-button.c: evdev_middlebutton_filter_button, evdev_middlebutton_handle_event, evdev_middlebutton_handle_timeout"]}
{"id": "C07", "title": "Middle-button emulation configuration takes effect only with all buttons up", "statement": "Changing middle-button emulation while emulation is in effect and buttons are held takes effect only once all buttons are released, so a press is always released under the mapping it was pressed under; with no button held the last setting is in effect; the configured value is reported at once by the getter. (Switching emulation on while a button is held is not deferred and can leave a button stuck: shown.)", "quantifier": "every interleaving of configuration calls and button events", "why_tests_cant": "Any interleaving of API calls with hardware events.", "anchors": ["src/evdev-middle-button.c: evdev_middlebutton_apply_config, evdev_middlebutton_set, evdev_middlebutton_get"]}
{"id": "C08", "title": "Simultaneous left+right gives exactly one middle click", "statement": "Pressing left and right within the emulation timeout reports exactly one middle press and no left or right press, and releasing both reports exactly one middle release; pressing one button alone reports that button, after at most the timeout.", "quantifier": "every order and timing of left/right press and release", "why_tests_cant": "All orders and all timings, including timers racing the second press.", "anchors": ["src/evdev-middle-button.c: evdev_middlebutton_idle_handle_event, evdev_middlebutton_ldown_handle_event, evdev_middlebutton_rdown_handle_event, evdev_middlebutton_middle_handle_event"]}
{"id": "C09", "title": "On-button scrolling: click or scroll, never both, never a stuck button", "statement": "When the configured scroll button is pressed and released with no pointer motion after the scroll timeout, the caller gets exactly a press (with the press time) and a release; with such motion the caller gets no button event, but the scroll events of the motion past the threshold and the scroll-stop event for them. With the button lock enabled the same holds for the logical (locked) button. (Motion below the threshold therefore loses the click: shown.)", "quantifier": "every sequence of scroll-button presses, releases, motions and timeouts, with and without lock", "why_tests_cant": "Two coupled state machines with a timer over unbounded histories.", "anchors": ["src/evdev.c: evdev_button_scroll_button, evdev_button_scroll_timeout, evdev_pointer_notify_button, post_trackpoint_scroll"]}
{"id": "C10", "title": "Suspend and removal leave nothing pressed", "statement": "When a mouse or keyboard is suspended or removed, every key and button reported as down on it is reported released before the device goes away, without aborting the process. This fails for a left-handed device with its left or right button held (the process aborts), and where a physical middle button and an emulated one are held together (it and the higher codes stay pressed): both are shown.", "quantifier": "every moment of every history of a right-handed device on which settings are changed with care (see C37) and middle-button emulation is not mixed with a physical middle button", "why_tests_cant": "Any history may precede the suspend.", "anchors": ["src/evdev-fallback.c: release_pressed_keys, release_touches, fallback_return_to_neutral_state, fallback_interface_suspend"]}
{"id": "C11", "title": "Left-handed switch never splits a click", "statement": "A button release is reported with the same button code as the press it ends, no matter when during the press the left-handed setting is changed; the change takes effect once no button is held. Two races break this (shown): the setting is changed within the debounce time after a button went up; or it is changed with two buttons held that are then released within the debounce time of each other.", "quantifier": "every interleaving of left-handed configuration calls with button events and debounce timers, outside of these two races, on a mouse without middle-button emulation and on-button scrolling", "why_tests_cant": "Races between API calls and timers.", "anchors": ["src/evdev.h: evdev_to_left_handed", "src/evdev-fallback.c: fallback_change_to_left_handed", "src/evdev-debounce.c: debounce_notify_button"]}
{"id": "C12", "title": "Touch slots are unique seat-wide and touch sequences are well formed", "statement": "At any time two touches that are down on a seat, on any devices, have different seat slots (0 to 31); a touch comes down only if it was not down and gets the lowest seat slot not in use; motion, up and cancel events are only sent for touches that are down and carry their seat slot. Suspending or removing a device ends all its touches; while pen arbitration ignores a touchscreen it has no touch down and sends nothing. A touch that is down had a contact in its slot at the last hardware frame, and conversely without palms and arbitration every contact is shown down until the seat's 32 slots have run out.", "quantifier": "every sequence of kernel touch events, palm and arbitration decisions and suspends on any number of touch devices of a seat; for the tie to contacts: histories without arbitration of the whole touchscreen in which no slot's contact ends and the next begins within one hardware frame (without these conditions a touch can stay down for ever, which is shown)", "why_tests_cant": "Unbounded histories across devices sharing one slot bitmap.", "anchors": ["src/evdev-fallback.c: fallback_process_touch, fallback_flush_mt_events, fallback_flush_mt_down, fallback_flush_mt_motion, fallback_flush_mt_up, fallback_flush_mt_cancel, fallback_flush_st_down, fallback_flush_st_up, fallback_flush_st_cancel, cancel_touches, fallback_interface_toggle_touch"]}
{"id": "C13", "title": "Touch events are terminated by a touch frame", "statement": "What one hardware frame, suspend or arbitration change makes libinput send is a group of touch events of that device followed by at most one TOUCH_FRAME, and never a frame without touch events. The frame is there for every device without slots, for every group of cancel events, and for a hardware frame of a slotted device whenever the highest slot with changes in it is among the touches that get an event. (In the remaining case, when that slot's motion is swallowed, the frame is missing, which is shown.)", "quantifier": "every history of touch devices and every hardware frame with any set of changed slots", "why_tests_cant": "Any combination of slots in a frame.", "anchors": ["src/evdev-fallback.c: fallback_flush_mt_events, fallback_handle_state, cancel_touches"]}
{"id": "C14", "title": "Timers fire exactly once, never early, and the wakeup is never late", "statement": "A timer callback runs only if the timer was armed and its expiry time has passed; it runs once per arming; cancelling before that prevents it; and the kernel timer is always armed for the earliest pending expiry (disarmed when none); after a flush or wakeup no due timer is left; and a flush ends as long as callbacks arm timers for later times only (one that re-arms itself for a time already reached is shown to be called for ever).", "quantifier": "every sequence of set, cancel, flush and wakeup operations, including timers set and cancelled from callbacks", "why_tests_cant": "The handler restarts its list walk after each callback because callbacks mutate the list; all mutation patterns matter.", "anchors": ["src/timer.c: libinput_timer_set_flags, libinput_timer_cancel, libinput_timer_handler, libinput_timer_flush, libinput_timer_arm_timer_fd"]}
{"id": "C15", "title": "Tap-to-click buttons alternate and are never stuck", "statement": "The button events produced by tap-to-click alternate press/release per button, at most one tap button is held at a time, and in every state in which a button is held either a finger is down or a timer is pending whose expiry releases it.", "quantifier": "every sequence of touch, motion, release, thumb, palm, button and timeout events on any number of fingers", "why_tests_cant": "29-state machine, all histories.", "anchors": ["src/evdev-mt-touchpad-tap.c: tp_tap_handle_event, tp_tap_*_handle_event, tp_tap_notify"]}
{"id": "C16", "title": "Tap finger count selects the button and drag/lock settings are honoured", "statement": "A tap with n fingers (1..3) produces button n of the tap button map in force when the tap began; changing the map or tapping setting never changes the button of a tap in progress; with drag disabled a tap is released at once and no drag starts. Exception, shown: a clickpad press while no finger is on the pad makes the next tap be ignored.", "quantifier": "every tap sequence (fingers put down, then lifted, over any number of frames) and every interleaved configuration change", "why_tests_cant": "Interleavings of API calls and touches.", "anchors": ["src/evdev-mt-touchpad-tap.c: tp_tap_notify, tp_tap_update_map, tp_tap_config_set_map, tp_tap_enabled_update"]}
{"id": "C17", "title": "Disabling tap or suspending the touchpad releases tap buttons", "statement": "Disabling tapping, or suspending or removing the touchpad, immediately releases any button held by tap-to-click and afterwards no further tap event is produced until new touches arrive.", "quantifier": "every tap state at the time of the call", "why_tests_cant": "All reachable states times the call.", "anchors": ["src/evdev-mt-touchpad-tap.c: tp_release_all_taps, tp_tap_suspend, tp_tap_enabled_update, tp_remove_tap"]}
{"id": "C18", "title": "Keyboard keys alternate, repeats are ignored", "statement": "Per keyboard device and key code, KEYBOARD_KEY events alternate pressed/released; kernel autorepeat (value 2) and repeated press/release of the same state never reach the caller; and on a keyboard exactly the keys that are down are reported down at any time.", "quantifier": "every sequence of kernel key events, suspends and configuration calls", "why_tests_cant": "Unbounded histories.", "anchors": ["src/evdev-fallback.c: fallback_process_key, fallback_keyboard_notify_key, hw_set_key_down"]}
{"id": "C19", "title": "Switch events only report changes", "statement": "The SWITCH_TOGGLE events of one switch of a device alternate, beginning with on (for switch values 0 and 1; other values of the tablet-mode switch repeat events, shown), and the last one is the state the switch reported last; a lid found closed when the device is added is reported only if the switch is reliable. While a lid that is not reliable says it is closed, the first key typed on a paired internal keyboard reopens it: exactly one off event, before that key's own event; further keys do nothing until the switch reports closed again. A reliable lid found closed at start is not reopened by typing (shown).", "quantifier": "every sequence of switch values, keyboard events and keyboards coming and going", "why_tests_cant": "Unbounded histories.", "anchors": ["src/evdev-fallback.c: fallback_process_switch, fallback_lid_notify_toggle, fallback_lid_keyboard_event, fallback_interface_sync_initial_state, fallback_lid_pair_keyboard"]}
{"id": "C20", "title": "Mouse wheel click properties are in range", "statement": "Parsing a wheel click angle or count property yields 0 or exactly the integer the whole string spells, and then its magnitude is at most 360; every integer of magnitude up to 360 is returned. The only inputs for which the behaviour is undefined are the spellings of -2147483648 (shown).", "quantifier": "every property string", "why_tests_cant": "All strings.", "anchors": ["src/util-prop-parsers.c: parse_mouse_wheel_click_angle_property, parse_mouse_wheel_click_count_property"]}
{"id": "C21", "title": "Number parsing accepts exactly the numerals", "statement": "Parsing a string as a signed integer succeeds exactly if the whole string is one numeral in the base whose value fits a signed 32-bit integer, and then yields that value; parsing as a decimal number succeeds exactly for strings of an optional sign and digits with at most one dot. Parsing as unsigned accepts every non-negative numeral that fits with its value and nothing that is not a numeral; numerals that do not fit may be accepted with their value modulo 2^32 (shown, with the exact condition).", "quantifier": "every string, bases 8, 10 and 16", "why_tests_cant": "All strings; overflow corner cases.", "anchors": ["src/util-strings.h: safe_atoi_base, safe_atou_base, safe_atod"]}
{"id": "C22", "title": "Tokenizer returns exactly the maximal separator-free words", "statement": "Splitting a string at a set of separator characters returns, in order, exactly the maximal non-empty runs of non-separator characters; joining with a single-character joiner that is a separator and splitting again gives the same words.", "quantifier": "every string and every separator set", "why_tests_cant": "All strings.", "anchors": ["src/util-strings.c: next_word, strv_from_string, strv_join"]}
{"id": "C23", "title": "EVDEV_ABS property parser: every value set is the value written", "statement": "Parsing min:max:res:fuzz:flat sets bit i of the result mask exactly when the i-th colon-separated field, among the first five, is a non-empty numeral, and then the i-th output value is that numeral; any malformed field among the first five, or a string longer than 24 bytes, yields mask 0.", "quantifier": "every property string", "why_tests_cant": "All strings.", "anchors": ["src/util-prop-parsers.c: parse_evdev_abs_prop"]}
{"id": "C24", "title": "DPI, dimension and range parsers return only valid values", "statement": "The mouse DPI parser returns 0 or a strictly positive number spelled in the string; on a well-formed list it returns the first entry marked as default, else the last, provided all entries up to it are positive, and 0 otherwise; it returns 0 for a list followed by garbage. The dimension parser succeeds exactly on two strictly positive numbers around an x. The range parser succeeds exactly on 'none' (0/0) or on two numbers around a colon, the first strictly greater. Numbers beyond 32 bits are converted as the C library does (shown to give other values).", "quantifier": "every property string", "why_tests_cant": "All strings.", "anchors": ["src/util-prop-parsers.c: parse_mouse_dpi_property, parse_dimension_property, parse_range_property"]}
{"id": "C25", "title": "Version sort is a consistent order", "statement": "The comparison used to order quirks files is reflexive, antisymmetric in sign, transitive and total, and compares equal only identical names, so the load order of quirks files is well defined; where two names agree up to a number without leading zeros, the one with the smaller number comes first.", "quantifier": "every pair and triple of strings of bytes 1 to 255", "why_tests_cant": "All triples of strings.", "anchors": ["src/libinput-versionsort.h: strverscmp"]}
{"id": "C26", "title": "Log rate limiting", "statement": "In any rate-limit window (which starts with the first message after the previous window has passed) exactly the first `burst` messages are let through, the last of these is flagged as hitting the threshold if burst is more than one, later ones in the window are suppressed, and logging resumes once the window has passed. Any stretch of time no longer than the interval sees at most 2*burst messages. A zero interval or burst disables the limit.", "quantifier": "every sequence of log attempts at nondecreasing times, every burst and interval", "why_tests_cant": "All time sequences.", "anchors": ["src/util-ratelimit.c: ratelimit_init, ratelimit_test"]}
{"id": "C27", "title": "Time conversions", "statement": "Converting a microsecond timestamp to a timeval and back is the identity; millisecond accessors return the microsecond timestamp divided by 1000 modulo 2^32. Every time has a human-readable form whose number is the time in the unit shown, rounded down and never truncated, in the smallest unit whose number is below that unit's limit.", "quantifier": "every 64-bit timestamp", "why_tests_cant": "2^64 values and wrap-around.", "anchors": ["src/util-time.h: us2tv, tv2us, us2ms, ms2us, s2us"]}
{"id": "C28", "title": "Intrusive lists behave like sequences", "statement": "Inserting at head, appending at tail and removing an element of an intrusive list changes the sequence of elements exactly as the same operation on an abstract sequence, leaves all other lists alone; misuse (inserting an element that is in use, inserting into an uninitialised list, removing a detached element) is caught by an abort; iterating visits exactly the elements in order, also when elements are removed while iterating safely.", "quantifier": "every heap of lists and every operation sequence", "why_tests_cant": "All pointer configurations.", "anchors": ["src/util-list.c: list_init, list_insert, list_append, list_remove, list_empty", "src/util-list.h"]}
{"id": "C29", "title": "Configuration setters validate and round-trip", "statement": "After any history of configuration calls a libinput_device_config_*_set call returns success exactly if its value is documented for the option and the device supports it (switching off what a device does not have succeeds); it returns invalid only for values that are not documented and unsupported only for values that are not supported, and a call that does not succeed changes nothing. A getter returns the value most recently set successfully, whatever else was configured since, or else the documented default; any non-zero flag reads as 1, and disabled together with disabled-on-external-mouse reads as disabled. The get_default calls return the first value for ever, and the calls that ask what is available say exactly what the setters accept. No call crashes. Exceptions, which are shown: on graphics tablets and totems the getter of the pointer speed returns 0 for ever although the setter succeeds; the getter of the scroll button lock returns a value set while a button is down only once no button is down; on some touchpads the default click method is one the setter refuses.", "quantifier": "every combination of device features, every sequence of calls with every argument value, including values outside the enum, NaN and infinities, with and without buttons held down", "why_tests_cant": "All argument values times all device features times all histories.", "anchors": ["src/libinput.c: libinput_device_config_*", "src/evdev.c: evdev_configure_device, evdev_init_*, evdev_*_config_*", "src/evdev-mt-touchpad.c: tp_scroll_config_*, tp_dwt_config_*, tp_sendevents_*, tp_accel_config_*", "src/evdev-mt-touchpad-tap.c: tp_tap_config_*", "src/evdev-mt-touchpad-buttons.c: tp_button_config_*", "src/filter.c: filter_set_speed", "src/filter-tablet.c: tablet_accelerator_set_speed"]}
{"id": "C30", "title": "Reference counting: nothing is freed while it is held, and nothing is left when it is not", "statement": "Seats, devices, device groups, tablet tools, pad mode groups and events exist exactly as long as they are held: by the context (a device added and not removed, a tool with a serial number, a seat of the path backend), by an unread event, by an event the caller has not destroyed, by a reference of the caller, or by another object that exists. A device is destroyed exactly when it has been removed, no event about it is left and the caller has given up its references. An event takes one reference to its device and one to its tool or mode group, and destroying it releases exactly those. Dropping the last reference to the context while the caller holds nothing frees every object. None of this runs into an assertion or uses freed memory, provided the caller gives up its references to a tablet's tools and a pad's mode groups before the device goes; otherwise freed memory is written to, which is shown.", "quantifier": "every interleaving of adding and removing devices, suspending, events of every kind, reading and destroying events, taking and giving up references, on both backends; fewer than 2^31 references to one object", "why_tests_cant": "All interleavings of holders; a missing or an extra reference shows only in the one order that exposes it.", "anchors": ["src/libinput.c: libinput_device_ref, libinput_device_unref, libinput_seat_unref, libinput_device_group_unref, libinput_tablet_tool_unref, libinput_tablet_pad_mode_group_unref, libinput_event_destroy, libinput_post_event, libinput_unref", "src/evdev.c: evdev_device_create, evdev_device_remove, evdev_device_destroy, evdev_set_device_group", "src/evdev-tablet.c: tablet_get_tool, tablet_destroy", "src/path-seat.c: path_device_enable, path_disable_device, path_input_disable", "src/udev-seat.c: device_added, device_removed, udev_input_remove_devices"]}
{"id": "C31", "title": "Clickpad software buttons: one physical click gives one matched press/release of the right button", "statement": "On a clickpad each physical press yields at most one button press, and the release then reports the same button to the same device. The button is chosen from what every finger counts as in that frame and from the settings in force: the bottom button a finger is on as long as it never left the bottom buttons; the top button it is on, or left less than 300 ms ago after settling there (100 ms or a click); else the main area; with the clickfinger method the number of fingers decides. A press goes to the trackpoint exactly if one is paired and a finger counts as being on a top button. A click with no finger that counts is held back over any number of frames, reported in the first frame in which a finger counts, and dropped if released first. Settings asked for while the button is down take effect after it is up. Together with tapping the button counts never run below zero or overflow. Exceptions, which are shown: a trackpoint that comes or goes while the touchpad is suspended and clicked loses the release or invents one.", "quantifier": "every sequence of clickpad press/release, finger positions, timers, configuration changes, suspending and resuming, trackpoints coming and going; every geometry", "why_tests_cant": "All histories of per-finger state machines with timers, times all configuration changes.", "anchors": ["src/evdev-mt-touchpad-buttons.c: tp_post_clickpadbutton_buttons, tp_notify_clickpadbutton, tp_button_handle_event, tp_button_handle_state, tp_clickfinger_set_button, tp_clickpad_middlebutton_apply_config, tp_button_config_click_set_method", "src/evdev-mt-touchpad.c: tp_clear_state, tp_suspend, tp_resume, tp_change_to_left_handed"]}
{"id": "C32", "title": "Motion hysteresis never lets the reported point stray from the finger", "statement": "With hysteresis the reported position equals the previous one while the finger stays within the ellipse of the margins around it; otherwise it is dragged along the line to the finger so that the finger is on the ellipse's edge (up to less than one unit of rounding), it never overshoots the finger, and on each axis it is never farther from the finger than the margin.", "quantifier": "every finger path within a box of 2^15 units and every margin up to 46340 (with a jump of 46341 units the computation overflows, which is shown); floating point taken as exact", "why_tests_cant": "All coordinates.", "anchors": ["src/evdev.h: evdev_hysteresis", "src/evdev-mt-touchpad.c: tp_motion_hysteresis"]}
{"id": "C33", "title": "Scroll sequences are always terminated", "statement": "For continuous scroll sources every axis on which a non-zero scroll value was sent gets a terminating zero event when the scroll ends; except on touchpads, whose start threshold is 0, none is sent for an axis without a preceding scroll.", "quantifier": "every sequence of scroll deltas and stops", "why_tests_cant": "All delta sequences.", "anchors": ["src/evdev.c: evdev_post_scroll, evdev_stop_scroll, evdev_notify_axis"]}
{"id": "C34", "title": "Send-events mode decides whether a device is suspended", "statement": "libinput_device_config_send_events_set_mode accepts enabled and disabled, for internal touchpads also disabled-on-external-mouse (both flags together mean disabled); a refused mode changes nothing and the getter returns the last accepted mode. Whatever happens, a disabled device (other than a tablet pad, see C48) is suspended, and a device that neither lid, tablet mode nor mice concern is suspended exactly while disabled. An internal touchpad is suspended exactly if it is disabled, or in mode disabled-on-external-mouse and there is an external mouse, or the lid is closed, or tablet mode is on (without the quirk); an internal keyboard is closed exactly if it is disabled or tablet mode is on. Everything that is down is released before a device is closed. Exceptions, each shown: disabled mice, a second tablet-mode switch, enabling a keyboard during tablet mode, a switch that goes away during tablet mode.", "quantifier": "every sequence of mode changes, devices added, removed, suspended and resumed, lid and tablet-mode events; the 'exactly if' for internal devices over histories with one lid, one tablet-mode switch and no disabled mouse", "why_tests_cant": "All histories.", "anchors": ["src/evdev.c: evdev_sendevents_set_mode, evdev_device_suspend, evdev_device_resume", "src/evdev-mt-touchpad.c: tp_sendevents_*, tp_suspend, tp_resume, tp_pair_lid_switch, tp_pair_tablet_mode_switch", "src/evdev-fallback.c: fallback_pair_tablet_mode, fallback_tablet_mode_switch_event"]}
{"id": "C35", "title": "String helpers: strip, prefix, suffix, base name, trunk name", "statement": "Stripping removes only characters of the given set, from both ends, and leaves no such character at either end; the prefix and suffix tests hold exactly if the string has the non-empty prefix or suffix; the base name is the part after the last slash, absent if empty; the trunk name is the base name without its last dot suffix.", "quantifier": "every string and character set", "why_tests_cant": "All strings.", "anchors": ["src/util-strings.c: strstrip, safe_basename, trunkname", "src/util-strings.h: strstartswith, strendswith"]}
{"id": "C36", "title": "List-valued properties and quirks are parsed completely or rejected", "statement": "A calibration property is accepted exactly if its first six space-separated words are decimal numbers and yields these six; a list of key:value doubles exactly if every word is a pair of decimals; lists of event codes and of input properties exactly if there are one to 32 words, each a known name or a number in range, and the caller gets the first ones that fit its array; nothing beyond the array is written.", "quantifier": "every string, array size and name table", "why_tests_cant": "All strings.", "anchors": ["src/util-prop-parsers.c: parse_calibration_property, parse_evcode_property, parse_input_prop_property, parse_switch_reliability_property", "src/util-strings.h: kv_double_from_string"]}
{"id": "C37", "title": "A mouse used with care never aborts the process nor gets a button stuck", "statement": "With debouncing, left-handed mapping, middle-button emulation, on-button scrolling and scroll-button lock all in play and being reconfigured at run time, the process never aborts, and when no button is physically held (and that for 25ms) no button is reported as held. 'With care': settings are not changed within the 25ms after a button went up, a change made while buttons were held is followed by releasing the last one alone, emulation is switched on and the device suspended with no button held, the device has only buttons 0x110 to 0x11f; and scroll-button lock, emulation and a physical middle button are not all three used. Each of these conditions is needed: a history violating it aborts (shown).", "quantifier": "every such history of frames, timers and configuration calls, of any length", "why_tests_cant": "The four stages have independent state and timers; failures only show in particular interleavings.", "anchors": ["src/evdev-fallback.c", "src/evdev-debounce.c", "src/evdev-middle-button.c", "src/evdev.c: evdev_pointer_notify_button, evdev_button_scroll_button"]}
{"id": "C38", "title": "Wheel events are reported unless the middle button is held", "statement": "Each movement of a wheel in a frame is reported as one wheel event per axis with the time of the frame and the distance moved (vertical negated), unless the middle button is physically held, in which case none is.", "quantifier": "every frame after every history of a mouse (used with care, see C37) whose buttons have settled", "why_tests_cant": "Depends on the whole history of buttons and debouncing.", "anchors": ["src/evdev-fallback.c: fallback_flush_wheels, fallback_handle_state, fallback_notify_physical_button"]}
{"id": "C39", "title": "Touches of a touchpad follow the fingers", "statement": "Whatever the kernel reports for a touchpad, each touch lives properly for everything built on it (tapping, software buttons, scrolling): it begins only when it was not down, continues and ends only when it was, and all touches are lifted when the touchpad is suspended or removed; the number of fingers is the number of touches that are down. With a kernel that ends only touch sequences that are going on, libinput never aborts. Without the workaround for Synaptics serial touchpads, a touch is there exactly if a touch sequence is going on in its slot (started since the touchpad was last suspended or resumed), or, beyond the slots, if the BTN_TOOL buttons say there are so many fingers; it is where it was last reported to be, a touch without a slot where the topmost one is. Size or pressure, with separate thresholds to begin and to end, or else BTN_TOUCH with the BTN_TOOL buttons decide which touches are down. Exceptions shown: an ALPS touchpad that gave up a slot may abort after being resumed; after resuming a finger may be lost or stay down if the kernel meanwhile switched to another slot; a Synaptics touch may stay down.", "quantifier": "every sequence of slot, tracking-id, axis and key events, frames, suspends and resumes, for any number of slots and touches and any thresholds", "why_tests_cant": "All event sequences; a stuck finger shows up only for particular interleavings of slot and button events and suspends.", "anchors": ["src/evdev-mt-touchpad.c: tp_new_touch, tp_begin_touch, tp_maybe_end_touch, tp_end_touch, tp_end_sequence, tp_recover_ended_touch, tp_process_absolute, tp_process_fake_touches, tp_restore_synaptics_touches, tp_unhover_pressure, tp_unhover_size, tp_unhover_fake_touches, tp_position_fake_touches, tp_pre_process_state, tp_post_process_state, tp_clear_state, tp_sync_slots"]}
{"id": "C40", "title": "Touchpad gestures, two-finger scrolling and pointer motion never overlap, and end when the fingers are lifted", "statement": "Whatever the fingers, the timers, paired keyboards, trackpoints, pens and configuration calls do: a swipe begins only with 3 or 4 fingers and a pinch only with 2 to 4, and only when no other gesture and no two-finger scroll is going on; it is then updated and ended exactly once, as the same gesture with the same number of fingers; between its begin and its end there is no pointer motion, no two-finger scroll and no other gesture, and the pointer does not move during a two-finger scroll. When no finger is left on the touchpad, or the touchpad is reset (disabled, suspended, removed, or a pen comes near), every gesture and two-finger scroll has ended. The number of fingers in a begin or update event is the number of touches that count as fingers in that frame, so never more than are on the touchpad; a gesture ends without being cancelled only when no touch counts any more, and lifting all fingers does not cancel it; if the number of fingers changes for less than 100 ms the gesture goes on. The pointer moves only when exactly one touch counts, or during tap-and-drag or while a clickpad is pressed; and only by touches that are down, are no palms, no resting thumbs, not in a software button area, not pinned, and not on a scroll edge (unless a click in that very frame ends edge scrolling). Nothing but a frame of the touchpad moves the pointer or begins or updates a gesture.", "quantifier": "every sequence of frames with any touches, timers, keys, trackpoint events, pens, suspends and configuration changes; every geometry and threshold, with any outcome of tapping, software buttons, jump and speed detection and of the acceleration filter", "why_tests_cant": "All histories of interacting per-finger and gesture state machines with timers.", "anchors": ["src/evdev-mt-touchpad-gestures.c: tp_gesture_handle_state, tp_gesture_post_events, tp_gesture_post_gesture, tp_gesture_start, tp_gesture_end, tp_gesture_finger_count_switch_timeout, tp_gesture_detect_motion_gestures", "src/evdev-mt-touchpad.c: tp_process_state, tp_post_events, tp_touch_active_for_gesture, tp_clear_state, tp_stop_actions"]}
{"id": "C41", "title": "Edge scrolling comes in order, from the edge, and always ends with a stop", "statement": "When scrolling by a finger on the edge of a touchpad is on: each touch sends scroll events that are not zero, all on one axis, and then one stop on that axis; it does not change the axis without a stop and no stop comes without scrolling. Once the finger is lifted, or the touchpad is reset, its scrolling has been stopped; typing stops it too. A scroll event comes only from a touch that is down and moved, that is on the right edge for vertical and on the bottom edge for horizontal scrolling, is no palm and no resting thumb, while neither typing nor the trackpoint disables the touchpad. A finger that lands outside the edges never scrolls, wherever it goes, until it is lifted; one that lands on the edge scrolls only after it moved 3 mm or stayed for 300 ms; and no touch scrolls and moves the pointer in the same frame. Exceptions, each shown: no stop is sent when the device as a whole is suspended while a finger scrolls, or when the finger looks like a palm in the very frame in which it is lifted; a click that ends in that frame keeps the next finger from scrolling; and changing the scroll method with a finger down lets a later finger scroll and move the pointer at once.", "quantifier": "every sequence of frames with any touches, timers, keys, trackpoint events, pens, suspends and configuration changes outside these exceptions (Careful); every geometry", "why_tests_cant": "All histories of a state machine per finger with timers, interleaved with everything else that ends a touch.", "anchors": ["src/evdev-mt-touchpad-edge-scroll.c: tp_edge_scroll_handle_state, tp_edge_scroll_handle_event, tp_edge_scroll_set_state, tp_edge_scroll_post_events, tp_edge_scroll_stop_events, tp_edge_scroll_handle_timeout", "src/evdev-mt-touchpad.c: tp_post_events, tp_stop_actions, tp_clear_state, tp_scroll_config_scroll_method_set_method"]}
{"id": "C42", "title": "Typing and the trackpoint disable the touchpad, and it always comes back", "statement": "While disabling while typing is on, a typing key (one before F1 that is no modifier) pressed on a keyboard that belongs to the touchpad, with no modifier held, disables the touchpad: for 200 ms, or 500 ms after each further key, and as long as a key is held, the touchpad moves no pointer, does not scroll and neither begins nor continues a gesture, and tapping is suspended. It works again at the latest 500 ms after the last keyboard event if no typing key is held. Function keys, modifiers, shortcuts, other keyboards, and anything typed while the option is off never disable it. Three trackpoint events in quick succession disable it for 300 ms after the last one; one or two never do. A touch that begins while the touchpad is disabled and before the last key or trackpoint event is ignored until it is lifted. Exceptions, each shown: if a keyboard is removed while a key is held on it the touchpad may stay disabled, or with a modifier never be disabled, until that key is pressed and released on another keyboard; and the trackpoint timer resumes tapping while the user still types.", "quantifier": "every sequence of key events on any keyboards, trackpoint events, timers, frames with any touches, pens, suspends and configuration changes; every time", "why_tests_cant": "All interleavings of keys on several keyboards, timers that re-arm themselves, the trackpoint and touches that outlive the typing.", "anchors": ["src/evdev-mt-touchpad.c: tp_keyboard_event, tp_keyboard_timeout, tp_key_is_modifier, tp_key_ignore_for_dwt, tp_trackpoint_event, tp_trackpoint_timeout, tp_stop_actions, tp_post_events, tp_palm_detect_dwt, tp_palm_detect_dwt_triggered, tp_palm_detect_trackpoint_triggered, tp_interface_device_removed"]}
{"id": "C43", "title": "Touches that look like palms are ignored until they are lifted, and fingers are not taken for palms", "statement": "A touch that is pressed harder than the palm threshold, that is bigger than the size threshold, or that is there while a pen is near, moves nothing and scrolls nothing from that frame on until it is lifted, even if it gets lighter or smaller or the pen leaves. A touch the device itself marks as a palm is ignored as long as it is marked. A touch that lands alone in a palm zone at the left, right or upper edge is ignored until it is lifted, another touch is down, or it leaves the zone within 200 ms moving away from the edge, when it becomes a finger. Conversely a touch that lands outside these zones while nothing disables the touchpad, and is never marked, heavy or big, is not taken for a palm as long as it stays down and no pen comes near, whatever else is touched or typed meanwhile and wherever it moves.", "quantifier": "every history before the touch, every frame and every sequence of other events while it stays down; every geometry and every threshold", "why_tests_cant": "All positions, directions, pressures, sizes and times of a touch over its whole life, interleaved with other touches, keys, the trackpoint and pens.", "anchors": ["src/evdev-mt-touchpad.c: tp_palm_detect, tp_palm_detect_pressure_triggered, tp_palm_detect_touch_size_triggered, tp_palm_detect_arbitration_triggered, tp_palm_detect_tool_triggered, tp_palm_detect_edge, tp_palm_detect_move_out_of_edge, tp_palm_detect_multifinger, tp_palm_in_edge, tp_palm_in_side_edge, tp_palm_in_top_edge, tp_touch_active"]}
{"id": "C44", "title": "The events of a tablet tool make sense, and nothing is left down when a tool leaves", "statement": "Whatever the kernel sends, for every tool of a graphics tablet every event other than a proximity-in comes between a proximity-in and the proximity-out that follows it. With pens (anything but pucks and lens cursors) no button is down, and on a tablet with pressure the tip is up, at every proximity-out, including the one when the tablet is suspended; and every frame is dealt with after at most two rounds. If moreover the kernel is orderly (tools come and go one per frame, no button is pressed while no tool is near, a tool keeps its serial number, and without pressure the touch key alternates within proximity), then a tool comes into proximity only when none is there, every event is about the tool that is there, the tip and each button go down only when up and up only when down, the tip state each event carries is the one the events tell, and nothing is down when the tool leaves; while the tablet is not suspended, a tool whose key is set is in proximity after that frame, and one whose key is cleared has left. Exceptions, each shown: two tools swapped in one frame give a proximity-in without an out or lose the tool; a pen taken away while the tablet is suspended is lost the next time it comes; a puck that comes and goes out of range makes all pens dead; a second tool key while a puck is in range hangs libinput; touch keys sent after or with the proximity-out give a tip-up without a tip-down or a proximity-out with the tip down; a button pressed out of proximity is released without a press; a serial number that arrives late may change the tool.", "quantifier": "every history of frames with any kernel events, timeouts, suspensions, resumptions, settings, touch devices and other tablets; every axis range, tool and time", "why_tests_cant": "All sequences of tool keys, buttons, pressures and axes, including the ones of devices that never announce a tool, interleaved with timers and suspensions.", "anchors": ["src/evdev-tablet.c: tablet_process, tablet_process_key, tablet_update_tool_state, tablet_update_tool, tablet_flush, tablet_send_events, tablet_send_proximity_in, tablet_send_proximity_out, tablet_send_tip, tablet_send_buttons, tablet_get_tool, tablet_update_proximity_state, detect_tool_contact, tablet_reset_state, tablet_suspend, tablet_proximity_out_quirk_timer_func, tablet_check_initial_proximity"]}
{"id": "C45", "title": "While a pen is near, the touch device of the tablet ignores fingers; afterwards it listens again", "statement": "When a tablet has a touch screen or an external touchpad in its device group, then while a pen is in proximity the touch device ignores new fingers, everywhere or (for a touch screen and a tilted pen) where the hand is: from the beginning if the touch device was there before the pen, and from the next event of the tablet on if it was added meanwhile. Once no pen is in proximity, the touch device listens again at the latest 90 ms after the last event; the same when the tablet is suspended. Exceptions, each shown: a tilted pen that leaves and comes back within 90 ms leaves a touchpad listening for as long as it stays; when a touch device is removed while a tilted pen is in proximity, its successor is not told of the pen that comes next; a second touch device takes the place of the first, which goes on ignoring.", "quantifier": "every history of frames, timeouts, suspensions, resumptions, settings and touch devices coming and going, with the timer of the touch device anywhere in between", "why_tests_cant": "All interleavings of pens coming and going, touch devices being added and removed, and timers expiring.", "anchors": ["src/evdev-tablet.c: tablet_toggle_touch_device, tablet_set_touch_device_enabled, tablet_suspend, tablet_device_added, tablet_device_removed", "src/evdev-fallback.c: fallback_interface_toggle_touch, fallback_arbitration_timeout", "src/evdev-mt-touchpad.c: tp_interface_toggle_touch, tp_arbitration_timeout"]}
{"id": "C46", "title": "Tablet tool events only carry values within the documented ranges", "statement": "Every event of a tablet tool, of whatever type, carries a pressure and a distance between 0 and 1, a slider position between -1 and 1, a rotation of at least 0 and less than 360 degrees, a tilt of at most 64 degrees (or what the resolution of the device makes of its range) and a position within the range of the device, whatever the history of frames, tools, suspensions, settings and left-handed modes. Exceptions, each shown: a pressure range in the quirks file that ends above the maximum of the device, and a pen first used on another tablet with a larger pressure range, make pressures larger than 1 (and the tip of such a pen never goes down); a pen that leaves before its first measurement is reported at 0.", "quantifier": "every device with sensible ranges, every sequence of frames with values within the ranges, tools from other tablets that fit, timeouts, suspensions, resumptions and settings", "why_tests_cant": "The values depend on offsets, histories of samples and settings that accumulate over arbitrarily long histories.", "anchors": ["src/evdev-tablet.c: normalize_pressure, normalize_distance, normalize_slider, convert_to_degrees, adjust_tilt, invert_axis, tablet_update_xy, tablet_smoothen_axes, detect_pressure_offset, tool_set_pressure_thresholds"]}
{"id": "C47", "title": "The tip of a pen follows its pressure", "statement": "While a pen is near, after every frame in which events tell something about it, the tip is down exactly if its pressure says so: a tip that was up is down from 5 % of the pressure range on (or the upper threshold of the quirks file), and a tip that was down is up at 1 % (or the lower threshold) and below. A pen that reports some pressure, at most 20 % of the range, when it comes from far above the tablet is worn: that pressure is its lower threshold, and it has to be pressed harder by as much. So the tip never goes down below the upper threshold, is down at 25 % whatever the pen, and is up when nothing presses it. Shown as well: a pressure within the noise the device states, or equal to the last one before a suspension, is not noticed, so the tip stays up.", "quantifier": "every device with pressure, every history of frames of pens, timeouts, suspensions, resumptions and settings", "why_tests_cant": "The tip depends on thresholds a pen acquired at any earlier time, and on which pressures were noticed.", "anchors": ["src/evdev-tablet.c: tool_set_pressure_thresholds, update_pressure_offset, detect_pressure_offset, detect_tool_contact, tablet_filter_axis_fuzz, axis_range_percentage"]}
{"id": "C48", "title": "Tablet pads: buttons, mode groups, rings and strips", "statement": "Whatever the kernel sends, every button and key of a tablet pad is pressed only while up and released only while down; the client has been told that it is down exactly if the kernel's key behind it is down, and nothing stays down when the pad is suspended, removed or disabled. Every event is about a button (fewer than the pad's number, at most 32), ring, strip or key the pad has, and carries a mode group of the pad that has it and one of that group's modes. The mode of a group changes only at the press of a button that switches it; that press carries the first LED that is lit (or the old mode, if none is), every other event the last mode told. A pad starts in the mode its LEDs show. Every button is in exactly one group, groups are numbered from 0 and there is at least one. A frame of the kernel makes one event for each ring and strip it mentions: -1 for a finger that leaves, else an angle in [0,360) measured clockwise from the left-most point less a quarter turn, or a place in [0,1] on a strip (the number of the bit), both turned for left-handed pads; a change of hand takes effect only once no key is down. If the kernel and libwacom agree about the pad, no assertion fails. Exceptions, each shown: a second ring or strip without a first and a strip without LEDs end the process, buttons without a code shift the groups of the others, a disabled pad goes on sending events, a missing or early ABS_MISC hides a finger that leaves or comes, unknown LEDs hide a group.", "quantifier": "every pad (any number of buttons, LEDs and modes), every list of kernel events, LEDs, suspensions and configuration changes", "why_tests_cant": "All histories and devices.", "anchors": ["src/evdev-tablet-pad.c: pad_process, pad_flush, pad_check_notify_axes, pad_notify_button_mask, pad_suspend, pad_init_buttons", "src/evdev-tablet-pad-leds.c: pad_init_leds, pad_init_mode_buttons, pad_button_update_mode, pad_led_group_get_mode", "src/libinput.c: libinput_tablet_pad_mode_group_has_*"]}
{"id": "C49", "title": "Acceleration scales movements within the limits of the speed setting", "statement": "For every device with pointer acceleration there is a factor, a function of the speed setting, of the velocity of the movement and of that of the movement before, that never falls when one of them rises, lies between the limits of the device and the setting (for a mouse 0.3 and 2 + 1.5 times the setting), is the lowest at rest, the highest at high velocities (trackpoints only approach it) and 1 (times a constant on touchpads) at medium ones. After every history of movements, restarts and settings, a movement comes out as the movement in natural units times that factor, the same factor for both axes: no axis is reversed or made up, the direction is kept and no movement is lost. Of two filters that were given the same movements, the one with the higher setting moves the pointer at least as far. No accepted setting makes an assertion fail. Unaccelerated movements are scaled by a constant whatever the history. Exceptions, each shown: a pen in relative mode stands still at the lowest setting, an X230 loses a movement when the clock goes backwards, and the velocity of mice is normalized twice, so that mice of different resolution moved alike are not accelerated alike.", "quantifier": "every device and resolution, every history of movements with any real deltas and times, restarts and speed settings", "why_tests_cant": "All histories and real numbers.", "anchors": ["src/filter.c", "src/filter-mouse.c", "src/filter-low-dpi.c", "src/filter-touchpad.c", "src/filter-touchpad-x230.c", "src/filter-touchpad-flat.c", "src/filter-flat.c", "src/filter-trackpoint.c", "src/filter-tablet.c"]}
{"id": "C50", "title": "The velocity remembers only recent movements in about the same direction", "statement": "The velocity behind the acceleration of a movement is determined by the movements since the last restart: the way since the oldest of the last (2 or 16) movements that is at most a second old, in a direction in common with all later ones and of a similar velocity, over the time since then, a time that is never 0. A movement straight on always has a direction in common with the one before and one straight back never has. The velocity of a steady movement is that of all remembered movements. What was before a turn or a pause of more than a second has no effect from the third movement after it on, what was before a restart none from the second movement on (the first one is still averaged with the last velocity before, which is shown); on trackpoints from the restart on.", "quantifier": "every device, every history of movements with any real deltas and times, restarts and speed settings", "why_tests_cant": "All histories and real numbers.", "anchors": ["src/filter.c: trackers_feed, trackers_velocity, calculate_trackers_velocity, trackers_reset, tracker_by_offset", "src/filter-private.h", "src/libinput-private.h: xy_get_direction"]}
{"id": "C51", "title": "Movements and positions arrive once, turned and calibrated as was set last", "statement": "Whatever the kernel sent and the client set before: a report of a pointer gives one motion event whose raw movement is the sum of all relative movements since the last report, turned clockwise by the angle set last (0, 90, 180 or 270 degrees, on devices that can be turned; others are refused), and whose accelerated movement is what the pointer acceleration with the speed set last makes of exactly these movements; none if the sum is zero, and a scroll movement instead if on-button scrolling takes it. A report with an absolute axis gives one event at the last point of the kernel, calibrated by the matrix set last (at first that of the system): the matrix times the point as parts of the axes, cut to whole units, and the very point without a matrix. The same calibration applies to every other point of the device, such as touches. The client is told the angle, matrix and default matrix. Converted to a screen, a calibrated point is less than a unit away from where the matrix puts it; coordinates within the axes and only these are on the screen, at least 0 and less than its width, in the same order, and between 0 mm and the size of the device. No assertion fails. Exception, shown: the matrix that turns a screen upside down puts the first unit of an axis just outside of the screen, at its width.", "quantifier": "every device with sensible axes, every sequence of relative and absolute axes, reports, matrices, angles and speeds; every screen size and coordinate", "why_tests_cant": "All histories of movements and settings, and all real matrices and coordinates.", "anchors": ["src/evdev.c: evdev_device_calibrate, evdev_transform_absolute, evdev_device_transform_x, evdev_device_transform_y, scale_axis, evdev_read_calibration_prop", "src/util-matrix.h: matrix_mult, matrix_mult_vec, matrix_init_rotate, matrix_from_farray6", "src/evdev-fallback.c: fallback_flush_relative_motion, fallback_rotate_relative, fallback_flush_absolute_motion, fallback_rotation_config_set_angle, fallback_process_relative"]}
{"id": "C52", "title": "A quirks file is taken as written or refused as a whole", "statement": "A file of hardware quirks is accepted exactly if it is well-formed: comments from # on and empty lines aside, one or more sections, each a title in brackets, one or more conditions with different keys whose values have the documented form, and then one or more known quirks whose values have the type of the quirk; a range has its upper limit first, lists have at most 32 entries. Its meaning is unique: every section has exactly the conditions and values written, in the order written. Any other file is refused, and no file at all makes an assertion fail. Exceptions, shown: in a line of more than 511 bytes what follows the first 511 is read as another line, even of a comment; a vendor, product or version number is cut to 32 bits before it is checked to fit 16.", "quantifier": "every text, every length, for files without NUL and with lines of at most 510 bytes; no crash for any file at all", "why_tests_cant": "All texts: unit tests parse a handful of files.", "anchors": ["src/quirks.c: parse_file, parse_value_line, parse_match, parse_model, parse_attr, parse_hex, section_new", "src/util-prop-parsers.c", "quirks/README.md"]}
{"id": "C53", "title": "A device gets the last value of the quirks that apply to it", "statement": "The data of quirks is accepted exactly if the machine has a DMI or device tree identity, there is at least one file whose name ends in .quirks, and all these files and the override file, where they exist, are well-formed; otherwise no quirk has an effect on any device. The files are read in the one order of versions of their names, whatever the order in the directory, the override file last. A section applies to a device exactly if all its conditions hold: the name (without quotes), bus, vendor, product and version of the device or its nearest parent that tells them, its type, and the identities of the machine. The value of a quirk for a device is the last one in all sections that apply; it has none if no such section mentions it. Whatever the data, every quirk libinput asks for has the type it asks for, so that no assertion fails. Exception, shown: a name of two quotes counts as one quote.", "quantifier": "every directory with any number of files in any order, every override file, machine and device with any chain of parents, every quirk", "why_tests_cant": "All combinations of files, sections, conditions and devices.", "anchors": ["src/quirks.c: quirks_init_subsystem, parse_files, is_data_file, match_new, match_fill_name, match_fill_bus_vid_pid, match_fill_udev_type, quirk_match_section, quirk_apply_section, quirks_fetch_for_device, quirk_find_prop, quirks_get_bool, quirks_get_tuples", "src/evdev.c: evdev_read_model_flags, evdev_pre_configure_model_quirks", "src/evdev.h: evdev_device_has_model_quirk"]}
{"id": "C54", "title": "Quirks are valid until released and everything is freed at the end", "statement": "The quirks of a device and their values stay valid until they are released, whatever else is asked for and released meanwhile. When all were released and the last reference of the quirks context is given back, everything is freed and no assertion fails; and only then: whoever still holds quirks of a device, releases them twice or uses the context after its last reference runs into an assertion or freed memory. libinput itself always releases what it asked for, so that ending its context never fails.", "quantifier": "every sequence of references, releases and quirks asked for, with any number of devices and values", "why_tests_cant": "All interleavings of calls.", "anchors": ["src/quirks.c: property_new, property_ref, property_unref, property_cleanup, quirks_context_ref, quirks_context_unref, quirks_new, quirks_unref, quirk_apply_section, quirks_fetch_for_device, section_destroy"]}
{"id": "C55", "title": "The devices of a udev context are those of its seat in udev", "statement": "Whatever udev reports and the client does: a device is added once and removed at most once, after that; only usable event devices of the assigned seat that are not to be ignored are added; no logical seat has two devices for the same device node. While the context runs and once the enumeration is over and no message of udev waits, there is exactly one device for each such device node that udev has initialized, even if devices came and went during the enumeration; and that state is reached by dispatching once udev stands still. While it is suspended there are none. A device is on the logical seat that WL_SEAT names, else default, until the client moves it: then it is removed, added again on the named seat, and no other device changes. Assigning a seat twice or one with a bad name fails without effect, as does resuming when udev cannot be listened to; resuming what runs succeeds without effect. Nothing crashes. Exceptions, each shown: moving a device that udev has just reported again or that the client kept from before a suspend leaves it there twice or for good; a device whose hardware vanished while it is moved is reported as moved; hardware replaced during the enumeration may for a while be there twice, on two seats; and when the filter of the udev monitor fails, resuming later has no effect and suspending crashes.", "quantifier": "every sequence of devices appearing, becoming ready and vanishing, in any interleaving with the enumeration, dispatching, suspending, resuming and moving of devices", "why_tests_cant": "All interleavings of udev, enumeration and client.", "anchors": ["src/udev-seat.c: udev_input_enable, udev_input_disable, udev_input_add_devices, device_added, device_removed, udev_input_remove_devices, evdev_udev_handler, filter_duplicates, udev_device_change_seat, libinput_udev_assign_seat"]}
{"id": "C56", "title": "A path context has the devices that were added, also after suspending", "statement": "Whatever udev and the client do: a device is added once and removed at most once, after that. Adding a path gives one new device if udev has an initialized, usable device there that is not to be ignored, and otherwise fails and does nothing; no other device changes. Removing a device removes that one only; moving one to another logical seat removes it and adds it on that seat, or fails and leaves it removed if it cannot be opened any more. Suspending removes all devices. After suspending and resuming, whatever udev did in between and however often resuming failed: if all the devices there were can be opened, resuming succeeds and there is exactly one new device for each of them, on the logical seat that WL_SEAT names or default; if one cannot be opened, resuming fails, there is none at all, and resuming may be tried again. That holds if the client adds paths only while the context runs, resumes only while it is suspended, and moves or removes only devices that are there. Otherwise, each shown: resuming twice, or adding a path while suspended and then resuming, doubles devices; removing a device from before a suspend does not remove the new one. The logical seat a client chose is forgotten on suspend (shown).", "quantifier": "every sequence of devices appearing, becoming ready and vanishing, paths added, devices removed and moved, suspending and resuming", "why_tests_cant": "All histories of udev and of the client.", "anchors": ["src/path-seat.c: path_input_disable, path_device_enable, path_input_enable, path_create_device, libinput_path_add_device, libinput_path_remove_device, path_device_change_seat, udev_device_from_devnode"]}
{"id": "C57", "title": "A totem on the screen is told as it stands, and the touch screen ignores what is around it", "statement": "A device for totems that has any number of them on it at the start works, and no sensible report of the kernel (in each slot a totem comes where none was or goes where one was, at most one of both; angles of at most 360), nor suspending, resuming while no totem stands or stood, nor other devices coming and going ever makes it crash. Each report is told as the difference of the two states of the kernel: a totem that came is told near and standing; one whose axes were mentioned is told as moved by the difference of its positions; a change of the button goes to the first totem there; one that went is told lifted and gone; with its position, its size in mm, and its angle clockwise from 0 to 359 degrees. So each totem comes near, stands, moves, is lifted and goes in turn, and stands for the client exactly if it stands on a running device; the button alternates, and is known while a totem stands. Suspending lifts all totems, and releases the button if one stands or the button is pressed. The touch device, the first there is of the same vendor, product and group, is told to ignore the 100 mm by 100 mm around the first totem while one stands, and where that is when it changes; after a report without totems, or suspending, or removing that device, nothing is ignored; no other device is told anything. Exceptions, shown: a totem that comes and goes in one report fails an assertion, or goes without having come; one that stands while the device is suspended moves without having come near after resuming, and if it was lifted meanwhile its area is still ignored; suspending tells once more that tools that were away are gone; a button released in the air stays pressed and one pressed in the air is released when suspending; a second suspending, as removing a suspended device is, tells the totem lifted twice; a size without resolution is not a number; and the current slot is not fetched again when resuming.", "quantifier": "every number of slots, every sequence of sensible reports, suspending, resuming and devices coming and going", "why_tests_cant": "All histories of totems and touch devices.", "anchors": ["src/evdev-totem.c: totem_interface_process, totem_process_abs, totem_process_key, totem_slot_fetch_axes, totem_handle_slot_state, totem_handle_state, totem_set_touch_device_enabled, totem_interface_suspend, totem_interface_device_added, totem_interface_device_removed, totem_interface_initial_proximity, totem_reject_device, evdev_totem_create"]}
{"id": "C58", "title": "An event tells what was posted, and the empty value for what it does not have", "statement": "Every event the caller gets has the type, the device, the time and the values it was posted with, whichever accessor is called on it in whatever order: positions in mm from the edge of the device or scaled to the caller's screen, times in microseconds or in milliseconds modulo 2^32, axes of a scroll event only where the event has them, movements only for updates of gestures, the tip up when a tool comes or goes, no changed axes when its button is pressed, the mode the pad's group had. An accessor called on an event that has no such thing, of the same family or of any other, returns 0 or NULL, and never reads memory that is not the event's; exactly the conversion to its own family succeeds. Exception, shown: the source of a pad's ring or strip is told as unknown, which is 1, for other events, although the documentation says 0. Devices post only events they are capable of, except tablets and pads, which are not asked. An event keeps its device, its tool and its mode group alive until it is destroyed, and destroying it gives back exactly those.", "quantifier": "every event of every type with every value, every accessor with every argument, every device", "why_tests_cant": "All pairs of events and accessors with all values.", "anchors": ["src/libinput.c: check_event_type, event_type_to_str, libinput_event_get_*, libinput_event_keyboard_*, libinput_event_pointer_*, libinput_event_touch_*, libinput_event_gesture_*, libinput_event_tablet_tool_*, libinput_event_tablet_pad_*, libinput_event_switch_*, keyboard_notify_key, pointer_notify_*, touch_notify_*, tablet_notify_*, tablet_pad_notify_*, gesture_notify_*, switch_notify_toggle, device_has_cap, libinput_event_destroy", "src/evdev.h: evdev_convert_to_mm", "src/evdev.c: scale_axis"]}
{"id": "C59", "title": "Exactly the usable kernel devices become devices, with the right capabilities, axes and answers", "statement": "A device node becomes a libinput device exactly if it opens and is the device udev named, is not marked to be ignored, is tagged as an input device of some kind but not as an accelerometer or a joystick only, its axes make sense (x with y, both or neither with a resolution, no empty range) and it has what its kind needs: a touchpad a position, BTN_TOUCH and BTN_TOOL_FINGER, a tablet a pen or stylus and a known size, a totem slots, a tool type, a size and a touch size. The file of a device that is not taken is closed, that of one that is taken stays open. The capabilities follow from tags, codes and quirks, at least one is there, and libinput_device_has_capability tells exactly those. Quirks add and remove codes as listed before anything is looked at. No axis of a device has an empty range; positions are pairs with the kernel's resolution, else the quirk's, else that of the quirk's size, else 1 (a touchpad is then 69 by 50 mm); fuzz is that of the udev property. The size is told exactly for devices whose resolution is not made up. has_button, has_key, tablet_pad_has_key, touch_get_touch_count and switch_has_switch fail without the capability and otherwise tell what the kernel and quirks say. Mice have a positive dpi and trackpoints a positive multiplier; a wheel's click angle comes from its count, its angle, the vertical wheel, or is 15, and is never 0. A touchpad is internal or external, never both, and the marks of mice, trackpoints, keyboards and switches follow from their properties. Exceptions, shown: a multitouch axis keeps the kernel's fuzz though the property repeats it, and a quirk with a size larger than the range gives a resolution of 0.", "quantifier": "every kernel description of a device, all its udev properties and those of its parent, all quirks, every failure to open", "why_tests_cant": "The combinations of codes, ranges, tags, properties and quirks are endless.", "anchors": ["src/evdev.c: evdev_device_create, evdev_configure_device, evdev_reject_device, evdev_check_min_max, evdev_extract_abs_axes, evdev_fix_abs_resolution, evdev_fix_android_mt, evdev_read_fuzz_prop, evdev_pre_configure_model_quirks, evdev_disable_accelerometer_axes, evdev_device_get_udev_tags, evdev_device_get_size, evdev_device_has_button, evdev_device_has_key, evdev_device_get_touch_count, evdev_device_has_switch, evdev_device_has_capability, evdev_read_wheel_click_props, evdev_read_dpi_prop, evdev_get_trackpoint_multiplier, evdev_tag_trackpoint, evdev_tag_keyboard, evdev_tag_external_mouse", "src/evdev-mt-touchpad.c: tp_pass_sanity_check, tp_init_default_resolution, evdev_tag_touchpad, evdev_mt_touchpad_create", "src/evdev-tablet.c: tablet_reject_device", "src/evdev-totem.c: totem_reject_device", "src/evdev-fallback.c: fallback_dispatch_create"]}
{"id": "C60", "title": "Dispatching calls everyone who has something to say, in order, uses nothing that is gone, and catches up after losses", "statement": "Whatever devices, timers, udev and the caller do, in the middle of whichever callback, no file watcher of a context is used after it is freed, removed twice or missing: each is called only while it is watched, unwatched once and freed once after that; everything unwatched is freed by the end of libinput_dispatch and everything there ever was when the last reference is given up. libinput_dispatch calls each of up to 32 that have something to say once, in the order the kernel reports them, unless a callback before removed it. A device handles every event the kernel has for it, each once and in order, timers being served up to an event's time before it; if events were lost, the frame is closed by a report, and the events that make up for the loss come, so that after each call of libinput_dispatch the values that the handled events add up to are those of the device, however much was lost. For a device that needs a converter (mtdev) what that makes of the events is handled up to the last report, and the rest next time. A device goes on being read unless reading it fails other than by being interrupted or at its end; one that is suspended is not read; one that is resumed from being suspended is read exactly if that succeeds. A failing wait changes nothing. The message that the caller is too slow is given exactly if in every tenth call the first event is over 10 ms old. Assumed: a device is not suspended or removed by the handling of its own events, and the udev socket is not shared with another process (both shown to be needed). Exceptions, shown: if the kernel cannot watch a resumed device that needs a converter, the converter is freed twice; and after such a failure the next resuming says it succeeded although the device is not read.", "quantifier": "every sequence of dispatching, suspending and resuming, devices coming and going in any callback, events, losses and errors", "why_tests_cant": "All interleavings of callbacks and removals, and all losses.", "anchors": ["src/libinput.c: libinput_add_fd, libinput_remove_source, libinput_drop_destroyed_sources, libinput_dispatch, libinput_init, libinput_unref", "src/evdev.c: evdev_process_event, evdev_device_dispatch_one, evdev_sync_device, evdev_note_time_delay, evdev_device_dispatch, evdev_device_suspend, evdev_device_resume, evdev_device_remove", "src/timer.c: libinput_timer_subsys_init, libinput_timer_subsys_destroy, libinput_timer_dispatch", "src/udev-seat.c: udev_input_enable, udev_input_disable, evdev_udev_handler"]}
{"id": "C61", "title": "On a touchpad the pointer follows the finger, and does not jump", "statement": "While a finger stays on a touchpad, the number of fingers stays the same and nothing is pressed, what its touch moves adds up exactly to the way of the finger, turned around if the touchpad is upside down; whether it is upside down changes only while no finger is down, to what was asked for last. In the frame in which the number of fingers changes and in the next nothing moves. A touch never moves more than 20 mm for every 12 ms that passed, nor in 12 ms more than 7 mm more than it did the frame before: such a jump is swallowed, as is what a touchpad that was silent before sends first, and a position known to be wrong. A finger slower than 7 mm in 12 ms is never taken for jumping. Jitter is only seen while a single finger moves, never if that finger goes only one way, and once seen it is smoothed for ever. A finger that presses a clickpad moves nothing in that frame, and nothing until it is 1.5 mm from where it pressed, then what it moves. The acceleration starts anew exactly when a touch begins or the timestamps of the device say that events are missing; the way in such a frame is measured against the time the device told. A finger slower than 20 mm/s never counts as fast; one that is faster counts as that, once per frame, after its first frames. Exceptions, shown: regular timestamps are taken for missing events in the third frame; a touchpad turned around between touches jumps if the kernel does not repeat a position; a finger that goes left, stands still while another touch hovers and moves, and goes left is taken for jitter.", "quantifier": "every number of touches, every sequence of frames with any positions, times, timestamps and presses, every resolution and size of the touchpad, every change of the left-handed setting", "why_tests_cant": "All ways of fingers, in all timings and with all numbers of other fingers.", "anchors": ["src/evdev-mt-touchpad.c: tp_motion_history_push, tp_motion_history_reset, tp_motion_history_offset, tp_get_delta, rotated, tp_process_absolute, tp_new_touch, tp_process_msc_timestamp, tp_motion_history_fix_last, tp_need_motion_history_reset, tp_detect_jumps, tp_detect_wobbling, tp_motion_hysteresis, tp_calculate_motion_speed, tp_pin_fingers, tp_unpin_finger, tp_process_state, tp_post_process_state, tp_apply_rotation, tp_change_rotation"]}
{"id": "C62", "title": "A tool object stands for one tool, and says truly what the tool can do", "statement": "Every tablet event carries a tool of the kind the kernel named. A tool with a serial number is one object on all tablets, from the first event that shows the serial number on; a tool without is one object per kind and tablet; no object ever stands for tools of two kinds, of two serial numbers or, without serial number, of two tablets, and its answers (kind, id, serial number, axes, buttons, thresholds) never change. The serial number is told unless the tablet used a tool of that kind before it knew one (shown: two pens then are one); a tool that sends minus one inherits the number sent before (shown). A tool has exactly the axes and buttons that libwacom, or for unknown tools its kind, gives it and the tablet it was first used on has (shown: another tablet's do not count; a known puck always turns); without quirk its pressure thresholds are one and five percent of the range, inside the range and in order. Asking for any button code is answered, except 776 and the last seven codes. When a tool comes near, no axis is read that the tablet lacks, if the tablet has what the tool's first tablet has, both tilts or none, and ABS_Z for a known tool that turns (shown: a null pointer is read otherwise).", "quantifier": "every number of tablets with any axes and keys, every database of tools, every sequence of plugging, unplugging, serial numbers, ids, tool keys and frames, every axis and every 32-bit button code", "why_tests_cant": "All histories of several tools on several tablets with late, missing or repeated serial numbers, and all combinations of axes, keys and kinds.", "anchors": ["src/evdev-tablet.c: tablet_get_tool, tool_set_bits, tool_set_bits_from_libwacom, tool_set_pressure_thresholds, axis_range_percentage, tablet_device_has_axis, tablet_init, tablet_reject_device, tablet_process_misc, tablet_check_initial_proximity, tablet_destroy, tablet_mark_all_axes_changed, tablet_update_tilt", "src/evdev-totem.c: totem_new_tool", "src/libinput.c: libinput_tablet_tool_get_type, libinput_tablet_tool_get_serial, libinput_tablet_tool_is_unique, libinput_tablet_tool_has_pressure, libinput_tablet_tool_has_button", "src/util-bits.h: NCHARS, bit_is_set"]}
{"id": "C63", "title": "Devices that belong together find each other and lose each other in time, in whatever order they come and go", "statement": "Whatever the order in which devices are added, removed, disabled and enabled, and whatever their switches do, no assertion fails and no removed device is used: every device that listens to another is there, listens to one that is there, and listens only for what that one is to it (at most one device of the machine being a keyboard or trackpoint and a tablet-mode switch at once; shown: with two an assertion can fail). A touchpad hears of every key of each keyboard that belongs to it (an internal one of the laptop, or for an external touchpad the one with the same ids) and is on, and of no other; it hears of every event of the one trackpoint of the machine, if it minds trackpoints, and of no other (shown: a second trackpoint is not used when the first is gone; a keyboard added in tablet mode is heard twice). A touchpad is off exactly while it is disabled, the tablet-mode switch it follows is on, or its lid was closed; the last only while the lid is reported closed. So it works when it is not disabled, every switch is off and every lid reported open, and is off while the one tablet-mode switch of the machine is on. A lid that is reported closed or open turns the touchpad off, or no longer off for the lid (shown: a touchpad added while the lid is closed works). Once a closed lid was reported, a key of the laptop's keyboard is taken to mean that it is open, and reported (shown: not for a lid found closed). Keyboards and trackpoints of the machine follow its one tablet-mode switch, unless disabled; a disabled device is off whatever the switches do (shown: a keyboard stays off if the switch that turned it off is removed, and is turned on in tablet mode by being disabled and enabled). A tablet knows the one touch device that lies under it, and the external touchpad that is turned around with it, and such a touchpad knows its tablet while that is on, whichever of them came first.", "quantifier": "every sequence of adding, removing, disabling and enabling any number of devices of any kinds, of lid and tablet-mode switches, keys and pointer events", "why_tests_cant": "All orders in which devices come and go with all states of switches.", "anchors": ["src/evdev.c: evdev_notify_added_device, evdev_notify_suspended_device, evdev_notify_resumed_device, evdev_device_remove, evdev_device_suspend, evdev_device_resume", "src/evdev-fallback.c: fallback_pair_tablet_mode, fallback_tablet_mode_switch_event, fallback_lid_pair_keyboard, fallback_lid_keyboard_event, fallback_lid_toggle_keyboard_listeners, fallback_lid_notify_toggle, fallback_process_switch, fallback_interface_device_added, fallback_interface_device_removed, fallback_interface_sync_initial_state", "src/evdev-mt-touchpad.c: tp_interface_device_added, tp_interface_device_removed, tp_pair_trackpoint, tp_dwt_pair_keyboard, tp_pair_lid_switch, tp_pair_tablet_mode_switch, tp_pair_tablet, tp_suspend, tp_resume, tp_lid_switch_event, tp_tablet_mode_switch_event", "src/evdev-tablet.c: tablet_device_added, tablet_device_removed", "src/evdev-totem.c: totem_interface_device_added, totem_interface_device_removed"]}
{"id": "C64", "title": "Fingers next to a tilted pen are ignored, and others are not", "statement": "While a tilted pen is over a touch screen, fingers are ignored in an area of 200 by 200 mm around the hand that holds it: from 50 mm above the tip of the pen to 150 mm below it, and from 20 mm on the side away from the hand to 180 mm on the side the pen is tilted to; while it is upright they are ignored everywhere. The area contains the part of the screen where the hand is, wherever the pen is, and nothing else unless the hand is cut off by the left or the top of the screen (shown: there what is cut off is added at the other side, twice). Whatever happened before, no touch is reported to come down in an area that is ignored. On a screen with slots, while no pen was held upright, a finger that comes down elsewhere is reported at once, at its place (if a slot of the seat is free), and a finger that comes down in the area is never heard of, whatever it does, even when the pen moves or leaves. When a tilted pen arrives, exactly those touches are cancelled whose fingers are in the area; a pen that moves or leaves does nothing to the touches that are down. (Shown: when a tilted pen leaves, fingers are heard of at once, not after 90 ms; when a pen was upright once, the whole screen is ignored until it leaves; screens without slots do not ignore the area.)", "quantifier": "every history of pen positions and tilts, of any number of fingers on a touch screen with any number of slots, and of touches on other devices; every size and resolution of tablet and screen", "why_tests_cant": "All positions of pen and fingers with all histories before them.", "anchors": ["src/evdev-tablet.c: tablet_calculate_arbitration_rect, tablet_update_touch_device_rect, tablet_toggle_touch_device, tablet_set_touch_device_enabled, tablet_suspend", "src/evdev.h: evdev_device_units_to_mm, evdev_phys_rect_to_units", "src/evdev-fallback.c: fallback_arbitrate_touch, fallback_interface_toggle_touch, fallback_interface_update_rect, fallback_flush_mt_events, cancel_touches", "src/libinput-private.h: point_in_rect"]}
{"id": "C65", "title": "The zones of a touchpad are where they should be, in millimetres", "statement": "Wherever a finger is on a touchpad of any size and resolution, to one unit of the axis: the bottom software buttons are the lowest 10 mm, or 15 % if that is less; among them the left one ends and the right one starts in the middle of the touchpad if a middle click is made of both, and else the middle button is between them, 25 % of the width, or 10 mm on touchpads with visible markers. Top software buttons exist only on touchpads that have them; they are the upper 10 mm, or 30 mm while the touchpad is off for other purposes, 40 % left, 20 % middle and 40 % right. Strips where palms are expected exist on touchpads at least 70 mm wide that are built in or below their keyboard and no tablets: 8 mm or 8 % at each side, and 5 % at the top if the touchpad is higher than 55 mm and has no top buttons. The edges for scrolling are 7 mm, the one at the bottom only on clickpads and on touchpads at least 40 mm high. Thumbs are looked for only on clickpads at least 50 mm high, with lines at 85 % and 92 % of the height. The middle of a touchpad is free: a finger at least 8 mm from the sides and more than 10 mm from top and bottom is in none of the zones. The margin against jitter is the fuzz the kernel says, or a quarter of a millimetre. A touchpad that does not say its size is taken to be 69 by 50 mm or hardly larger (shown: it can get strips for palms although 69 mm were chosen so that it does not).", "quantifier": "every position of a finger, every range and resolution of the axes, every kind of touchpad, every click method and middle-button setting", "why_tests_cant": "Positions, ranges and resolutions are unbounded; the boundaries depend on rounding.", "anchors": ["src/evdev-mt-touchpad.c: tp_init_palmdetect, tp_init_palmdetect_edge, tp_init_hysteresis, tp_init_default_resolution, tp_palm_in_edge", "src/evdev-mt-touchpad-buttons.c: tp_init_softbuttons, tp_init_top_softbuttons, is_inside_bottom_button_area, is_inside_top_button_area", "src/evdev-mt-touchpad-edge-scroll.c: tp_edge_scroll_init, tp_touch_get_edge", "src/evdev-mt-touchpad-thumb.c: tp_init_thumb", "src/evdev.c: evdev_device_get_size", "src/evdev.h: evdev_device_mm_to_units, evdev_convert_to_mm"]}
{"id": "C66", "title": "Fingers that move the same way scroll or swipe, fingers that move apart pinch", "statement": "When fingers on a touchpad have moved far enough to tell what they do ((n + 1) / 2 mm for n fingers, both of those that are watched; not when they rested next to each other for 150 ms or one of them stays where it is): if both moved 2 mm or more, left or right or up or down, and the angle between their ways is 81 degrees or less, two fingers scroll and more fingers swipe; if it is more than 126 degrees, they pinch. However far they moved, they pinch if one went left and the other right and one up and the other down; and if one moved less than that, they scroll or swipe if both went left or both right and both up or both down. Nothing else is reported meanwhile. (Shown: fingers that move straight apart, less than 2 mm each, scroll if both go down a tenth of a millimetre.) A finger that is taken for a palm because it came down in the strip at the left or the right is taken for a finger again if it leaves the strips within 200 ms on a way more than 40.5 degrees away from up and down, and one that came down at the top if its way is less than 49.5 degrees away from down; otherwise it remains a palm.", "quantifier": "every pair of ways of any lengths and angles, every resolution of the touchpad, every state of the touchpad in which the decision is made", "why_tests_cant": "The ways are a continuum; where the decision changes depends on the rounding of angles.", "anchors": ["src/libinput-private.h: xy_get_direction, phys_get_direction, device_delta", "src/evdev-mt-touchpad.h: tp_phys_delta", "src/evdev-mt-touchpad-gestures.c: tp_gesture_get_direction, tp_gesture_same_directions, tp_gesture_detect_motion_gestures, tp_gesture_post_gesture", "src/evdev-mt-touchpad.c: tp_palm_detect_move_out_of_edge"]}
{"id": "C67", "title": "A pinch tells how far apart the fingers are and how far they turned", "statement": "While two or more fingers pinch, the scale told last (1 at the beginning) is the distance of the two fingers that are watched, in millimetres, divided by their distance when the pinch was recognised, whatever the resolutions of the two axes and whatever happened in between. The angles told add up to the angle by which the fingers have turned about each other, clockwise and in degrees, full circles included, if they turn by less than half a circle from one report to the next; no angle told is more than 180 degrees. The movements told, before the acceleration, add up to the movement of the middle between the two fingers. A report of the touchpad gives an event exactly if one of the two fingers has moved since the last report. (The two fingers are not at the same place when the pinch is recognised.)", "quantifier": "every history of positions of the two fingers, every resolution, every number of reports and of full circles", "why_tests_cant": "Angles wrap around and errors could add up over any number of reports; directions and distances are a continuum.", "anchors": ["src/evdev-mt-touchpad-gestures.c: tp_gesture_get_pinch_info, tp_gesture_init_pinch, tp_gesture_handle_state_pinch", "src/evdev-mt-touchpad.h: tp_normalize_delta", "src/evdev-mt-touchpad.c: tp_init_accel", "src/libinput-private.h: device_delta, device_average, device_float_delta, normalized_length"]}
{"id": "C68", "title": "Several fingers move the pointer, scroll and swipe by the movement of their middle", "statement": "As long as fingers stay on a touchpad, their number does not change and nothing is pressed, the movements told without acceleration add up, in millimetres, to the mean of the ways of the fingers that count (not palms, thumbs or fingers in buttons), the same for both axes whatever their resolutions, turned around on a touchpad that is upside down. Scrolling by two fingers (before it is constrained to an axis) and swipes tell the same movement times a number that depends on the acceleration filter alone. In each report there is an event exactly if the mean is not zero, the order of the fingers does not matter and a finger that does not count changes nothing. While the button of a clickpad is pressed, the sum is told instead of the mean, so that a finger that rests to press does not slow down the one that moves; otherwise, with n fingers of which one moves, the pointer goes an n-th of its way. (Within the assumptions of C61: touchpads on which no jitter was seen, without the known defects, and fingers that do not jump.)", "quantifier": "every history before, every number of fingers and slots, every set of fingers that count, every way they take, every resolution", "why_tests_cant": "Histories, numbers of fingers and ways are unbounded; rounding or a lost report would only show after many reports.", "anchors": ["src/evdev-mt-touchpad-gestures.c: tp_get_touches_delta, tp_get_raw_pointer_motion, tp_gesture_post_pointer_motion, tp_gesture_handle_state_scroll, tp_gesture_handle_state_swipe", "src/evdev-mt-touchpad.h: tp_scale_to_xaxis", "src/evdev-mt-touchpad.c: tp_filter_motion_unaccelerated, tp_get_delta, tp_init_accel", "src/filter-touchpad.c: touchpad_constant_filter"]}
{"id": "C69", "title": "Two-finger scrolling keeps to an axis unless it is meant to go diagonally", "statement": "Of each movement of two fingers that scroll, either all is told or one of the two axes is left out. Who scrolls up or down, 60 degrees or more from the horizontal in each movement, never scrolls to the side and all of the vertical movement is told, however long they scroll and however the times are; who scrolls to one side, less than 30 degrees from the horizontal, never scrolls up or down. Who scrolls into one quadrant, from 30 to 60 degrees in each movement, is not constrained. Whatever was scrolled before: after a pause of more than 100 ms, 100 ms of such diagonal movements of more than 0.15 mm, not more than 100 ms apart, make both axes free, and free axes remain free until the end of the scroll; 100 ms of movements of more than 0.15 mm to one side (less than 15 degrees) make the horizontal movement be told, and 100 ms of movements up or down (75 degrees or more) the vertical one; who only scrolled along the other axis before then scrolls along the new one alone; one diagonal movement of more than 5 mm makes both axes free at once. (Shown: who turns around at the beginning, up and then down at 75 degrees or more, scrolls to the side for a moment and the vertical movement is lost.)", "quantifier": "every number of movements, every movement of any length, all times of them, every history before a pause", "why_tests_cant": "Movements and times are a continuum and the decision depends on the whole history through a vector that fades.", "anchors": ["src/evdev-mt-touchpad-gestures.c: tp_gesture_apply_scroll_constraints, tp_gesture_init_scroll, tp_gesture_handle_state_scroll"]}
{"id": "C70", "title": "Pressing or releasing one button never changes what is remembered of another", "statement": "Keys of keyboards and mice, keys of disable-while-typing, buttons of pads and of pens are remembered as bits of an array. Whatever is pressed and released, in every order: a button counts as held exactly if the last that happened to it is a press, whatever happened to others that share its word; something counts as held exactly if something is. At the end of a frame a pad and a pen tell as pressed, in ascending order and each once, exactly the buttons that are held now and were not at the end of the frame before, and as released exactly those that were and are not; when a pen comes into proximity all that is or was held is told as pressed.", "quantifier": "every sequence of presses and releases, every button, every size of the array, words of any number of bits", "why_tests_cant": "There are 2^768 states of the array; the loops over bytes and bits are only exercised with a few buttons.", "anchors": ["src/util-bits.h: bit_is_set, set_bit, clear_bit, long_bit_is_set, long_set_bit, long_clear_bit, long_set_bit_state, long_any_bit_set", "src/evdev-tablet-pad.c: pad_get_buttons_pressed, pad_get_buttons_released, pad_notify_button_mask, pad_any_button_down, pad_button_set_down", "src/evdev-tablet.c: tablet_get_pressed_buttons, tablet_get_released_buttons, tablet_force_button_presses, tablet_notify_button_mask"]}
{"id": "C71", "title": "A log handler gets exactly the messages of the priority that was set, and no floods", "statement": "Whatever was set and logged before: a message is handed over once, to the handler that was set last, exactly if there is one and the message is at least of the priority that was set last; without any set, errors go to the default handler; with no handler nothing is. Of messages with a rate limit no more than two bursts are handed over in any time as long as its interval, whatever is set in that time, and the first after more than an interval without any is handed over. A device's value within the range it announces is never warned about; one out of it by more than a twentieth of the width and one unit is logged as an information, and it is handed over if it is the first of the device in more than 3000 seconds; no more than two such warnings are handed over in any 3000 seconds. (Shown: messages that are not heard because of their priority count for the rate limit too; with a burst of one the message that further ones will be discarded never comes.)", "quantifier": "every history of settings and messages, all rate limits, intervals, bursts and times, all ranges and values", "why_tests_cant": "Histories are unbounded and what is heard depends on all times of a limit; tests cannot wait for 3000 seconds.", "anchors": ["src/libinput.c: log_msg_va, log_msg, log_msg_ratelimit, libinput_log_set_priority, libinput_log_set_handler, libinput_init", "src/libinput-private.h: is_logged", "src/util-ratelimit.c: ratelimit_test", "src/evdev.h: evdev_device_init_abs_range_warnings, evdev_device_check_abs_axis_range"]}
{"id": "C72", "title": "The lock LEDs of a keyboard shine as they were last asked to", "statement": "After any sequence of libinput_device_led_update on a keyboard, the LEDs of num lock, caps lock and scroll lock shine exactly as the last call asked, whatever other bits it had, and no other LED ever changes. Each call writes one report that ends with a SYN_REPORT, so nothing waits for the next one. Nothing is ever written to a device that is no keyboard.", "quantifier": "every sequence of calls, all 32 bits of the argument, every LED and state of LEDs before", "why_tests_cant": "There are 2^32 arguments and unbounded sequences; tests have no keyboard whose LEDs they read back.", "anchors": ["src/evdev.c: evdev_device_led_update", "src/libinput.c: libinput_device_led_update"]}
{"id": "C73", "title": "Two fingers scroll by as much as their middle moves", "statement": "While two fingers scroll and their middle only moves up or only down, 60 degrees or more from the horizontal in each frame or not at all, each frame scrolls vertically by exactly as many millimetres as the middle moves vertically, times one number that is that of the touchpad, and never to the side; a frame in which the middle rests scrolls nothing. The same holds to one side (less than 30 degrees), and diagonally into one quadrant (30 to 60 degrees) along both axes. So altogether as much is scrolled as the middle went up, to the side or along both axes, whatever the times are and however the way is divided into frames.", "quantifier": "every number of frames and fingers, every movement of each finger, all times, all resolutions, which fingers count", "why_tests_cant": "Movements, times and the division into frames are unbounded, and what is scrolled depends on the whole history through the constraint to an axis.", "anchors": ["src/evdev-mt-touchpad-gestures.c: tp_gesture_handle_state_scroll, tp_get_average_touches_delta, tp_gesture_apply_scroll_constraints", "src/evdev-mt-touchpad.h: tp_phys_delta", "src/evdev-mt-touchpad.c: tp_filter_motion_unaccelerated"]}
{"id": "C74", "title": "A right click is possible on every touchpad that has a left button", "statement": "A touchpad that has a left button and no right one begins with button areas or clickfinger, and after any history of configuration calls at least one of the two can be chosen, and then is what the getter returns. Button areas can be chosen exactly on a touchpad without a right button that the kernel calls a button pad or that has a left button, except for Apple's one-button model; clickfinger exactly on those of them that tell fingers apart and on that model. A touchpad with a right button never has button areas, whatever the kernel says. Middle button emulation is an option exactly on the touchpads with button areas and on ALPS ones that claim a middle button. A bug of the kernel is logged exactly if the touchpad is taken for something other than what the kernel says. Shown: an Apple button pad that does not tell fingers apart begins with clickfinger, which is refused when chosen again.", "quantifier": "every set of buttons and properties a touchpad may have, every model, every history of configuration calls", "why_tests_cant": "The hardware a test has is one of many, and histories of calls are unbounded.", "anchors": ["src/evdev-mt-touchpad-buttons.c: tp_guess_clickpad, tp_init_buttons, tp_button_config_click_get_methods, tp_click_get_default_method, tp_init_middlebutton_emulation", "src/libinput.c: libinput_device_config_click_set_method"]}
{"id": "C75", "title": "The physical buttons of a touchpad are never stuck, also when it becomes left-handed", "statement": "On a touchpad with physical left, right and middle buttons and without middle button emulation and tapping, after any history of reports and of calls of libinput_device_config_left_handed_set: each report tells every button that changed since the last report exactly once, in the order left, right, middle, and nothing else; key repeats are no changes. Left and right are exchanged as last asked for from the first moment on at which neither is held, so a button is released as what it was pressed, the buttons the caller takes to be down are those that are held, and the next press after both are up is told as asked for. Shown, the one exception: if left and right are both released in one report while a wish to exchange them waits, the program aborts; it aborts in no other case.", "quantifier": "every history of reports with any keys, and of left-handed settings", "why_tests_cant": "Histories are unbounded, and the mapping can change in the middle of the loop that tells the changes.", "anchors": ["src/evdev-mt-touchpad-buttons.c: tp_post_physical_buttons, tp_process_button, tp_post_button_events", "src/evdev-mt-touchpad.c: tp_process_key, tp_change_to_left_handed, tp_post_process_state", "src/evdev.c: evdev_pointer_post_button, evdev_update_key_down_count, evdev_left_handed_set", "src/evdev.h: evdev_to_left_handed"]}
