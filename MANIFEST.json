{
 "claims": [
  {
   "property": "C01",
   "status": "proved",
   "theorems": [
    "Libinput.EventQueue.event_queue_refines_fifo",
    "Libinput.EventQueue.event_queue_delivers_in_order",
    "Libinput.EventQueue.event_queue_conserves",
    "Libinput.EventQueue.next_type_predicts_get"
   ],
   "note": ""
  },
  {
   "property": "C02",
   "status": "proved",
   "theorems": [
    "Libinput.Buttons.seat_count_is_devices_holding",
    "Libinput.Buttons.seat_events_alternate",
    "Libinput.Buttons.seat_count_zero_iff_none_left"
   ],
   "note": ""
  },
  {
   "property": "C03",
   "status": "proved",
   "theorems": [
    "Libinput.Mouse.pointer_buttons_alternate",
    "Libinput.Buttons.device_events_alternate",
    "Libinput.Buttons.device_held_iff_more_presses",
    "Libinput.Buttons.device_run_survives_iff"
   ],
   "note": "pointer_buttons_alternate is about the complete mouse pipeline and needs no assumption; the others are about the emission gate for arbitrary callers."
  },
  {
   "property": "C10",
   "status": "proved",
   "theorems": [
    "Libinput.Mouse.suspend_releases_everything",
    "Libinput.Mouse.suspend_left_handed_aborts",
    "Libinput.Mouse.suspend_double_middle_leaves_pressed",
    "Libinput.Mouse.suspend_held_then_press_aborts"
   ],
   "note": "The exceptions named in the statement are shown to be real."
  },
  {
   "property": "C11",
   "status": "proved",
   "theorems": [
    "Libinput.Mouse.left_handed_never_splits_click",
    "Libinput.Mouse.late_left_handed_aborts",
    "Libinput.Mouse.hasty_left_handed_aborts"
   ],
   "note": "The two races named in the statement are shown to be real."
  },
  {
   "property": "C18",
   "status": "proved",
   "theorems": [
    "Libinput.Mouse.keyboard_keys_alternate",
    "Libinput.Mouse.keyboard_keys_faithful",
    "Libinput.Mouse.careful_keys_faithful"
   ],
   "note": ""
  },
  {
   "property": "C37",
   "status": "proved",
   "theorems": [
    "Libinput.Mouse.careful_history_survives",
    "Libinput.Mouse.careful_history_rests",
    "Libinput.Mouse.late_left_handed_aborts",
    "Libinput.Mouse.hasty_left_handed_aborts",
    "Libinput.Mouse.suspend_held_then_press_aborts",
    "Libinput.Mouse.all_three_abort",
    "Libinput.Mouse.odd_button_aborts"
   ],
   "note": ""
  },
  {
   "property": "C38",
   "status": "proved",
   "theorems": [
    "Libinput.Mouse.wheel_reported_unless_middle_held"
   ],
   "note": ""
  },
  {
   "property": "C04",
   "status": "proved",
   "theorems": [
    "Libinput.Debounce.debounced_edges_alternate",
    "Libinput.Debounce.debounce_converges",
    "Libinput.Debounce.debounce_no_internal_error",
    "Libinput.Debounce.seventeen_buttons_lose_one"
   ],
   "note": "For frames changing at most 16 buttons; seventeen_buttons_lose_one shows the property fails beyond."
  },
  {
   "property": "C05",
   "status": "proved",
   "theorems": [
    "Libinput.Debounce.debounce_delay_bounded",
    "Libinput.Debounce.debounce_timestamps",
    "Libinput.Debounce.clean_press_is_immediate"
   ],
   "note": ""
  },
  {
   "property": "C06",
   "status": "proved",
   "theorems": [
    "Libinput.MiddleButton.middle_events_alternate_no_abort",
    "Libinput.MiddleButton.middle_all_up_nothing_held",
    "Libinput.MiddleButton.middle_other_buttons_untouched"
   ],
   "note": "Assumes emulation is not switched on while a button is held; enabling_while_held_sticks shows the property fails otherwise."
  },
  {
   "property": "C07",
   "status": "proved",
   "theorems": [
    "Libinput.MiddleButton.middle_getter_returns_last_set",
    "Libinput.MiddleButton.middle_setting_deferred",
    "Libinput.MiddleButton.middle_setting_in_effect_at_rest",
    "Libinput.MiddleButton.enabling_while_held_sticks",
    "Libinput.MiddleButton.out_of_mask_button_aborts"
   ],
   "note": "enabling_while_held_sticks shows that switching emulation on while a button is held is not deferred."
  },
  {
   "property": "C08",
   "status": "proved",
   "theorems": [
    "Libinput.MiddleButton.chord_is_one_middle_click",
    "Libinput.MiddleButton.short_click_reported",
    "Libinput.MiddleButton.long_press_reported"
   ],
   "note": ""
  },
  {
   "property": "C09",
   "status": "proved",
   "theorems": [
    "Libinput.ButtonScroll.button_scroll_click_or_scroll",
    "Libinput.ButtonScroll.button_scroll_never_both",
    "Libinput.ButtonScroll.button_scroll_lock",
    "Libinput.ButtonScroll.small_motion_loses_click",
    "Libinput.ButtonScroll.lock_double_press_aborts"
   ],
   "note": ""
  },
  {
   "property": "C33",
   "status": "proved",
   "theorems": [
    "Libinput.Scroll.scroll_always_terminated",
    "Libinput.Scroll.scroll_terminator_exact",
    "Libinput.Scroll.touchpad_terminates_unscrolled_axis"
   ],
   "note": ""
  },
  {
   "property": "C21",
   "status": "proved",
   "theorems": [
    "Libinput.Strings.atoi_accepts_exactly_numerals",
    "Libinput.Strings.numeral_unique",
    "Libinput.Strings.atou_accepts_numerals",
    "Libinput.Strings.atou_exact",
    "Libinput.Strings.atod_accepts_exactly_decimals",
    "Libinput.Strings.atou_truncates",
    "Libinput.Strings.atou_accepts_negative"
   ],
   "note": ""
  },
  {
   "property": "C22",
   "status": "proved",
   "theorems": [
    "Libinput.Strings.split_returns_exactly_words",
    "Libinput.Strings.join_split_round_trip",
    "Libinput.Strings.join_defined"
   ],
   "note": ""
  },
  {
   "property": "C35",
   "status": "proved",
   "theorems": [
    "Libinput.Strings.strip_spec",
    "Libinput.Strings.endswith_iff",
    "Libinput.Strings.startswith_iff",
    "Libinput.Strings.basename_spec",
    "Libinput.Strings.trunkname_spec"
   ],
   "note": ""
  },
  {
   "property": "C20",
   "status": "proved",
   "theorems": [
    "Libinput.Parsers.wheel_click_range",
    "Libinput.Parsers.wheel_click_missing",
    "Libinput.Parsers.wheel_click_undefined"
   ],
   "note": ""
  },
  {
   "property": "C23",
   "status": "proved",
   "theorems": [
    "Libinput.Parsers.evdev_abs_values",
    "Libinput.Parsers.fields_total"
   ],
   "note": ""
  },
  {
   "property": "C24",
   "status": "proved",
   "theorems": [
    "Libinput.Parsers.dpi_zero_or_positive",
    "Libinput.Parsers.dpi_list",
    "Libinput.Parsers.dpi_garbage",
    "Libinput.Parsers.dimension_iff",
    "Libinput.Parsers.range_iff",
    "Libinput.Parsers.dimension_truncates"
   ],
   "note": ""
  },
  {
   "property": "C36",
   "status": "proved",
   "theorems": [
    "Libinput.Parsers.calibration_iff",
    "Libinput.Parsers.kv_doubles_iff",
    "Libinput.Parsers.evcodes_iff",
    "Libinput.Parsers.input_props_iff",
    "Libinput.Parsers.reliability_iff"
   ],
   "note": ""
  },
  {
   "property": "C25",
   "status": "proved",
   "theorems": [
    "Libinput.Versionsort.cmp_zero_iff",
    "Libinput.Versionsort.cmp_antisymm",
    "Libinput.Versionsort.cmp_trans",
    "Libinput.Versionsort.cmp_total",
    "Libinput.Versionsort.numbers_in_order"
   ],
   "note": ""
  },
  {
   "property": "C26",
   "status": "proved",
   "theorems": [
    "Libinput.Ratelimit.window_results",
    "Libinput.Ratelimit.at_most_two_bursts",
    "Libinput.Ratelimit.disabled_passes",
    "Libinput.Ratelimit.begin_is_windowStart"
   ],
   "note": ""
  },
  {
   "property": "C27",
   "status": "proved",
   "theorems": [
    "Libinput.Time.timeval_round_trip",
    "Libinput.Time.timeval_round_trip'",
    "Libinput.Time.us2ms_spec",
    "Libinput.Time.to_us_exact",
    "Libinput.Time.human_time"
   ],
   "note": ""
  },
  {
   "property": "C28",
   "status": "proved",
   "theorems": [
    "Libinput.Lists.lists_refine",
    "Libinput.Lists.lists_refine_run",
    "Libinput.Lists.empty_iff",
    "Libinput.Lists.walk_elements",
    "Libinput.Lists.sweep_filters"
   ],
   "note": "Removing the head of a list with elements, or inserting an empty list into itself, is misuse the code does not detect; the specification leaves it open."
  },
  {
   "property": "C14",
   "status": "proved",
   "theorems": [
    "Libinput.Timer.timer_fires_only_when_due",
    "Libinput.Timer.kernel_timer_is_earliest",
    "Libinput.Timer.nothing_due_after_flush",
    "Libinput.Timer.timers_never_abort",
    "Libinput.Timer.flush_terminates",
    "Libinput.Timer.list_is_armed",
    "Libinput.Timer.rearming_never_ends"
   ],
   "note": ""
  },
  {
   "property": "C15",
   "status": "proved",
   "theorems": [
    "Libinput.Tap.tap_buttons_alternate",
    "Libinput.Tap.one_button_at_a_time",
    "Libinput.Tap.held_button_has_cause",
    "Libinput.Tap.timer_releases",
    "Libinput.Tap.nothing_stuck",
    "Libinput.Tap.no_bug_no_fault"
   ],
   "note": "Fingers are described per frame by arbitrary palm/thumb/motion flags; each frame must fit the touch life cycle (a touch begins before it ends)."
  },
  {
   "property": "C16",
   "status": "proved",
   "theorems": [
    "Libinput.Tap.tap_clicks",
    "Libinput.Tap.map_set_at_rest",
    "Libinput.Tap.no_drag_when_off",
    "Libinput.Tap.click_without_finger_swallows_tap"
   ],
   "note": "A tap starts with the tap machine idle; click_without_finger_swallows_tap shows a clickpad press without finger leaves it dead and the next tap is lost."
  },
  {
   "property": "C17",
   "status": "proved",
   "theorems": [
    "Libinput.Tap.turning_off_releases",
    "Libinput.Tap.silent_until_new_touch"
   ],
   "note": ""
  },
  {
   "property": "C19",
   "status": "proved",
   "theorems": [
    "Libinput.Switch.switch_events_alternate",
    "Libinput.Switch.switch_state_reported",
    "Libinput.Switch.typing_reopens_once",
    "Libinput.Switch.found_closed_not_reopened",
    "Libinput.Switch.odd_value_repeats"
   ],
   "note": ""
  },
  {
   "property": "C34",
   "status": "proved",
   "theorems": [
    "Libinput.SendEvents.touchpad_suspended_iff",
    "Libinput.SendEvents.disabled_is_suspended",
    "Libinput.SendEvents.external_touchpad_follows_mode",
    "Libinput.SendEvents.set_mode_status",
    "Libinput.SendEvents.suspending_releases",
    "Libinput.SendEvents.Keyboard.disabled_is_closed",
    "Libinput.SendEvents.Keyboard.plain_device_follows_mode",
    "Libinput.SendEvents.Keyboard.keyboard_open_iff",
    "Libinput.SendEvents.Keyboard.closing_releases",
    "Libinput.SendEvents.disabled_mice_keep_touchpad_off",
    "Libinput.SendEvents.second_switch_unused",
    "Libinput.SendEvents.Keyboard.enabling_overrides_tablet_mode",
    "Libinput.SendEvents.Keyboard.keyboard_lost_with_switch"
   ],
   "note": "Opening a device node is assumed to succeed."
  },
  {
   "property": "C12",
   "status": "proved",
   "theorems": [
    "Libinput.TouchSlots.touches_well_formed",
    "Libinput.TouchSlots.seat_slots_unique",
    "Libinput.TouchSlots.suspend_ends_touches",
    "Libinput.TouchSlots.down_has_contact",
    "Libinput.TouchSlots.contact_is_down",
    "Libinput.TouchSlots.arbitration_silences",
    "Libinput.TouchSlots.palm_in_same_frame_sticks",
    "Libinput.TouchSlots.missed_slot_change_sticks"
   ],
   "note": ""
  },
  {
   "property": "C13",
   "status": "proved",
   "theorems": [
    "Libinput.TouchSlots.one_frame_at_most",
    "Libinput.TouchSlots.frame_follows",
    "Libinput.TouchSlots.frame_lost"
   ],
   "note": ""
  },
  {
   "property": "C32",
   "status": "proved",
   "theorems": [
    "Libinput.Hysteresis.inside_unchanged",
    "Libinput.Hysteresis.outside_dragged",
    "Libinput.Hysteresis.reported_near_finger",
    "Libinput.Hysteresis.path_follows_finger",
    "Libinput.Hysteresis.path_rests",
    "Libinput.Hysteresis.far_jump_overflows"
   ],
   "note": "Floating point is modelled by real numbers."
  },
  {
   "property": "C30",
   "status": "proved",
   "theorems": [
    "Libinput.Refs.alive_iff_reachable",
    "Libinput.Refs.device_alive_iff",
    "Libinput.Refs.event_takes",
    "Libinput.Refs.destroy_releases",
    "Libinput.Refs.context_frees_all",
    "Libinput.Refs.tool_outlives_tablet",
    "Libinput.Refs.mode_group_outlives_pad"
   ],
   "note": "tool_outlives_tablet and mode_group_outlives_pad show the exception named in the statement."
  },
  {
   "property": "C31",
   "status": "proved",
   "theorems": [
    "Libinput.SoftButtons.clicks_reported",
    "Libinput.SoftButtons.click_events_alternate",
    "Libinput.SoftButtons.clicking_and_tapping_survive",
    "Libinput.SoftButtons.only_three_buttons",
    "Libinput.SoftButtons.press_button",
    "Libinput.SoftButtons.press_button_by_position",
    "Libinput.SoftButtons.finger_counts",
    "Libinput.SoftButtons.finger_on_top",
    "Libinput.SoftButtons.finger_crossed_top",
    "Libinput.SoftButtons.finger_left_top",
    "Libinput.SoftButtons.finger_forgotten",
    "Libinput.SoftButtons.finger_returned",
    "Libinput.SoftButtons.click_waits",
    "Libinput.SoftButtons.settings_in_force",
    "Libinput.SoftButtons.areas_in_force",
    "Libinput.SoftButtons.press_seen_once",
    "Libinput.SoftButtons.release_without_press",
    "Libinput.SoftButtons.press_without_release",
    "Libinput.SoftButtons.middle_button_lost"
   ],
   "note": "Frames must fit the touch life cycle (a finger lands before it moves). middle_button_lost: a setting asked for and withdrawn during a click can leave stale button areas."
  },
  {
   "property": "C39",
   "status": "proved",
   "theorems": [
    "Libinput.Touch.touches_live",
    "Libinput.Touch.never_confused",
    "Libinput.Touch.fingers_counted",
    "Libinput.Touch.all_cleared",
    "Libinput.Touch.never_aborts",
    "Libinput.Touch.slots_followed",
    "Libinput.Touch.landed_on",
    "Libinput.Touch.fake_said",
    "Libinput.Touch.extra_touches_followed",
    "Libinput.Touch.buttons_count",
    "Libinput.Touch.size_decides",
    "Libinput.Touch.pressure_decides",
    "Libinput.Touch.pressure_extra",
    "Libinput.Touch.values_heard",
    "Libinput.Touch.extra_touches_topmost",
    "Libinput.Touch.tap_histories",
    "Libinput.Touch.button_histories",
    "Libinput.Touch.alps_aborts",
    "Libinput.Touch.ghost_finger",
    "Libinput.Touch.synaptics_stuck"
   ],
   "note": "alps_aborts, ghost_finger and synaptics_stuck show the exceptions named in the statement."
  },
  {
   "property": "C29",
   "status": "proved",
   "theorems": [
    "Libinput.Config.calls_never_crash",
    "Libinput.Config.call_succeeds_iff",
    "Libinput.Config.failed_call_changes_nothing",
    "Libinput.Config.getter_follows_history",
    "Libinput.Config.lock_follows_history",
    "Libinput.Config.set_then_get",
    "Libinput.Config.default_is_first_value",
    "Libinput.Config.queries_agree",
    "Libinput.Config.tablet_speed_is_zero",
    "Libinput.Config.lock_getter_lags",
    "Libinput.Config.default_not_supported"
   ],
   "note": "tablet_speed_is_zero, lock_getter_lags and default_not_supported show the exceptions named in the statement."
  },
  {
   "property": "C40",
   "status": "proved",
   "theorems": [
    "Libinput.Motion.gestures_well_formed",
    "Libinput.Motion.gestures_end",
    "Libinput.Motion.gestures_end_when_cleared",
    "Libinput.Motion.gesture_fingers",
    "Libinput.Motion.lifting_completes",
    "Libinput.Motion.fingers_back",
    "Libinput.Motion.gesture_fingers_down",
    "Libinput.Motion.motion_of_fingers",
    "Libinput.Motion.only_frames"
   ],
   "note": "Assumed of the arithmetic of scrolling: zero is zero (Sound)."
  },
  {
   "property": "C41",
   "status": "proved",
   "theorems": [
    "Libinput.Motion.edge_scrolling_ordered",
    "Libinput.Motion.edge_scrolling_terminated",
    "Libinput.Motion.edge_scrolling_stops_typing",
    "Libinput.Motion.edge_scroll_where",
    "Libinput.Motion.edge_scroll_needs_landing",
    "Libinput.Motion.edge_scroll_threshold",
    "Libinput.Motion.edge_scroll_no_motion",
    "Libinput.Motion.no_stop_when_suspended",
    "Libinput.Motion.no_stop_when_palm",
    "Libinput.Motion.no_scroll_after_click",
    "Libinput.Motion.scroll_and_motion_after_method_change"
   ],
   "note": "For histories without the listed exceptions (Careful); the last four theorems are the exceptions."
  },
  {
   "property": "C42",
   "status": "proved",
   "theorems": [
    "Libinput.Motion.typing_stops_touchpad",
    "Libinput.Motion.typing_held",
    "Libinput.Motion.typing_ends",
    "Libinput.Motion.only_typing_disables",
    "Libinput.Motion.shortcut_does_not_disable",
    "Libinput.Motion.typing_suspends_tapping",
    "Libinput.Motion.trackpoint_stops_touchpad",
    "Libinput.Motion.trackpoint_ends",
    "Libinput.Motion.few_nudges_do_not_disable",
    "Libinput.Motion.touch_while_typing_ignored",
    "Libinput.Motion.touch_while_trackpoint_ignored",
    "Libinput.Motion.key_held_by_a_removed_keyboard",
    "Libinput.Motion.modifier_held_by_a_removed_keyboard",
    "Libinput.Motion.trackpoint_resumes_tapping_while_typing"
   ],
   "note": "The last three theorems are the exceptions. Key codes are read as the kernel sends them."
  },
  {
   "property": "C43",
   "status": "proved",
   "theorems": [
    "Libinput.Motion.heavy_touch_ignored",
    "Libinput.Motion.heavy_touch_still",
    "Libinput.Motion.big_touch_ignored",
    "Libinput.Motion.touch_near_pen_ignored",
    "Libinput.Motion.tool_palm_ignored",
    "Libinput.Motion.edge_palm_ignored",
    "Libinput.Motion.edge_palm_released",
    "Libinput.Motion.finger_is_no_palm"
   ],
   "note": "Positions, sizes, pressures and directions of the touches are inputs. Palms by typing and by the trackpoint are C42."
  },
  {
   "property": "C44",
   "status": "proved",
   "theorems": [
    "Libinput.Tablet.inside_proximity",
    "Libinput.Tablet.leaves_clean",
    "Libinput.Tablet.pens_terminate",
    "Libinput.Tablet.stream_makes_sense",
    "Libinput.Tablet.tool_comes",
    "Libinput.Tablet.tool_goes",
    "Libinput.Tablet.ring_push",
    "Libinput.Tablet.ring_sum",
    "Libinput.Tablet.cDiv_four",
    "Libinput.Tablet.eraser_never_leaves",
    "Libinput.Tablet.eraser_lost",
    "Libinput.Tablet.lost_after_resume",
    "Libinput.Tablet.puck_kills_pen",
    "Libinput.Tablet.puck_hangs",
    "Libinput.Tablet.tip_up_out_of_nowhere",
    "Libinput.Tablet.leaves_with_tip_down",
    "Libinput.Tablet.release_without_press",
    "Libinput.Tablet.tool_changes_identity"
   ],
   "note": "Double arithmetic is exact in the model. ring_push, ring_sum and cDiv_four justify the model's history; the last nine theorems are the exceptions."
  },
  {
   "property": "C45",
   "status": "proved",
   "theorems": [
    "Libinput.Tablet.touch_ignored",
    "Libinput.Tablet.touch_listens",
    "Libinput.Tablet.touchpad_wakes_up",
    "Libinput.Tablet.next_touch_not_told",
    "Libinput.Tablet.first_touch_forgotten"
   ],
   "note": "The arbitration rectangle and the touches it cancels are not in this model; touch sequences are C12 and C39. The last three theorems are the exceptions."
  },
  {
   "property": "C46",
   "status": "proved",
   "theorems": [
    "Libinput.Tablet.values_in_range",
    "Libinput.Tablet.plainTilt_bound",
    "Libinput.Tablet.puckAngle_bound",
    "Libinput.Tablet.quirk_breaks_pressure",
    "Libinput.Tablet.shared_pen_breaks_pressure",
    "Libinput.Tablet.unseen_pen_at_zero"
   ],
   "note": "Double arithmetic is exact in the model. The last three theorems are the exceptions."
  },
  {
   "property": "C47",
   "status": "proved",
   "theorems": [
    "Libinput.Tablet.tip_follows_pressure",
    "Libinput.Tablet.tip_at_thresholds",
    "Libinput.Tablet.tip_without_distance",
    "Libinput.Tablet.tip_however_worn",
    "Libinput.Tablet.down_needs_pressure",
    "Libinput.Tablet.full_feels",
    "Libinput.Tablet.same_pressure_is_missed",
    "Libinput.Tablet.noise_hides_contact"
   ],
   "note": "Pens only; pens shared with another tablet are the exception shown in C46. The last two theorems are the exceptions."
  },
  {
   "property": "C48",
   "status": "proved",
   "theorems": [
    "Libinput.Pad.pad_buttons_alternate",
    "Libinput.Pad.pad_buttons_follow_the_kernel",
    "Libinput.Pad.pad_buttons_have_their_keys",
    "Libinput.Pad.pad_suspends_with_nothing_down",
    "Libinput.Pad.pad_events_fit",
    "Libinput.Pad.pad_modes_change_at_switches",
    "Libinput.Pad.pad_starts_in_the_mode_shown",
    "Libinput.Pad.pad_buttons_have_one_group",
    "Libinput.Pad.pad_groups_are_numbered",
    "Libinput.Pad.pad_assertions_hold",
    "Libinput.Pad.pad_positions",
    "Libinput.Pad.pad_hand_changes_with_nothing_down",
    "Libinput.Pad.second_ring_alone_aborts",
    "Libinput.Pad.unlisted_strip_aborts",
    "Libinput.Pad.codeless_buttons_shift_groups",
    "Libinput.Pad.disabled_pad_sends_events",
    "Libinput.Pad.finger_leaves_unnoticed",
    "Libinput.Pad.finger_comes_unnoticed",
    "Libinput.Pad.unknown_leds_hide_groups"
   ],
   "note": "Exact rational and real arithmetic instead of doubles. The last seven theorems are the exceptions."
  },
  {
   "property": "C49",
   "status": "proved",
   "theorems": [
    "Libinput.Accel.movement_is_scaled",
    "Libinput.Accel.filters_run",
    "Libinput.Accel.higher_speed_is_not_slower",
    "Libinput.Accel.movement_keeps_direction",
    "Libinput.Accel.constant_is_constant",
    "Libinput.Accel.resolution_matters",
    "Libinput.Accel.slowest_pen_stands_still",
    "Libinput.Accel.x230_loses_movement"
   ],
   "note": "Real numbers instead of doubles; times as natural numbers. The last three theorems are the exceptions."
  },
  {
   "property": "C50",
   "status": "proved",
   "theorems": [
    "Libinput.Accel.movement_is_scaled",
    "Libinput.Accel.velocity_is_determined",
    "Libinput.Accel.time_is_positive",
    "Libinput.Accel.straight_on_is_alike",
    "Libinput.Accel.going_back_is_a_turn",
    "Libinput.Accel.steady_movement",
    "Libinput.Accel.turns_and_pauses_forget",
    "Libinput.Accel.restart_forgets",
    "Libinput.Accel.first_movement_after_restart_remembers"
   ],
   "note": "Real numbers instead of doubles; times as natural numbers; the arc tangent is that of the complex numbers of Mathlib."
  },
  {
   "property": "C51",
   "status": "proved",
   "theorems": [
    "Libinput.Coords.devices_run",
    "Libinput.Coords.reports_tell_movements",
    "Libinput.Coords.points_are_calibrated",
    "Libinput.Coords.settings_are_told",
    "Libinput.Coords.screen_position",
    "Libinput.Coords.screen_range",
    "Libinput.Coords.mm_range",
    "Libinput.Coords.turns",
    "Libinput.Coords.upside_down_leaves_screen"
   ],
   "note": "Real numbers instead of doubles and floats; integers instead of ints. What the pointer acceleration does is C49 and C50; which movements scroll is C09."
  },
  {
   "property": "C52",
   "status": "proved",
   "theorems": [
    "Libinput.Quirks.file_accepted",
    "Libinput.Quirks.file_refused",
    "Libinput.Quirks.file_robust",
    "Libinput.Quirks.file_meaning_unique",
    "Libinput.Quirks.long_comment_has_effect",
    "Libinput.Quirks.hex_id_is_cut"
   ],
   "note": "Doubles and the conversion of %d beyond the range of int are parameters. The last two theorems are the exceptions."
  },
  {
   "property": "C53",
   "status": "proved",
   "theorems": [
    "Libinput.Quirks.data_accepted",
    "Libinput.Quirks.device_gets_last_value",
    "Libinput.Quirks.quirks_have_their_types",
    "Libinput.Quirks.file_order_unique",
    "Libinput.Quirks.empty_name_is_a_quote"
   ],
   "note": "fnmatch, the conversion of %x beyond 32 bits and what scandir finds are parameters. The last theorem is the exception."
  },
  {
   "property": "C54",
   "status": "proved",
   "theorems": [
    "Libinput.Quirks.Life.quirks_lifetime",
    "Libinput.Quirks.Life.libinput_frees_quirks"
   ],
   "note": "Memory is never short."
  },
  {
   "property": "C55",
   "status": "proved",
   "theorems": [
    "Libinput.Backend.Props.device_events",
    "Libinput.Backend.Props.no_duplicates_on_a_seat",
    "Libinput.Backend.Props.devices_are_those_of_udev",
    "Libinput.Backend.Props.devices_follow_udev",
    "Libinput.Backend.Props.no_devices_while_suspended",
    "Libinput.Backend.Props.suspend_removes_all",
    "Libinput.Backend.Props.seat_of_new_devices",
    "Libinput.Backend.Props.change_of_seat",
    "Libinput.Backend.Props.assign_refused",
    "Libinput.Backend.Props.resume_again",
    "Libinput.Backend.Props.resume_listens",
    "Libinput.Backend.Props.resume_fails",
    "Libinput.Backend.Props.no_crash",
    "Libinput.Backend.Props.moved_too_early_is_doubled",
    "Libinput.Backend.Props.moved_while_suspended_is_doubled",
    "Libinput.Backend.Props.lost_while_moving",
    "Libinput.Backend.Props.doubled_for_a_while",
    "Libinput.Backend.Props.suspend_after_filter_failure_crashes",
    "Libinput.Backend.Props.resume_after_filter_failure_does_nothing"
   ],
   "note": "Whether a node gives a usable device is a property of the node; udev never loses messages. The last six theorems are the exceptions."
  },
  {
   "property": "C56",
   "status": "proved",
   "theorems": [
    "Libinput.Backend.PathSeat.Props.device_events",
    "Libinput.Backend.PathSeat.Props.add_path",
    "Libinput.Backend.PathSeat.Props.add_refused",
    "Libinput.Backend.PathSeat.Props.remove_device",
    "Libinput.Backend.PathSeat.Props.suspend_removes_all",
    "Libinput.Backend.PathSeat.Props.change_of_seat",
    "Libinput.Backend.PathSeat.Props.one_device_each",
    "Libinput.Backend.PathSeat.Props.suspend_resume",
    "Libinput.Backend.PathSeat.Props.resumed_twice_is_doubled",
    "Libinput.Backend.PathSeat.Props.added_while_suspended_is_doubled",
    "Libinput.Backend.PathSeat.Props.removed_with_old_device",
    "Libinput.Backend.PathSeat.Props.seat_forgotten"
   ],
   "note": "Whether a node gives a usable device is a property of the node. The last four theorems are the exceptions."
  },
  {
   "property": "C57",
   "status": "proved",
   "theorems": [
    "Libinput.Totem.starts",
    "Libinput.Totem.no_crash",
    "Libinput.Totem.start_events",
    "Libinput.Totem.report_events",
    "Libinput.Totem.angles",
    "Libinput.Totem.well_formed",
    "Libinput.Totem.button_alternates",
    "Libinput.Totem.button_current",
    "Libinput.Totem.suspend_ends",
    "Libinput.Totem.touch_free",
    "Libinput.Totem.touch_ignores",
    "Libinput.Totem.touch_below",
    "Libinput.Totem.touch_taken",
    "Libinput.Totem.refused",
    "Libinput.Totem.brief_totem_crashes",
    "Libinput.Totem.brief_totem_goes_only",
    "Libinput.Totem.resumed_totem_never_comes",
    "Libinput.Totem.lifted_while_suspended_still_ignored",
    "Libinput.Totem.suspended_twice",
    "Libinput.Totem.released_in_the_air",
    "Libinput.Totem.pressed_in_the_air",
    "Libinput.Totem.size_not_a_number",
    "Libinput.Totem.stale_slot"
   ],
   "note": "Allocations do not fail; the acceleration of movements is the subject of C49. The last nine theorems are the exceptions."
  },
  {
   "property": "C58",
   "status": "proved",
   "theorems": [
    "Libinput.Events.posted",
    "Libinput.Events.tells",
    "Libinput.Events.conversions",
    "Libinput.Events.destroyed",
    "Libinput.Events.source_of_other_events"
   ],
   "note": "Floating-point numbers are rationals; positions need axes with a resolution, which C59 gives. The last theorem is the exception."
  },
  {
   "property": "C59",
   "status": "proved",
   "theorems": [
    "Libinput.Devices.seen_unique",
    "Libinput.Devices.device_iff",
    "Libinput.Devices.device_role",
    "Libinput.Devices.file_once",
    "Libinput.Devices.device_axes",
    "Libinput.Devices.device_size",
    "Libinput.Devices.device_marks",
    "Libinput.Devices.touchpad_place",
    "Libinput.Devices.device_buttons",
    "Libinput.Devices.device_touches",
    "Libinput.Devices.device_switches",
    "Libinput.Devices.device_capabilities",
    "Libinput.Devices.mouse_speed",
    "Libinput.Devices.wheel_angles",
    "Libinput.Devices.wheel_nonzero",
    "Libinput.Devices.mt_fuzz_kept",
    "Libinput.Devices.size_hint_zero"
   ],
   "note": "libevdev's functions are modelled from their documentation; allocations do not fail. The last two theorems are the exceptions."
  },
  {
   "property": "C60",
   "status": "proved",
   "theorems": [
    "Libinput.Dispatch.no_fault",
    "Libinput.Dispatch.no_fault_with_room",
    "Libinput.Dispatch.no_fault_plain",
    "Libinput.Dispatch.order",
    "Libinput.Dispatch.nothing_left",
    "Libinput.Dispatch.destroy_frees",
    "Libinput.Dispatch.failed_wait",
    "Libinput.Dispatch.round",
    "Libinput.Dispatch.all_reported",
    "Libinput.Dispatch.one_device",
    "Libinput.Dispatch.slow",
    "Libinput.Dispatch.suspended",
    "Libinput.Dispatch.resumed_ok",
    "Libinput.Dispatch.caught_up",
    "Libinput.Dispatch.freed_twice",
    "Libinput.Dispatch.resumed_but_not_read",
    "Libinput.Dispatch.monitor_after_free",
    "Libinput.Dispatch.suspending_oneself"
   ],
   "note": "The kernel, libevdev and mtdev are modelled from their documentation; allocations do not fail. The last four theorems are the exceptions and the need for the assumptions."
  },
  {
   "property": "C61",
   "status": "proved",
   "theorems": [
    "Libinput.Follow.follows",
    "Libinput.Follow.turns_only_without_fingers",
    "Libinput.Follow.fingers_change_without_motion",
    "Libinput.Follow.no_jump",
    "Libinput.Follow.no_sudden_jump",
    "Libinput.Follow.no_jump_after_missing",
    "Libinput.Follow.wrong_position_ignored",
    "Libinput.Follow.silence_before_motion",
    "Libinput.Follow.jitter_stays",
    "Libinput.Follow.jitter_of_one_finger",
    "Libinput.Follow.one_way_is_not_jitter",
    "Libinput.Follow.click_without_motion",
    "Libinput.Follow.click_holds",
    "Libinput.Follow.click_releases",
    "Libinput.Follow.restarts",
    "Libinput.Follow.slow_is_not_fast",
    "Libinput.Follow.fast_is_counted",
    "Libinput.Follow.regular_timestamps_taken_for_missing",
    "Libinput.Follow.turned_touchpad_jumps",
    "Libinput.Follow.standing_still_taken_for_jitter",
    "Libinput.Follow.no_jump_at_first",
    "Libinput.Follow.jitter_smoothed"
   ],
   "note": "Numbers are rationals and the length of a way is a parameter; the states of touches are the subject of C39, thumbs and palms of C40 and C43, the smoothing of C32. The theorems regular_timestamps_taken_for_missing, turned_touchpad_jumps and standing_still_taken_for_jitter are the exceptions."
  },
  {
   "property": "C62",
   "status": "proved",
   "theorems": [
    "Libinput.Tools.right_tool",
    "Libinput.Tools.recognised",
    "Libinput.Tools.one_per_tablet",
    "Libinput.Tools.never_mixed_up",
    "Libinput.Tools.serial_is_told",
    "Libinput.Tools.what_it_can_do",
    "Libinput.Tools.thresholds",
    "Libinput.Tools.no_more_than_the_tablet",
    "Libinput.Tools.size_of_totems_only",
    "Libinput.Tools.answers",
    "Libinput.Tools.tools_are_told",
    "Libinput.Tools.devices",
    "Libinput.Tools.serial_sticks",
    "Libinput.Tools.kind_sticks",
    "Libinput.Tools.id_sticks",
    "Libinput.Tools.already_there",
    "Libinput.Tools.asking_for_a_button",
    "Libinput.Tools.reads_only_what_exists",
    "Libinput.Tools.totems",
    "Libinput.Tools.late_serial_hidden",
    "Libinput.Tools.minus_one_inherits",
    "Libinput.Tools.first_tablet_decides",
    "Libinput.Tools.foreign_tool_reads_nothing",
    "Libinput.Tools.art_pen_reads_nothing",
    "Libinput.Tools.lone_tilt_reads_nothing",
    "Libinput.Tools.puck_turns_anyway"
   ],
   "note": "Tools are numbered objects; references to them are the subject of C30, their proximity of C44. The range of pressure is assumed not to overflow an int."
  },
  {
   "property": "C63",
   "status": "proved",
   "theorems": [
    "Libinput.Pairing.never_crashes",
    "Libinput.Pairing.partners_present",
    "Libinput.Pairing.listeners_present",
    "Libinput.Pairing.typing_heard",
    "Libinput.Pairing.typing_only",
    "Libinput.Pairing.on_not_announced",
    "Libinput.Pairing.stick_heard",
    "Libinput.Pairing.stick_only",
    "Libinput.Pairing.touchpad_off",
    "Libinput.Pairing.touchpad_on",
    "Libinput.Pairing.touchpad_tablet",
    "Libinput.Pairing.lid_followed",
    "Libinput.Pairing.typing_opens",
    "Libinput.Pairing.tablet_followed",
    "Libinput.Pairing.disabled_stays_off",
    "Libinput.Pairing.tablet_finds_touch",
    "Libinput.Pairing.tablet_finds_turned",
    "Libinput.Pairing.touchpad_finds_tablet",
    "Libinput.Pairing.two_switches_crash",
    "Libinput.Pairing.two_switches_off",
    "Libinput.Pairing.second_stick_unused",
    "Libinput.Pairing.typing_twice",
    "Libinput.Pairing.records_lost",
    "Libinput.Pairing.found_closed_stays",
    "Libinput.Pairing.late_touchpad_works",
    "Libinput.Pairing.keyboard_left_off",
    "Libinput.Pairing.keyboard_back_on"
   ],
   "note": "Only devices of the fallback implementation are keyboards, trackpoints and switches; allocations do not fail; resuming a device does not fail. What a touchpad does when it hears of keys is the subject of C42. The last nine theorems are the exceptions."
  },
  {
   "property": "C64",
   "status": "proved",
   "theorems": [
    "Libinput.Hand.area_exact",
    "Libinput.Hand.hand_ignored",
    "Libinput.Hand.hand_only",
    "Libinput.Hand.covered_not_heard",
    "Libinput.Hand.finger_heard",
    "Libinput.Hand.finger_ignored",
    "Libinput.Hand.pen_arrives",
    "Libinput.Hand.moving_pen_silent",
    "Libinput.Hand.edge_too_wide",
    "Libinput.Hand.lift_not_delayed",
    "Libinput.Hand.upright_sticks",
    "Libinput.Hand.single_touch_not_ignored"
   ],
   "note": "The tablet has one touch device, a touch screen; what a touchpad does is the subject of C45. Which touches the arrival of the pen cancels is stated for screens without hysteresis. The last four theorems are the exceptions."
  },
  {
   "property": "C65",
   "status": "proved",
   "theorems": [
    "Libinput.Zones.bottom_buttons",
    "Libinput.Zones.which_button",
    "Libinput.Zones.top_buttons",
    "Libinput.Zones.palm_strips",
    "Libinput.Zones.no_strips",
    "Libinput.Zones.scroll_edges",
    "Libinput.Zones.thumb_lines",
    "Libinput.Zones.hysteresis_margins",
    "Libinput.Zones.middle_free",
    "Libinput.Zones.assumed_size",
    "Libinput.Zones.assumed_size_has_strips"
   ],
   "note": "Rational numbers instead of doubles; the size of a touchpad is not negative. What the zones are used for is the subject of C31, C41, C40 and C43. The last theorem is the exception."
  },
  {
   "property": "C66",
   "status": "proved",
   "theorems": [
    "Libinput.Ways.same_way_scrolls",
    "Libinput.Ways.contrary_ways_pinch",
    "Libinput.Ways.palm_leaves_side",
    "Libinput.Ways.palm_leaves_top",
    "Libinput.Ways.slow_pinch_scrolls"
   ],
   "note": "Real numbers instead of doubles; the arc tangent is that of the complex numbers of Mathlib. What happens before and after the decision is the subject of C40, C43 and C33. The last theorem is the exception."
  },
  {
   "property": "C67",
   "status": "proved",
   "theorems": [
    "Libinput.Pinch.scale_is_distance",
    "Libinput.Pinch.turns_add_up",
    "Libinput.Pinch.moves_add_up",
    "Libinput.Pinch.event_iff_moved"
   ],
   "note": "Real numbers instead of doubles, atan2 is the argument of the complex numbers of Mathlib; the acceleration of the movement is the subject of C49. The two fingers stay the same during a pinch. They are not at the same place when it is recognised (the code divides by their distance)."
  },
  {
   "property": "C68",
   "status": "proved",
   "theorems": [
    "Libinput.Together.middle_followed",
    "Libinput.Together.one_report",
    "Libinput.Together.resting_fingers",
    "Libinput.Together.constant_multiplies"
   ],
   "note": "Rational numbers instead of doubles. Which fingers count stays the same during the history of middle_followed; fingers beyond the number of slots are not followed by the code. The acceleration is the subject of C49, the constraint of scrolling to an axis of C69."
  },
  {
   "property": "C69",
   "status": "proved",
   "theorems": [
    "Libinput.Axis.one_axis_at_most",
    "Libinput.Axis.free_stays_free",
    "Libinput.Axis.upright_stays",
    "Libinput.Axis.level_stays",
    "Libinput.Axis.diagonal_free",
    "Libinput.Axis.diagonal_breaks_out",
    "Libinput.Axis.level_taken",
    "Libinput.Axis.upright_taken",
    "Libinput.Axis.upright_to_level",
    "Libinput.Axis.level_to_upright",
    "Libinput.Axis.long_diagonal_frees",
    "Libinput.Axis.turning_round_is_lost"
   ],
   "note": "Rational numbers instead of doubles; degrees are the slopes of the code (1.73, 0.57, 3.73, 0.27). Which movement the fingers make together is the subject of C68. The last theorem is the exception."
  },
  {
   "property": "C70",
   "status": "proved",
   "theorems": [
    "Libinput.Bits.remembered",
    "Libinput.Bits.any_held",
    "Libinput.Bits.pressed_told",
    "Libinput.Bits.released_told",
    "Libinput.Bits.forced_told"
   ],
   "note": "Reading or writing outside of the array is undefined in C and not claimed about. The events that are made of the codes are the subject of the pad and tablet claims, whose models use sets of codes; this claim is why they may."
  },
  {
   "property": "C71",
   "status": "proved",
   "theorems": [
    "Libinput.Log.message_heard",
    "Libinput.Log.no_handler_silent",
    "Libinput.Log.limited_at_most",
    "Libinput.Log.limited_heard",
    "Libinput.Log.in_range_silent",
    "Libinput.Log.out_of_range_logged",
    "Libinput.Log.range_warning_heard",
    "Libinput.Log.range_warnings_at_most",
    "Libinput.Log.unheard_messages_count",
    "Libinput.Log.burst_of_one_never_says"
   ],
   "note": "Messages are numbers, handlers are numbers; 0.05 is exact. The last two theorems are the exceptions. Times are such that adding the interval does not overflow 64 bits."
  },
  {
   "property": "C72",
   "status": "proved",
   "theorems": [
    "Libinput.Leds.last_update_shines",
    "Libinput.Leds.one_report",
    "Libinput.Leds.others_untouched"
   ],
   "note": "The kernel is in the specification: events take effect at the report. The write is taken to succeed; the code ignores its result."
  },
  {
   "property": "C73",
   "status": "proved",
   "theorems": [
    "Libinput.TwoFinger.scrolls_up",
    "Libinput.TwoFinger.scrolls_sideways",
    "Libinput.TwoFinger.scrolls_diagonally",
    "Libinput.TwoFinger.whole_way_up",
    "Libinput.TwoFinger.whole_way_sideways",
    "Libinput.TwoFinger.whole_way_diagonally"
   ],
   "note": "Rational numbers instead of doubles. What is scrolled is what is handed on; the start and the end of scroll events are the subject of C33, what each finger moves of C61, the number of the touchpad of C68."
  },
  {
   "property": "C74",
   "status": "proved",
   "theorems": [
    "Libinput.Clickpad.bug_logged_iff",
    "Libinput.Clickpad.areas_iff",
    "Libinput.Clickpad.clickfinger_iff",
    "Libinput.Clickpad.methods_told",
    "Libinput.Clickpad.default_method",
    "Libinput.Clickpad.right_click_possible",
    "Libinput.Clickpad.right_button_no_areas",
    "Libinput.Clickpad.middle_iff",
    "Libinput.Clickpad.default_refused"
   ],
   "note": "On top of the configuration model of C29. The buttons and properties are those left after quirks. What the methods then do with a click is the subject of the claims about software buttons. The last theorem is the exception."
  },
  {
   "property": "C75",
   "status": "proved",
   "theorems": [
    "Libinput.PadButtons.changes_told",
    "Libinput.PadButtons.aborts_iff",
    "Libinput.PadButtons.caller_knows",
    "Libinput.PadButtons.wish_granted",
    "Libinput.PadButtons.released_together_aborts"
   ],
   "note": "changes_told is an equation between the model with its bits, counters and loop, and the specification. Middle button emulation, tapping and suspending, which also press or release buttons, are not part of this model. A report is read as a whole. aborts_iff and released_together_aborts are the exception."
  }
 ]
}
