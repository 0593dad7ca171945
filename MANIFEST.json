{"claims": [
 {"property": "C01", "status": "proved", "theorems": ["Firefly.Props.heartbeat_roundtrip"], "note": ""},
 {"property": "C02", "status": "proved", "theorems": ["Firefly.Props.setEffect_roundtrip"], "note": ""},
 {"property": "C03", "status": "proved", "theorems": ["Firefly.Props.control_roundtrip"], "note": ""},
 {"property": "C04", "status": "proved", "theorems": ["Firefly.Props.packetEq_iff", "Firefly.Props.packetEq_refl", "Firefly.Props.packetEq_symm", "Firefly.Props.packetEq_trans", "Firefly.Props.packetEq_illegal", "Firefly.Props.packetEq_ignores_tail"], "note": ""},
 {"property": "C05", "status": "proved", "theorems": ["Firefly.Props.delivered_iff_not_recent", "Firefly.Props.send_never_faults"], "note": ""},
 {"property": "C06", "status": "proved", "theorems": ["Firefly.Props.relay_exactly_once", "Firefly.Props.receive_nothing"], "note": ""},
 {"property": "C07", "status": "proved", "theorems": ["Firefly.Props.duplicate_needs_five"], "note": ""},
 {"property": "C08", "status": "proved", "theorems": ["Firefly.Props.own_packet_ignored"], "note": ""},
 {"property": "C09", "status": "proved", "theorems": ["Firefly.Props.flood_no_repeat", "Firefly.Props.flood_bounded"], "note": ""},
 {"property": "C10", "status": "proved", "theorems": ["Firefly.Props.flood_reaches_all"], "note": ""},
 {"property": "C11", "status": "proved", "theorems": ["Firefly.Props.flood_can_run_forever"], "note": "The English claim (every flood dies out) is false; its negation is proved with a concrete endless flood of six ids. C09 is the true bounded version."},
 {"property": "C12", "status": "proved", "theorems": ["Firefly.Props.originated_id_fresh", "Firefly.Props.host_originates_ignored_id", "Firefly.Props.host_originated_id_range"], "note": "Arduino build: originated ids are never 0, 1 or 65535. Host build: id 0 can be drawn (proved), so the full claim fails there."},
 {"property": "C13", "status": "proved", "theorems": ["Firefly.Props.framing_roundtrip", "Firefly.Props.framing_layout"], "note": ""},
 {"property": "C14", "status": "proved", "theorems": ["Firefly.Props.send_in_bounds_iff", "Firefly.Props.read_in_bounds_iff", "Firefly.Props.read_overflows"], "note": "In bounds exactly for lengths up to the frame size; the overflow for longer ones is proved as a counterexample to the unconditional claim."},
 {"property": "C15", "status": "proved", "theorems": ["Firefly.Props.relay_loses_payload", "Firefly.Props.fresh_relay_rebroadcasts"], "note": "The English claim is false on hardware; the negation is proved."},
 {"property": "C16", "status": "proved", "theorems": ["Firefly.Props.empty_packet_never_received", "Firefly.Props.hw_claim_never_received"], "note": "The English claim is false on hardware; the negation is proved."},
 {"property": "C17", "status": "proved", "theorems": ["Firefly.Props.no_takeover_before_silence"], "note": ""},
 {"property": "C18", "status": "proved", "theorems": ["Firefly.Props.takeover_after_silence"], "note": ""},
 {"property": "C19", "status": "proved", "theorems": ["Firefly.Props.regular_signs_keep_slave"], "note": ""},
 {"property": "C20", "status": "proved", "theorems": ["Firefly.Props.heartbeats_apart", "Firefly.Props.master_heartbeat_due"], "note": ""},
 {"property": "C21", "status": "proved", "theorems": ["Firefly.Props.demoted_iff", "Firefly.Props.role_changes_in_ticks_only"], "note": ""},
 {"property": "C22", "status": "proved", "theorems": ["Firefly.Props.two_masters_resolve", "Firefly.Props.heartbeat_answer"], "note": ""},
 {"property": "C23", "status": "proved", "theorems": ["Firefly.Props.many_masters_resolve", "Firefly.Props.at_most_one_master", "Firefly.Props.all_masters_can_resign"], "note": "Exactly who stays master, hence at most one; that none may be left is proved with a concrete witness."},
 {"property": "C24", "status": "proved", "theorems": ["Firefly.Props.sync_exact"], "note": ""},
 {"property": "C25", "status": "proved", "theorems": ["Firefly.Props.network_time_only_jumps_on_heartbeat"], "note": ""},
 {"property": "C26", "status": "proved", "theorems": ["Firefly.Props.slaves_agree_with_sender", "Firefly.Props.own_heartbeat_time"], "note": ""},
 {"property": "C27", "status": "proved", "theorems": ["Firefly.Props.current_instruction", "Firefly.Props.current_effect_index"], "note": ""},
 {"property": "C28", "status": "proved", "theorems": ["Firefly.Props.own_change_is_fresh_choice", "Firefly.Props.fresh_choice_in_range"], "note": ""},
 {"property": "C29", "status": "proved", "theorems": ["Firefly.Props.requested_effect_held_then_rotates"], "note": ""},
 {"property": "C30", "status": "proved", "theorems": ["Firefly.Props.requested_effect_held_then_rotates", "Firefly.Props.zero_delay_stops_rotation"], "note": "For delays of at least 1 s the claim is proved; for delay 0 it is false and the negation is proved."},
 {"property": "C31", "status": "proved", "theorems": ["Firefly.Props.takeover_keeps_cadence"], "note": "The case of exactly 60000 ms refutes the unconditional claim and is part of the theorem."},
 {"property": "C32", "status": "proved", "theorems": ["Firefly.Props.repeats_keep_cadence", "Firefly.Props.same_effect_is_no_change", "Firefly.Props.repeat_of_large_effect_counts_as_change"], "note": "Holds for effect numbers below 128; for larger ones the negation is proved."},
 {"property": "C33", "status": "proved", "theorems": ["Firefly.Props.arduino_never_faults", "Firefly.Props.unknown_type_is_inert"], "note": ""},
 {"property": "C34", "status": "proved", "theorems": ["Firefly.Props.host_aborts_iff", "Firefly.Props.other_fault"], "note": ""},
 {"property": "C35", "status": "proved", "theorems": ["Firefly.Props.bounded_work", "Firefly.Props.bounded_tick"], "note": ""},
 {"property": "C36", "status": "proved", "theorems": ["Firefly.Props.due_timer_is_not_lost", "Firefly.Props.due_timer_is_served"], "note": ""},
 {"property": "C37", "status": "proved", "theorems": ["Firefly.Props.timer_exact", "Firefly.Props.timer_at_wrap", "Firefly.Props.timer_reported_iff"], "note": "True without wrap-around; the failure at and beyond 2^32 is proved."},
 {"property": "C38", "status": "proved", "theorems": ["Firefly.Props.local_setEffect"], "note": ""},
 {"property": "C39", "status": "proved", "theorems": ["Firefly.Props.colour_request_held_for_red_seconds"], "note": "The English claim is false; what happens instead is proved."},
 {"property": "C40", "status": "proved", "theorems": ["Firefly.Props.repetition_due", "Firefly.Props.repetitions_apart", "Firefly.Props.repeats_within_three_ticks"], "note": ""},
 {"property": "C41", "status": "proved", "theorems": ["Firefly.Props.all_converge", "Firefly.Props.instruction_persists"], "note": ""},
 {"property": "C42", "status": "proved", "theorems": ["Firefly.Props.flood_starves_timers", "Firefly.Props.flood_can_starve", "Firefly.Props.master_heartbeat_due"], "note": "The unconditional claim is false (starving flood constructed for every schedule); the conditional part is C20's master_heartbeat_due."},
 {"property": "C43", "status": "proved", "theorems": ["Firefly.Props.getColor_wraps", "Firefly.Props.getColor_empty"], "note": ""},
 {"property": "C44", "status": "proved", "theorems": ["Firefly.Props.gradient_total", "Firefly.Props.gradient_small", "Firefly.Props.gradient_faults_iff"], "note": ""},
 {"property": "C45", "status": "proved", "theorems": ["Firefly.Props.gradient_hits_colours", "Firefly.Props.every_colour_has_a_position"], "note": ""},
 {"property": "C46", "status": "proved", "theorems": ["Firefly.Props.gradient_saturation_value_between"], "note": ""},
 {"property": "C47", "status": "proved", "theorems": ["Firefly.Props.gradient_hue_on_shorter_arc", "Firefly.Props.gradient_hue_tie_takes_longer_arc"], "note": "True unless the hues are exactly 127 apart; that exception is proved by a counterexample."},
 {"property": "C48", "status": "proved", "theorems": ["Firefly.Props.gradient_closes", "Firefly.Props.gradient_need_not_close"], "note": "True for up to 17 colours; counterexample with 18 colours proved."},
 {"property": "C49", "status": "proved", "theorems": ["Firefly.Props.mirror_distance_to_nearer_end", "Firefly.Props.mirror_symmetric", "Firefly.Props.mirror_identity", "Firefly.Props.mirror_empty"], "note": ""},
 {"property": "C50", "status": "proved", "theorems": ["Firefly.Props.circle_angle", "Firefly.Props.circle_angle_monotone", "Firefly.Props.circle_radius_iff"], "note": "The radius is right exactly up to 50 LEDs."},
 {"property": "C51", "status": "proved", "theorems": ["Firefly.Props.flag_enabled_iff_listed", "Firefly.Props.strip_count"], "note": ""},
 {"property": "C52", "status": "proved", "theorems": ["Firefly.Props.ledCount_mod", "Firefly.Props.ledCount_is_sum_iff", "Firefly.Props.catalogue_ledCount", "Firefly.Props.catalogue_current", "Firefly.Props.simple_device", "Firefly.Props.ledCount_can_be_wrong"], "note": "The reported count is the true total modulo 256; right exactly below 256 LEDs, hence for every shipped device; a wrong count is exhibited."},
 {"property": "C53", "status": "proved", "theorems": ["Firefly.Props.frame_writes_each_led_once", "Firefly.Props.frame_defined", "Firefly.Props.shown_colour_unique"], "note": ""},
 {"property": "C54", "status": "proved", "theorems": ["Firefly.Props.frame_stays_in_buffer", "Firefly.Props.catalogue_in_buffer", "Firefly.Props.fake_frame_stays_in_buffer"], "note": "In bounds up to 255 LEDs; beyond that the out-of-bounds write is proved."},
 {"property": "C55", "status": "proved", "theorems": ["Firefly.Props.registry_roundtrip", "Firefly.Props.too_many_effects_abort"], "note": ""},
 {"property": "C56", "status": "proved", "theorems": ["Firefly.Props.lookup_total_arduino", "Firefly.Props.lookup_host", "Firefly.Props.lookup_empty"], "note": ""},
 {"property": "C57", "status": "proved", "theorems": ["Firefly.Props.shipped_registry"], "note": ""},
 {"property": "C58", "status": "proved", "theorems": ["Firefly.Props.effect_total", "Firefly.Props.firefly_controller_shift", "Firefly.Props.shipped_frame_total"], "note": ""},
 {"property": "C59", "status": "proved", "theorems": ["Firefly.Props.palette_out_of_range"], "note": ""},
 {"property": "C60", "status": "proved", "theorems": ["Firefly.Props.colour_depends_on_instruction_only", "Firefly.Props.nodes_show_same_picture"], "note": ""},
 {"property": "C61", "status": "proved", "theorems": ["Firefly.Props.stopLight_tiny", "Firefly.Props.stopLight_lamps", "Firefly.Props.stopLight_icon", "Firefly.Props.stopLight_order"], "note": ""},
 {"property": "C62", "status": "proved", "theorems": ["Firefly.Props.blink_duty", "Firefly.Props.blink_colour"], "note": ""},
 {"property": "C63", "status": "proved", "theorems": ["Firefly.Props.spark_window", "Firefly.Props.spark_window_circular", "Firefly.Props.dark_is_black"], "note": ""},
 {"property": "C64", "status": "proved", "theorems": ["Firefly.Props.fireflies_in_sync", "Firefly.Props.firefly_glow", "Firefly.Props.firefly_shift_is_smooth"], "note": ""},
 {"property": "C65", "status": "proved", "theorems": ["Firefly.Props.value_limits", "Firefly.Props.tiny_rainbow_exceeds_limit", "Firefly.Props.rorschach_exceeds_limit"], "note": "The limits are proved for every FastLED satisfying the stated laws; the two exceptions are exhibited."},
 {"property": "C66", "status": "proved", "theorems": ["Firefly.Props.contrast_never_dark"], "note": ""},
 {"property": "C67", "status": "proved", "theorems": ["Firefly.Props.rorschach_symmetric"], "note": ""},
 {"property": "C68", "status": "proved", "theorems": ["Firefly.Props.pride_stripes", "Firefly.Props.pride_stripes_tiny", "Firefly.Props.pride_first_stripe_fades_from_fourth"], "note": "Exact pattern proved; the first stripe's fade refutes the claim for that stripe."},
 {"property": "C69", "status": "proved", "theorems": ["Firefly.Props.noise_exact", "Firefly.Props.noise_ignores_generator"], "note": ""},
 {"property": "C70", "status": "proved", "theorems": ["Firefly.Props.thresholdSin_value", "Firefly.Props.thresholdSin_zero_iff", "Firefly.Props.thresholdSin_monotone"], "note": ""},
 {"property": "C71", "status": "proved", "theorems": ["Firefly.Props.mirrored_effects_symmetric"], "note": ""},
 {"property": "C72", "status": "proved", "theorems": ["Firefly.Props.control_shows_colour", "Firefly.Props.control_defined", "Firefly.Props.dark_shows_black"], "note": ""},
 {"property": "C73", "status": "proved", "theorems": ["Firefly.Props.selection_step", "Firefly.Props.selection_valid", "Firefly.Props.selection_cycle"], "note": ""},
 {"property": "C74", "status": "proved", "theorems": ["Firefly.Props.broadcast_sends_selection", "Firefly.Props.broadcast_after_palette_mode", "Firefly.Props.broadcast_before_selection"], "note": "Both directions: the claim, and the two situations in which it fails."},
 {"property": "C75", "status": "proved", "theorems": ["Firefly.Props.main_led_write", "Firefly.Props.panel_places", "Firefly.Props.main_led_beyond"], "note": ""},
 {"property": "C76", "status": "proved", "theorems": ["Firefly.Props.thresholds", "Firefly.Props.raw_reading_robust", "Firefly.Props.battery_hysteresis", "Firefly.Props.shut_down_once", "Firefly.Props.no_flapping_within_band", "Firefly.Props.controller_sleeps_iff", "Firefly.Props.board_sleeps_iff"], "note": ""},
 {"property": "C77", "status": "proved", "theorems": ["Firefly.Props.gauge_value", "Firefly.Props.gauge_monotone", "Firefly.Props.gauge_above_full_is_red", "Firefly.Props.gauge_shown_twenty_seconds"], "note": ""},
 {"property": "C78", "status": "proved", "theorems": ["Firefly.Props.dmx_change_transmitted", "Firefly.Props.dmx_packet", "Firefly.Props.dmx_frame", "Firefly.Props.dmx_repeats", "Firefly.Props.dmx_first", "Firefly.Props.dmx_stalls_after_wrap", "Firefly.Props.dmx_silent_for_weeks", "Firefly.Props.dmx_first_packet_ignored"], "note": ""},
 {"property": "C79", "status": "proved", "theorems": ["Firefly.Props.read_after_write", "Firefly.Props.second_write_is_free", "Firefly.Props.power_loss_safe", "Firefly.Props.interrupted_erasure_accepted", "Firefly.Props.stored_device_same_memory", "Firefly.Props.stored_device_not_self_contained"], "note": "Power loss is modelled between flash operations (one erase, one program operation per page); an erase torn half-way is covered by the negative theorem."},
 {"property": "C80", "status": "proved", "theorems": ["Firefly.Props.bootloader_needs_double_reset", "Firefly.Props.power_up_runs_application", "Firefly.Props.reset_after_application"], "note": ""},
 {"property": "C81", "status": "proved", "theorems": ["Firefly.Props.watchdog_schedule", "Firefly.Props.board_feeds_watchdog", "Firefly.Props.watchdog_fed_every_seven", "Firefly.Props.watchdog_never_fires"], "note": ""},
 {"property": "C82", "status": "proved", "theorems": ["Firefly.Props.button_edges", "Firefly.Props.no_button_at_start"], "note": ""},
 {"property": "C83", "status": "proved", "theorems": ["Firefly.Props.destructor_frees_once", "Firefly.Props.destructor_double_free"], "note": ""},
 {"property": "C84", "status": "proved", "theorems": ["Firefly.Props.startup_frames", "Firefly.Props.startup_duration", "Firefly.Props.startup_without_leds", "Firefly.Props.catalogue_starts"], "note": ""},
 {"property": "C85", "status": "proved", "theorems": ["Firefly.Props.colour_display", "Firefly.Props.colour_button"], "note": ""},
 {"property": "C86", "status": "proved", "theorems": ["Firefly.Props.palette_display", "Firefly.Props.palette_button", "Firefly.Props.palette_after_colour", "Firefly.Props.colour_button_effect_number"], "note": "Refuted part: palette_after_colour (a run), colour_button_effect_number (after every colour press)."},
 {"property": "C87", "status": "proved", "theorems": ["Firefly.Props.lamps_palette_mode", "Firefly.Props.lamps_colour_mode", "Firefly.Props.lamps_effect_mode", "Firefly.Props.right_lamp_wrong"], "note": "Refuted part: right_lamp_wrong; the lamps theorems state what the right lamps do instead."},
 {"property": "C88", "status": "proved", "theorems": ["Firefly.Props.status_leds", "Firefly.Props.dark_leds"], "note": ""},
 {"property": "C89", "status": "proved", "theorems": ["Firefly.Props.effect_display", "Firefly.Props.dark_leds"], "note": ""},
 {"property": "C90", "status": "proved", "theorems": ["Firefly.Props.low_battery", "Firefly.Props.low_battery_silent", "Firefly.Props.low_battery_light_stays", "Firefly.Props.controller_sleeps_iff"], "note": ""},
 {"property": "C91", "status": "proved", "theorems": ["Firefly.Props.controller_never_faults", "Firefly.Props.controller_runs"], "note": ""},
 {"property": "C92", "status": "proved", "theorems": ["Firefly.Props.controller_is_a_node", "Firefly.Props.controller_inputs", "Firefly.Props.controller_untouched"], "note": ""},
 {"property": "C93", "status": "proved", "theorems": ["Firefly.Props.board_is_a_node", "Firefly.Props.board_reads_frames"], "note": ""},
 {"property": "C94", "status": "proved", "theorems": ["Firefly.Props.board_never_faults", "Firefly.Props.bad_palette_crashes"], "note": ""},
 {"property": "C95", "status": "proved", "theorems": ["Firefly.Props.board_shows_instruction", "Firefly.Props.board_led"], "note": ""},
 {"property": "C96", "status": "proved", "theorems": ["Firefly.Props.low_battery_board", "Firefly.Props.board_sleeps_iff", "Firefly.Props.node_never_sleeps"], "note": ""},
 {"property": "C97", "status": "proved", "theorems": ["Firefly.Props.hw_hears_neighbours_only"], "note": ""},
 {"property": "C98", "status": "proved", "theorems": ["Firefly.Props.hw_instruction_one_hop"], "note": ""},
 {"property": "C99", "status": "proved", "theorems": ["Firefly.Props.hw_claim_never_heard", "Firefly.Props.hw_demoted_only_by_heartbeat", "Firefly.Props.hw_two_masters_forever"], "note": "Refuted part: hw_two_masters_forever, for every number of heartbeats up to the wrap-around of the clock."},
 {"property": "C100", "status": "proved", "theorems": ["Firefly.Props.effects_repeat", "Firefly.Props.repetition_ends"], "note": ""},
 {"property": "C101", "status": "proved", "theorems": ["Firefly.Props.swinging_lights_sum", "Firefly.Props.swinging_lights_dark", "Firefly.Props.effects_repeat"], "note": ""},
 {"property": "C102", "status": "proved", "theorems": ["Firefly.Props.lightning_flashes"], "note": ""},
 {"property": "C103", "status": "proved", "theorems": ["Firefly.Props.rainbow_position", "Firefly.Props.rainbow_travels", "Firefly.Props.rainbow_pulse", "Firefly.Props.rainbow_still"], "note": ""},
 {"property": "C104", "status": "proved", "theorems": ["Firefly.Props.palette_display_gradient", "Firefly.Props.palette_display_first"], "note": ""},
 {"property": "C105", "status": "proved", "theorems": ["Firefly.Props.fire_colours"], "note": ""},
 {"property": "C106", "status": "proved", "theorems": ["Firefly.Props.firefly_glows", "Firefly.Props.firefly_controller_odd"], "note": ""},
 {"property": "C107", "status": "proved", "theorems": ["Firefly.Props.rainbow_bumps_pattern", "Firefly.Props.contrast_bumps_pattern"], "note": ""},
 {"property": "C108", "status": "proved", "theorems": ["Firefly.Props.police_pattern"], "note": ""},
 {"property": "C109", "status": "proved", "theorems": ["Firefly.Props.colour_cycle_gradient", "Firefly.Props.colour_cycle_pulse"], "note": ""},
 {"property": "C110", "status": "proved", "theorems": ["Firefly.Props.sole_master_stable"], "note": ""},
 {"property": "C111", "status": "proved", "theorems": ["Firefly.Props.settled_clock"], "note": ""},
 {"property": "C112", "status": "proved", "theorems": ["Firefly.Props.settled_instruction"], "note": ""},
 {"property": "C113", "status": "proved", "theorems": ["Firefly.Props.spark_pattern"], "note": ""},
 {"property": "C114", "status": "proved", "theorems": ["Firefly.Props.rorschach_pattern", "Firefly.Props.rorschach_seam"], "note": "Refuted part: rorschach_seam."},
 {"property": "C115", "status": "proved", "theorems": ["Firefly.Props.installation_is_network"], "note": ""},
 {"property": "C116", "status": "proved", "theorems": ["Firefly.Props.settled_show"], "note": ""},
 {"property": "C117", "status": "proved", "theorems": ["Firefly.Props.settled_same_show", "Firefly.Props.settled_same_show_as_master", "Firefly.Props.settled_show_master"], "note": ""},
 {"property": "C118", "status": "proved", "theorems": ["Firefly.Props.lost_master_replaced"], "note": ""},
 {"property": "C119", "status": "proved", "theorems": ["Firefly.Props.controller_colour_shown"], "note": ""},
 {"property": "C120", "status": "proved", "theorems": ["Firefly.Props.controller_effect_shown", "Firefly.Props.controller_palette_shown"], "note": ""},
 {"property": "C121", "status": "proved", "theorems": ["Firefly.Props.dmx_colour_shown"], "note": ""},
 {"property": "C122", "status": "proved", "theorems": ["Firefly.Props.fire_pattern", "Firefly.Props.fire_seam"], "note": ""},
 {"property": "C123", "status": "proved", "theorems": ["Firefly.Props.noise_smooth", "Firefly.Props.noise_far", "Firefly.Props.rorschach_smooth"], "note": ""},
 {"property": "C124", "status": "proved", "theorems": ["Firefly.Props.keypad_is_a_node", "Firefly.Props.keypad_inputs", "Firefly.Props.keypad_pages", "Firefly.Props.keypad_palette_place", "Firefly.Props.keypad_effect_place", "Firefly.Props.keypad_left_wraps"], "note": "Refuted part: keypad_left_wraps."},
 {"property": "C125", "status": "proved", "theorems": ["Firefly.Props.keypad_palette_key", "Firefly.Props.keypad_effect_key", "Firefly.Props.keypad_dark_key", "Firefly.Props.keypad_silent", "Firefly.Props.keypad_after_colour"], "note": "Refuted part: keypad_after_colour."},
 {"property": "C126", "status": "proved", "theorems": ["Firefly.Props.keypad_effect_shown", "Firefly.Props.keypad_palette_shown"], "note": ""},
 {"property": "C127", "status": "proved", "theorems": ["Firefly.Props.keypad_shows_palettes", "Firefly.Props.keypad_shows_effects", "Firefly.Props.keypad_lamps", "Firefly.Props.keypad_never_faults", "Firefly.Props.keypad_colour_faults"], "note": "Refuted part: keypad_colour_faults."},
 {"property": "C128", "status": "proved", "theorems": ["Firefly.Props.takes_for_new", "Firefly.Props.board_takes_new", "Firefly.Props.known_frame_ignored"], "note": ""},
 {"property": "C129", "status": "proved", "theorems": ["Firefly.Props.button_frames", "Firefly.Props.button_shown", "Firefly.Props.button_ignored", "Firefly.Props.zero_ignored"], "note": "Refuted part: button_ignored."},
 {"property": "C130", "status": "proved", "theorems": ["Firefly.Props.range_frames", "Firefly.Props.range_shown", "Firefly.Props.zero_ignored", "Firefly.Props.range_shows", "Firefly.Props.range_dark", "Firefly.Props.range_silent", "Firefly.Props.range_never_faults"], "note": ""},
 {"property": "C131", "status": "proved", "theorems": ["Firefly.Props.fake_radio_receives", "Firefly.Props.fake_radio_in_bounds", "Firefly.Props.fake_radio_sends", "Firefly.Props.fake_device_runs", "Firefly.Props.fake_tick_hears", "Firefly.Props.fake_device_collects", "Firefly.Props.fake_takes_staged", "Firefly.Props.fake_staged_once", "Firefly.Props.fake_staged_again"], "note": "Refuted part: fake_staged_again."},
 {"property": "C132", "status": "proved", "theorems": ["Firefly.Props.fake_leds_read", "Firefly.Props.fake_global_colour", "Firefly.Props.fake_clear_effects"], "note": ""},
 {"property": "C133", "status": "proved", "theorems": ["Firefly.Props.wiring_irrelevant", "Firefly.Props.reversed_same_picture", "Firefly.Props.dim_same_picture", "Firefly.Props.matrix_rows_alike", "Firefly.Props.rope_halves_alike", "Firefly.Props.cloak_rings_mirror", "Firefly.Props.backpack_halves_repeat"], "note": ""},
 {"property": "C134", "status": "proved", "theorems": ["Firefly.Props.palette_keeps_theme", "Firefly.Props.theme_tight", "Firefly.Props.rainbows_complete", "Firefly.Props.theme_excludes"], "note": ""},
 {"property": "C135", "status": "proved", "theorems": ["Firefly.Props.network_tick", "Firefly.Props.network_heard_was_sent"], "note": ""},
 {"property": "C136", "status": "proved", "theorems": ["Firefly.Props.transmit_does_nothing", "Firefly.Props.transmit_then_tick", "Firefly.Props.reset_master_first_only", "Firefly.Props.reset_master_misses", "Firefly.Props.reinit_only"], "note": "The property is the refutation."},
 {"property": "C137", "status": "proved", "theorems": ["Firefly.Props.network_master_appears", "Firefly.Props.network_one_master", "Firefly.Props.demo_course", "Firefly.Props.same_numbers_two_masters", "Firefly.Props.late_election_two_masters"], "note": "same_numbers_two_masters is the refutation without the assumption on packet numbers (for 40 Ticks), late_election_two_masters the one for late elections; demo_course is a concrete course."},
 {"property": "C138", "status": "proved", "theorems": ["Firefly.Props.test_elects_one_master", "Firefly.Props.test_stable_over_time", "Firefly.Props.test_elects_one_master_run", "Firefly.Props.test_stable_over_time_run"], "note": ""},
 {"property": "C139", "status": "proved", "theorems": ["Firefly.Props.three_losses_do_no_harm", "Firefly.Props.three_losses_demo", "Firefly.Props.four_losses_two_masters"], "note": "four_losses_two_masters is the refutation for four; three_losses_demo is a concrete network."},
 {"property": "C140", "status": "proved", "theorems": ["Firefly.Props.clocks_agree_within", "Firefly.Props.three_losses_demo"], "note": "three_losses_demo is a concrete network."},
 {"property": "C141", "status": "proved", "theorems": ["Firefly.Props.network_device_boots", "Firefly.Props.network_boots", "Firefly.Props.network_never_aborts"], "note": ""},
 {"property": "C142", "status": "proved", "theorems": ["Firefly.Props.everybody_follows", "Firefly.Props.follow_demo"], "note": "follow_demo is a concrete network in which a device told otherwise comes back."},
 {"property": "C143", "status": "proved", "theorems": ["Firefly.Props.simulator_layout", "Firefly.Props.simulator_global_colour", "Firefly.Props.simulator_pulses"], "note": "The sources as pinned pass a pointer to a constructor that takes a reference, so the simulator does not compile; the model reads it as if they agreed."},
 {"property": "C144", "status": "proved", "theorems": ["Firefly.Props.first_master_stays", "Firefly.Props.cold_start_settles", "Firefly.Props.cold_start_demo", "Firefly.Props.unheard_first_master"], "note": "cold_start_demo is a concrete network of three devices from power-on; unheard_first_master is the refutation. That some device turns master in time is C118."},
 {"property": "C145", "status": "proved", "theorems": ["Firefly.Props.heard_by_now", "Firefly.Props.everybody_shows", "Firefly.Props.everybody_shows_demo"], "note": "everybody_shows_demo is a concrete network of three devices of which one is a board with six LEDs."},
 {"property": "C146", "status": "proved", "theorems": ["Firefly.Props.reset_others_keeps_master", "Firefly.Props.reset_master_lost", "Firefly.Props.reset_master_replaced", "Firefly.Props.reset_one_master", "Firefly.Props.reset_recovers", "Firefly.Props.reset_demo_course"], "note": "reset_demo_course is a concrete network of two devices in which first the slave and then the master is reset."},
 {"property": "C147", "status": "proved", "theorems": ["Firefly.Props.network_changes_rarely", "Firefly.Props.network_follows_master", "Firefly.Props.network_same_index", "Firefly.Props.network_index_differs", "Firefly.Props.long_courses_exist"], "note": "network_index_differs is the refutation; long_courses_exist shows that the hypotheses can be met in a network of any size."},
 {"property": "C148", "status": "proved", "theorems": ["Firefly.Props.loss_keeps_master", "Firefly.Props.loss_falls_quiet", "Firefly.Props.deaf_becomes_master", "Firefly.Props.mild_loss_can_split", "Firefly.Props.loss_demo_course"], "note": "mild_loss_can_split is the refutation; loss_demo_course is a concrete network of two devices in which half of the packets are lost and the slave is reset twice."},
 {"property": "C149", "status": "proved", "theorems": ["Firefly.Props.heal_has_master", "Firefly.Props.heal_heard_by_all", "Firefly.Props.heal_one_master", "Firefly.Props.heal_demo_course", "Firefly.Props.heal_needs_silence", "Firefly.Props.heal_can_stop_rotation", "Firefly.Props.spoil_demo_course"], "note": "heal_needs_silence and heal_can_stop_rotation are the refutations, in the network of spoil_demo_course; heal_demo_course is a concrete network of two devices that both were masters."},
 {"property": "C150", "status": "proved", "theorems": ["Firefly.Props.palette_gallery"], "note": "the example beside it is a concrete case."},
 {"property": "C151", "status": "proved", "theorems": ["Firefly.Props.shipped_devices"], "note": ""},
 {"property": "C152", "status": "proved", "theorems": ["Firefly.Props.network_follows_at_once", "Firefly.Props.network_follows_soon", "Firefly.Props.network_quiet", "Firefly.Props.test_set_effect_index", "Firefly.Props.test_changes_effect", "Firefly.Props.test_changes_effect_fails", "Firefly.Props.soon_courses_exist"], "note": "test_changes_effect_fails is the refutation; soon_courses_exist shows that the hypotheses of all of them can be met."},
 {"property": "C153", "status": "proved", "theorems": ["Firefly.Props.choice_on_master_followed", "Firefly.Props.choice_by_radio_not_passed_on", "Firefly.Props.choice_on_master_demo", "Firefly.Props.choice_by_radio_demo"], "note": "choice_by_radio_not_passed_on is the refutation; the two demos are concrete networks that meet the hypotheses."},
 {"property": "C154", "status": "proved", "theorems": ["Firefly.Props.paced_promoted_only_after_silence", "Firefly.Props.paced_promoted_after_silence", "Firefly.Props.paced_heartbeats_apart", "Firefly.Props.paced_heartbeat_due", "Firefly.Props.paced_heartbeat_time", "Firefly.Props.paced_sync", "Firefly.Props.paced_time_kept", "Firefly.Props.paced_slave_follows_sender", "Firefly.Props.paced_of_standing_clock", "Firefly.Props.paced_demo"], "note": "paced_demo gives two concrete runs that meet the hypotheses."},
 {"property": "C155", "status": "proved", "theorems": ["Firefly.Props.second_master_odds", "Firefly.Props.second_master_odds_demo", "Firefly.Props.evenDraws_demo"], "note": "The draws are numbers below any K divisible by 65533 and 65534, so that ids and election numbers are exactly uniform; second_master_odds_demo gives luck with which a device stays master through two heartbeats, and luck with which it does not."},
 {"property": "C156", "status": "proved", "theorems": ["Firefly.Props.seldom_missed", "Firefly.Props.seldom_missed_any", "Firefly.Props.seldom_missed_demo"], "note": "The bound is five in 65533 for each step because the device remembers five ids; seldom_missed_demo gives luck with which a device hears both packets, and luck with which it takes the second for the first."},
 {"property": "C157", "status": "proved", "theorems": ["Firefly.Props.rotation_fair", "Firefly.Props.rotation_fair_demo"], "note": "The hypothesis is that a tick in which nothing is heard changes the instruction for some draws; the counts of effects and palettes divide the number of possible draws, so that random numbers are exactly uniform."},
 {"property": "C158", "status": "proved", "theorems": ["Firefly.Props.takeover_time", "Firefly.Props.takeover_uniform", "Firefly.Props.takeover_odds", "Firefly.Props.takeover_demo"], "note": "takeover_time gives the moment, takeover_uniform that each is equally likely, and takeover_odds the bound for n devices."},
 {"property": "C159", "status": "proved", "theorems": ["Firefly.Props.first_takeover", "Firefly.Props.first_takeover_together", "Firefly.Props.powerUp_run", "Firefly.Props.first_takeover_demo"], "note": "powerUp_run shows that these executions are among those of the other properties: the numbers drawn are the first unseeded one followed by the seeded ones."},
 {"property": "C160", "status": "proved", "theorems": ["Firefly.Props.first_takes_over", "Firefly.Props.one_takes_over_odds", "Firefly.Props.one_takes_over_demo"], "note": "one_takes_over_demo runs a network of two devices for eight steps in which one takes over and the other follows. A second is the limit because later the new master has sent enough packets to have forgotten its first."},
 {"property": "C161", "status": "proved", "theorems": ["Firefly.Props.duel_decided_odds", "Firefly.Props.duel_sender_odds", "Firefly.Props.duel_listener_odds", "Firefly.Props.duel_fair", "Firefly.Props.election_exact", "Firefly.Props.duel_proper", "Firefly.Props.duel_demo"], "note": "The undecided outcomes are those in which a packet number is already among the five that the receiver remembers, so that the packet is taken for a repetition."},
 {"property": "C162", "status": "proved", "theorems": ["Firefly.Props.paced_choice_held", "Firefly.Props.paced_request_held", "Firefly.Props.paced_local_held", "Firefly.Props.paced_takeover_cadence", "Firefly.Props.paced_takeover_may_stop", "Firefly.Props.paced_repetitions_apart", "Firefly.Props.paced_repetition_due", "Firefly.Props.paced_repetition_demo"], "note": "Soon: at the latest in the second of two consecutive silent radio ticks, as in C29 to C31. The refuted case is paced_takeover_may_stop; the tick there begins 9 ms before the mark."},
 {"property": "C163", "status": "proved", "theorems": ["Firefly.Props.wrap_false_alarm", "Firefly.Props.wrap_heartbeat_flood", "Firefly.Props.wrap_choice_flood", "Firefly.Props.wrap_rotation_resumes", "Firefly.Props.wrap_rotation_stops", "Firefly.Props.wrap_silent_master", "Firefly.Props.wrap_deaf_slave", "Firefly.Props.wrap_flood_demo"], "note": "The promises are refuted near the wrap-around; the theorems say for all histories what happens instead, and that the rotation goes on afterwards."},
 {"property": "C164", "status": "proved", "theorems": ["Firefly.Props.wrap_unseen", "Firefly.Props.wrap_unseen_effects", "Firefly.Props.wrap_jumps"], "note": "The spark jumps every few hours anyway (C100)."},
 {"property": "C165", "status": "proved", "theorems": ["Firefly.Props.informed_slave_odds", "Firefly.Props.informed_slave_demo"], "note": "The slave must miss four signs of life in a row. Probabilities are counted over uniform independent draws, as in C155."},
 {"property": "C166", "status": "proved", "theorems": ["Firefly.Props.flood_odds", "Firefly.Props.flood_odds_demo"], "note": "C10 asks for distinct ids; this counts how often the ids are distinct."},
 {"property": "C167", "status": "proved", "theorems": ["Firefly.Props.boot_option_settles", "Firefly.Props.boot_option_rest", "Firefly.Props.boot_option_wear", "Firefly.Props.boot_option_demo", "Firefly.Props.boot_option_reset"], "note": "Assumes the documented behaviour of the flash controller, and that programming the option bytes either happens or does not."},
 {"property": "C168", "status": "proved", "theorems": ["Firefly.Props.gradient_gradual", "Firefly.Props.gradient_gradual_round", "Firefly.Props.colour_cycle_gradual", "Firefly.Props.rainbow_gradual", "Firefly.Props.rainbow_neighbours"], "note": "Assumes FastLED.Lawful."},
 {"property": "C169", "status": "proved", "theorems": ["Firefly.Props.setup_without_radio", "Firefly.Props.setup_with_radio", "Firefly.Props.setup_duration", "Firefly.Props.gauge_needs_button", "Firefly.Props.setup_outlasts_timeout_iff", "Firefly.Props.shipped_setup", "Firefly.Props.late_board_takes_over", "Firefly.Props.large_board_takes_over", "Firefly.Props.rope_takes_over"], "note": "The English claim that a board listens first is false; what happens instead is proved. What the radio driver holds when the loop begins is an input."},
 {"property": "C170", "status": "proved", "theorems": ["Firefly.Props.controller_without_radio", "Firefly.Props.controller_with_radio", "Firefly.Props.controller_listens_first", "Firefly.Props.held_controller_takes_over", "Firefly.Props.stale_heartbeat", "Firefly.Props.dmx_without_radio", "Firefly.Props.held_controller_demo"], "note": "The English claim that a controller listens first is false; what happens instead is proved. What the radio driver holds when the loop begins is an input."},
 {"property": "C171", "status": "proved", "theorems": ["Firefly.Props.strobe_flashes", "Firefly.Props.strobe_every_flash", "Firefly.Props.firefly_flashes", "Firefly.Props.rainbow_bumps_flashes", "Firefly.Props.spark_flashes", "Firefly.Props.steady_lights", "Firefly.Props.strobes_only_on_request", "Firefly.Props.reference_steady", "Firefly.Props.flicker_demo"], "note": "For fireflies and bumps the sine is assumed to rise in the first and to fall in the second quarter; reference_steady shows that the one of the library does."},
 {"property": "C172", "status": "proved", "theorems": ["Firefly.Props.first_master_followed", "Firefly.Props.first_master_clocks", "Firefly.Props.first_master_shown", "Firefly.Props.power_on_demo", "Firefly.Props.first_master_shown_demo"], "note": "Unlike C142, C140 and C145 this needs no settled network at the start. The demos are a network of three devices from power-on, and one in which a device is a board with six LEDs."},
 {"property": "C173", "status": "proved", "theorems": ["Firefly.Props.several_masters_odds", "Firefly.Props.informed_crowd_odds", "Firefly.Props.several_masters_demo", "Firefly.Props.informed_crowd_demo"], "note": "C155 and C165 are about one device; here the outcomes are those of the whole network. All devices that hear a packet hear it in the same round, so that what happens next can depend on its id but not whether they hear it."},
 {"property": "C174", "status": "proved", "theorems": ["Firefly.Props.two_masters_odds", "Firefly.Props.always_a_master", "Firefly.Props.contested_excess", "Firefly.Props.contested_mean", "Firefly.Props.several_masters_become_one", "Firefly.Props.winnow_demo", "Firefly.Props.winnow_any", "Firefly.Props.winnow_twenty", "Firefly.Props.winnow_mean"], "note": "Exactly one master in the end, not just no two; the bound counts heartbeats of any masters, not those that reach one device as in C173."},
 {"property": "C175", "status": "proved", "theorems": ["Firefly.Props.take_over_odds", "Firefly.Props.settles_on_one_master", "Firefly.Props.settle_any", "Firefly.Props.settle_forty"], "note": "A device may start as a master, yield and then be a slave, so unlike in C165 and C173 its time-out may start during the run."},
 {"property": "C176", "status": "proved", "theorems": ["Firefly.Props.rotation_reaches", "Firefly.Props.all_effects_come_up", "Firefly.Props.all_pairs_come_up", "Firefly.Props.variety_fixed", "Firefly.Props.variety_draws", "Firefly.Props.variety_demo", "Firefly.Props.variety_ten"], "note": "C157 is about one change; here the device is followed through any number of steps. The number of draws K of each kind is a multiple of the counts, so that the draws are uniform."},
 {"property": "C177", "status": "proved", "theorems": ["Firefly.Props.traffic_bound", "Firefly.Props.promotions_apart", "Firefly.Props.traffic_rate", "Firefly.Props.slave_traffic", "Firefly.Props.traffic_demo"], "note": "The clock does not wrap around (C163 shows what happens when it does), and requests are instructions, as elsewhere. traffic_demo is a history of two seconds in which a master transmits seven packets."},
 {"property": "C178", "status": "proved", "theorems": ["Firefly.Props.channel_bound", "Firefly.Props.channel_demo"], "note": "d is the time that passes at the master. That relays are not relayed again is due to C15: on the hardware they arrive without payload and are discarded. channel_demo is a network that meets all hypotheses."},
 {"property": "C179", "status": "proved", "theorems": ["Firefly.Props.network_time_kept", "Firefly.Props.network_times_agree", "Firefly.Props.handover_demo"], "note": "The real time is that of Spec/Timeline (C142 ff). handover_demo: two take-overs in a row of three devices, the last of which ends up 110 ms behind."},
 {"property": "C180", "status": "proved", "theorems": ["Firefly.Props.network_time_pace", "Firefly.Props.network_times_close", "Firefly.Props.colour_cycle_apart", "Firefly.Props.rainbow_apart", "Firefly.Props.devices_look_alike", "Firefly.Props.pace_demo"], "note": "Assumes FastLED.Lawful for the colours. pace_demo completes handover_demo: bound 39, real difference 8."},
 {"property": "C181", "status": "proved", "theorems": ["Firefly.Props.network_harmless", "Firefly.Props.installation_never_faults", "Firefly.Props.controller_sound", "Firefly.Props.keypad_sound", "Firefly.Props.unsound_call_brings_down", "Firefly.Props.bad_palette_crashes", "Firefly.Props.keypad_after_colour"], "note": "Discharges the assumption of C94 about the frames a board is offered. installation_never_faults also gives the next step of the installation, so the model never gets stuck. The refuted part is keypad_after_colour (C125) with bad_palette_crashes (C94); unsound_call_brings_down is a concrete installation."}
]}
