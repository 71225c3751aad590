Pica.Props.C01_parse_display: propext, Classical.choice, Quot.sound
Pica.Props.C01_display_injective: propext, Classical.choice, Quot.sound
Pica.Props.C01_display: propext, Classical.choice, Quot.sound
Pica.Props.C02_parse_short_iff: propext, Quot.sound
Pica.Props.C02_parse_extended_iff: propext, Quot.sound
Pica.Props.C02_parse_isSome_iff: propext, Quot.sound
Pica.Props.C03_toU64: propext, Quot.sound
Pica.Props.C03_toBytes: none
Pica.Props.C03_toBytes_injective: propext
Pica.Props.C03_toU64_injective: propext, Quot.sound
Pica.Props.C04_get_set: propext, Classical.choice, Quot.sound
Pica.Props.C05_set_frame: propext, Quot.sound
Pica.Props.C06_set_ok_iff: propext, Classical.choice, Quot.sound
Pica.Props.C06_set_abort_iff: propext, Quot.sound
Pica.Props.C06_context: none
Pica.Props.C07_get_none_iff: propext, Classical.choice, Quot.sound
Pica.Props.C08_read_packets: propext, Classical.choice, Quot.sound
Pica.Props.C08_cut: propext, Classical.choice, Quot.sound
Pica.Props.C08_unknown: propext, Classical.choice, Quot.sound
Pica.Props.C08_any_bytes: propext, Classical.choice, Quot.sound
Pica.Props.C09_segments: propext, Classical.choice, Quot.sound
Pica.Props.C09_wellFormed: propext, Quot.sound
Pica.Props.C09_empty: propext, Classical.choice, Quot.sound
Pica.Props.C09_count: propext, Classical.choice, Quot.sound
Pica.Props.C10_roundtrip: propext, Classical.choice, Quot.sound
Pica.Props.C11_host: propext, Classical.choice, Quot.sound
Pica.Props.C12_false: propext, Quot.sound
Pica.Props.C12_partial: propext, Quot.sound
Pica.Props.C13_one_answer: propext, Classical.choice, Quot.sound
Pica.Props.C14_reset_first: propext, Classical.choice, Quot.sound
Pica.Props.C14_untouched: propext, Classical.choice, Quot.sound
Pica.Props.C14_needs_reset: propext, Classical.choice, Quot.sound
Pica.Props.C15_ignored: propext, Quot.sound
Pica.Props.C16_false: propext, Quot.sound
Pica.Props.C16_partial: propext, Classical.choice, Quot.sound
Pica.Props.C16_commands_partial: propext, Classical.choice, Quot.sound
Pica.Props.C17_reserved: propext, Classical.choice, Quot.sound
Pica.Props.C17_type: propext, Classical.choice, Quot.sound
Pica.Props.C17_unsupported: propext, Classical.choice, Quot.sound
Pica.Props.C18_bound: propext, Classical.choice, Quot.sound
Pica.Props.C18_count: propext, Classical.choice, Quot.sound
Pica.Props.C19_step: propext, Classical.choice, Quot.sound
Pica.Props.C19_history: propext, Classical.choice, Quot.sound
Pica.Props.C20_configured: propext, Classical.choice, Quot.sound
Pica.Props.C21_applied: propext, Classical.choice, Quot.sound
Pica.Props.C21_refused: propext, Classical.choice, Quot.sound
Pica.Props.C21_abort: propext, Classical.choice, Quot.sound
Pica.Props.C22_incomplete: propext, Classical.choice, Quot.sound
Pica.Props.C22_gates: propext, Classical.choice, Quot.sound
Pica.Props.C23_commands: propext, Classical.choice, Quot.sound
Pica.Props.C23_other_packets: propext, Classical.choice, Quot.sound
Pica.Props.C24_devices_independent: propext, Quot.sound
Pica.Props.C24_absent: propext, Quot.sound
Pica.Props.C25_deinit: propext, Classical.choice, Quot.sound
Pica.Props.C25_absent: propext, Classical.choice, Quot.sound
Pica.Props.C26_reset: propext, Classical.choice, Quot.sound
Pica.Props.C26_like_fresh: propext, Classical.choice, Quot.sound
Pica.Props.C27_false: propext, Quot.sound
Pica.Props.C27_active_partial: propext, Classical.choice, Quot.sound
Pica.Props.C27_orderly_partial: propext, Classical.choice, Quot.sound
Pica.Props.C28_false: propext, Quot.sound
Pica.Props.C28_partial: propext, Classical.choice, Quot.sound
Pica.Props.C29_false: propext, Quot.sound
Pica.Props.C29_start_partial: propext, Classical.choice, Quot.sound
Pica.Props.C29_start_orderly_partial: propext, Classical.choice, Quot.sound
Pica.Props.C29_stop: propext, Classical.choice, Quot.sound
Pica.Props.C30_add_partial: propext, Classical.choice, Quot.sound
Pica.Props.C30_keys_partial: propext, Classical.choice, Quot.sound
Pica.Props.C30_added: propext, Classical.choice, Quot.sound
Pica.Props.C30_removed: propext
Pica.Props.C30_refused: propext, Classical.choice, Quot.sound
Pica.Props.C32_remove: propext, Classical.choice, Quot.sound
Pica.Props.C30_false: propext, Classical.choice, Quot.sound
Pica.Props.C31_history_partial: propext, Classical.choice, Quot.sound
Pica.Props.C31_step_partial: propext, Classical.choice, Quot.sound
Pica.Props.C31_false: propext, Quot.sound
Pica.Props.C32_others: propext, Classical.choice, Quot.sound
Pica.Props.C33_measurements: propext, Classical.choice, Quot.sound
Pica.Props.C33_peers: propext, Classical.choice, Quot.sound
Pica.Props.C33_once: propext, Classical.choice, Quot.sound
Pica.Props.C34_mutual: propext, Classical.choice, Quot.sound
Pica.Props.C35_count: propext, Classical.choice, Quot.sound
Pica.Props.C35_get_count: propext, Classical.choice, Quot.sound
Pica.Props.C36_queue: propext, Classical.choice, Quot.sound
Pica.Props.C36_round_partial: propext, Classical.choice, Quot.sound
Pica.Props.C36_false: propext, Quot.sound
Pica.Props.C37_frame: propext, Classical.choice, Quot.sound
Pica.Props.C38_stop: propext, Classical.choice, Quot.sound
Pica.Props.C38_again: propext, Classical.choice, Quot.sound
Pica.Props.C39_handles: propext, Classical.choice, Quot.sound
Pica.Props.C40_create_taken: propext, Classical.choice, Quot.sound
Pica.Props.C40_create_free: propext, Classical.choice, Quot.sound
Pica.Props.C40_destroy_absent: propext, Quot.sound
Pica.Props.C40_destroy_present: propext, Quot.sound
Pica.Props.C40_registry: propext, Classical.choice, Quot.sound
Pica.Props.C41_unique_partial: propext, Classical.choice, Quot.sound
Pica.Props.C41_address: propext, Classical.choice, Quot.sound
Pica.Props.C41_false_anchor: propext, Quot.sound
Pica.Props.C41_false_devices: propext, Classical.choice, Quot.sound
Pica.Props.C42_events: propext, Classical.choice, Quot.sound
Pica.Props.C43_one: propext, Classical.choice, Quot.sound
Pica.Props.C43_owner: propext, Classical.choice, Quot.sound
Pica.Props.C43_none_survives: propext, Classical.choice, Quot.sound
Pica.Props.C43_start: propext, Classical.choice, Quot.sound
Pica.Props.C44_false: propext, Classical.choice, Quot.sound
Pica.Props.C44_partial: propext, Classical.choice, Quot.sound
Pica.Props.C45_fifo: propext, Quot.sound
Pica.Props.C45_bound: propext, Classical.choice, Quot.sound
Pica.Props.C45_progress: propext, Quot.sound
Pica.Props.C45_connection: propext, Classical.choice, Quot.sound
Pica.Props.C46_read: propext, Classical.choice, Quot.sound
Pica.Props.C46_aligned: propext, Quot.sound
Pica.Props.C47_command_iff: propext, Classical.choice, Quot.sound
Pica.Props.C47_command_roundtrip: propext, Classical.choice, Quot.sound
Pica.Props.C47_command_injective: propext, Classical.choice, Quot.sound
Pica.Props.C48_rsp_bytes: propext, Classical.choice, Quot.sound
Pica.Props.C48_rsp_roundtrip: propext, Classical.choice, Quot.sound
Pica.Props.C48_ntf_bytes: propext, Classical.choice, Quot.sound
Pica.Props.C48_ntf_roundtrip: propext, Classical.choice, Quot.sound
Pica.Props.C48_data_bytes: propext, Classical.choice, Quot.sound
Pica.Props.C48_data_roundtrip: propext, Classical.choice, Quot.sound
Pica.Props.C49_set: propext, Classical.choice, Quot.sound
Pica.Props.C49_get_partial: propext, Classical.choice, Quot.sound
Pica.Props.C49_last: propext, Classical.choice, Quot.sound
Pica.Props.C49_false: propext, Classical.choice, Quot.sound
Pica.Props.C50_last_status: propext, Classical.choice, Quot.sound
Pica.Props.C50_get_state: propext, Classical.choice, Quot.sound
Pica.Props.C50_device_status: propext, Classical.choice, Quot.sound
Pica.Props.C51_partial: propext, Classical.choice, Quot.sound
Pica.Props.C51_unknown: propext, Quot.sound
Pica.Props.C51_known: propext, Classical.choice, Quot.sound
Pica.Props.C51_false_order: propext, Quot.sound
Pica.Props.C51_false_dropped: propext, Quot.sound
Pica.Props.C52_false: propext, Quot.sound
Pica.Props.C52_listeners: propext, Classical.choice, Quot.sound
Pica.Props.C52_partial: propext, Classical.choice, Quot.sound
Pica.Props.C53_symmetric: propext, Classical.choice, Quot.sound
Pica.Props.C54_static: propext, Classical.choice, Quot.sound
Pica.Props.C54_plain: propext, Classical.choice, Quot.sound
Pica.Props.C54_address_partial: propext, Classical.choice, Quot.sound
Pica.Props.C54_unknown: propext, Classical.choice, Quot.sound
Pica.Props.C54_unchanged: none
Pica.Props.C55_angles: propext, Classical.choice, Quot.sound
Pica.Props.C56_origin: propext, Classical.choice, Quot.sound
Pica.Props.C57_round_survives: propext, Classical.choice, Quot.sound
Pica.Props.C58_range: propext, Classical.choice, Quot.sound
Pica.Props.C59_azimuth: propext, Classical.choice, Quot.sound
Pica.Props.C59_unturned: propext, Classical.choice, Quot.sound
Pica.Props.C60_elevation: propext, Classical.choice, Quot.sound
Pica.Props.C60_coincident: propext, Classical.choice, Quot.sound
Pica.Props.C61_range: propext, Classical.choice, Quot.sound
Pica.Props.C62_messages: propext, Quot.sound
Pica.Props.C62_bad: propext, Quot.sound
Pica.Props.C62_cases: propext, Classical.choice, Quot.sound
Pica.Props.C62_stream: propext, Classical.choice, Quot.sound
Pica.Props.C62_write: propext, Quot.sound
Pica.Props.C63_delivery: propext, Classical.choice, Quot.sound
Pica.Props.C64_messages: propext, Classical.choice, Quot.sound
Pica.Props.C64_commands: propext, Classical.choice, Quot.sound
Pica.Props.C64_refused: propext, Quot.sound
Pica.Props.C65_unknown: propext, Classical.choice, Quot.sound
Pica.Props.C65_unsupported: propext, Classical.choice, Quot.sound
Pica.Props.C65_accepted: propext, Classical.choice, Quot.sound
Pica.Props.C65_received: propext, Classical.choice, Quot.sound
Pica.Props.C65_ignored: propext, Quot.sound
Pica.Props.C66_info: propext, Classical.choice, Quot.sound
Pica.Props.C66_info_bytes: propext, Quot.sound
Pica.Props.C66_caps: propext, Classical.choice, Quot.sound
Pica.Props.C66_power: propext, Classical.choice, Quot.sound
Pica.Props.C66_country: propext, Classical.choice, Quot.sound
Pica.Props.C67_values: propext, Classical.choice, Quot.sound
Pica.Props.C67_failed: propext, Classical.choice, Quot.sound
Pica.Props.C67_unknown: propext, Classical.choice, Quot.sound
Pica.Props.C67_long: propext, Classical.choice, Quot.sound
Pica.Props.C68_values: propext
Pica.Props.C68_init: propext, Classical.choice, Quot.sound
Pica.Props.C68_only: propext, Classical.choice, Quot.sound
Pica.Props.C69: propext, Classical.choice, Quot.sound
Pica.Props.C70_serialize: propext, Quot.sound
Pica.Props.C70_received: propext, Classical.choice, Quot.sound
Pica.Props.C70_controlees: propext, Quot.sound
Pica.Props.C70_data: propext, Quot.sound
Pica.Props.C70_wide: propext, Classical.choice, Quot.sound
Pica.Props.C70_raises: propext, Quot.sound
Pica.Props.C70_data_wide: propext, Classical.choice, Quot.sound
Pica.Props.C71_rsp_partial: propext, Classical.choice, Quot.sound
Pica.Props.C71_false: propext, Classical.choice, Quot.sound
Pica.Props.C71_ntf: propext, Classical.choice, Quot.sound
Pica.Props.C71_data: propext, Classical.choice, Quot.sound
Pica.Props.C71_schedule_partial: propext, Classical.choice, Quot.sound
Pica.Props.C72_sent: propext, Classical.choice, Quot.sound
Pica.Props.C72_queued: propext, Classical.choice, Quot.sound
Pica.Props.C72_arrives_partial: propext, Classical.choice, Quot.sound
Pica.Props.C72_long_false: propext, Classical.choice, Quot.sound
Pica.Props.C73_received_partial: propext, Classical.choice, Quot.sound
Pica.Props.C73_false: propext
Pica.Props.C73_stuck: propext, Classical.choice, Quot.sound
Pica.Props.C74_answers: propext, Classical.choice, Quot.sound
Pica.Props.C74_complete: propext, Quot.sound
Pica.Props.C74_host: propext, Classical.choice, Quot.sound
Pica.Props.C75_once: propext, Quot.sound
Pica.Props.C75_states: propext, Classical.choice, Quot.sound
Pica.Props.C75_exists: propext, Classical.choice, Quot.sound
Pica.Props.C76_false: propext, Quot.sound
Pica.Props.C76_order_partial: propext, Classical.choice, Quot.sound
Pica.Props.C77_capture: propext, Classical.choice, Quot.sound
Pica.Props.C77_host: propext, Classical.choice, Quot.sound
Pica.Props.C77_emulator: propext, Classical.choice, Quot.sound
Pica.Props.C77_ended: propext, Classical.choice, Quot.sound
Pica.Props.C77_close: propext, Classical.choice, Quot.sound
Pica.Props.C78_false: propext, Quot.sound
Pica.Props.C78_sides_partial: propext, Classical.choice, Quot.sound
Pica.Props.C78_exchange_partial: propext, Classical.choice, Quot.sound
Pica.Props.C79_events: propext, Classical.choice, Quot.sound
Pica.Props.C79_pieces: propext, Classical.choice, Quot.sound
Pica.Props.C79_state: propext, Classical.choice, Quot.sound
Pica.Props.C80_partial: propext, Classical.choice, Quot.sound
Pica.Props.C80_placed_partial: propext, Classical.choice, Quot.sound
Pica.Props.C80_false: propext, Classical.choice, Quot.sound
Pica.Props.C80_false_twice: propext, Classical.choice, Quot.sound
Pica.Props.C80_false_break: propext, Classical.choice, Quot.sound
Pica.Props.C80_false_address: propext, Classical.choice, Quot.sound
Pica.Props.C80_false_exception: propext, Classical.choice, Quot.sound
Pica.Props.C81_false_state: propext, Classical.choice, Quot.sound
Pica.Props.C81_false_events: propext, Classical.choice, Quot.sound
Pica.Props.C81_events_partial: propext, Classical.choice, Quot.sound
Pica.Props.C81_codes_partial: propext, Classical.choice, Quot.sound
Pica.Props.C81_false_codes: propext, Classical.choice, Quot.sound
Pica.Props.C81_false_initialized: propext, Classical.choice, Quot.sound
Pica.Props.C82_anchors: propext, Quot.sound
Pica.Props.C82_round: propext, Classical.choice, Quot.sound
Pica.Props.C82_data: propext, Classical.choice, Quot.sound
Pica.Props.C83_window: propext, Quot.sound
Pica.Props.C83_order: propext, Quot.sound
Pica.Props.C83_states: propext, Classical.choice, Quot.sound
Pica.Props.C83_close: propext, Quot.sound
Pica.Props.C84_spacing: propext, Classical.choice, Quot.sound
Pica.Props.C84_abort: propext, Classical.choice, Quot.sound
Pica.Props.C84_rate: propext, Classical.choice, Quot.sound
Pica.Props.C84_ntfs: propext, Classical.choice, Quot.sound
Pica.Props.C84_interval: propext, Classical.choice, Quot.sound
Pica.Props.C84_configured: propext, Classical.choice, Quot.sound
Pica.Props.C85_accurate: propext, Classical.choice, Quot.sound
Pica.Props.C85_elevation: propext, Classical.choice, Quot.sound
Pica.Props.C85_azimuth: propext, Classical.choice, Quot.sound
Pica.Props.C85_yaw: propext, Classical.choice, Quot.sound
Pica.Props.C85_pitch: propext, Classical.choice, Quot.sound
Pica.Props.C85_aim: propext, Classical.choice, Quot.sound
Pica.Props.C86_taken: propext, Classical.choice, Quot.sound
Pica.Props.C86_unique: propext, Classical.choice, Quot.sound
Pica.Props.C86_partial: propext, Classical.choice, Quot.sound
Pica.Props.C86_refused: propext, Classical.choice, Quot.sound
Pica.Props.C86_whole: propext, Classical.choice, Quot.sound
Pica.Props.C86_total: propext, Classical.choice, Quot.sound
Pica.Props.C86_page: propext, Classical.choice, Quot.sound
Pica.Props.C86_blank: propext, Classical.choice, Quot.sound
Pica.Props.C86_cut: propext, Classical.choice, Quot.sound
Pica.Props.C86_false: propext, Classical.choice, Quot.sound
Pica.Props.C86_stray: propext, Classical.choice, Quot.sound
Pica.Props.C86_fraction: propext, Classical.choice, Quot.sound
Pica.Props.C86_word: propext, Classical.choice, Quot.sound
Pica.Props.C87_partial: propext, Classical.choice, Quot.sound
Pica.Props.C87_flat: propext, Classical.choice, Quot.sound
Pica.Props.C87_over: propext, Classical.choice, Quot.sound
Pica.Props.C87_rotation: propext, Classical.choice, Quot.sound
Pica.Props.C87_again: propext, Classical.choice, Quot.sound
Pica.Props.C87_page: propext, Classical.choice, Quot.sound
Pica.Props.C87_false: propext, Classical.choice, Quot.sound
Pica.Props.C88_processed: propext, Classical.choice, Quot.sound
Pica.Props.C88_connected: propext, Classical.choice, Quot.sound
Pica.Props.C88_answered: propext, Classical.choice, Quot.sound
Pica.Props.C88_gone: propext, Classical.choice, Quot.sound
Pica.Props.C88_notified: propext, Classical.choice, Quot.sound
Pica.Props.C88_ranging: propext, Classical.choice, Quot.sound
Pica.Props.C88_quiet: propext, Classical.choice, Quot.sound
Pica.Props.C88_late: propext, Quot.sound
Pica.Props.C89_count: propext, Classical.choice, Quot.sound
Pica.Props.C89_sent: propext, Classical.choice, Quot.sound
Pica.Props.C90_connected: propext, Quot.sound
Pica.Props.C90_disconnected: propext, Quot.sound
Pica.Props.C90_created: propext, Quot.sound
Pica.Props.C90_destroyed: propext, Quot.sound
Pica.Props.C90_refused: none
Pica.Props.C90_lost: none
Pica.Props.C90_state: propext, Quot.sound
Pica.Props.C90_poison: propext, Quot.sound
Pica.Props.C90_files: propext, Classical.choice, Quot.sound
Pica.Props.C90_events: propext, Classical.choice, Quot.sound
Pica.Props.C90_paired: propext, Classical.choice, Quot.sound
Pica.Props.C90_ends: propext, Quot.sound
Pica.Props.C91_follows: propext, Classical.choice, Quot.sound
Pica.Props.C91_lift: propext, Classical.choice, Quot.sound
Pica.Props.C91_turn: propext, Classical.choice, Quot.sound
Pica.Props.C91_throws: propext, Classical.choice, Quot.sound
Pica.Props.C91_select: propext, Classical.choice, Quot.sound
Pica.Props.C91_held: propext, Classical.choice, Quot.sound
Pica.Props.C91_accepted: propext, Classical.choice, Quot.sound
Pica.Props.C91_requests: propext, Classical.choice, Quot.sound
Pica.Props.C91_refused: propext, Classical.choice, Quot.sound
Pica.Props.C91_click: propext, Classical.choice, Quot.sound
Pica.Props.C91_page_partial: propext, Classical.choice, Quot.sound
Pica.Props.C91_last_partial: propext, Classical.choice, Quot.sound
Pica.Props.C91_high_false: propext, Classical.choice, Quot.sound
Pica.Props.C91_buttons_false: propext, Classical.choice, Quot.sound
Pica.Props.C91_last_false: propext, Classical.choice, Quot.sound
Pica.Props.C92_pass: propext, Classical.choice, Quot.sound
Pica.Props.C92_time: propext, Classical.choice, Quot.sound
Pica.Props.C92_progress: propext, Classical.choice, Quot.sound
Pica.Props.C92_late_false: propext, Classical.choice, Quot.sound
Pica.Props.C92_lag_false: propext, Classical.choice, Quot.sound
Pica.Props.C92_expects: propext, Classical.choice, Quot.sound
Pica.Props.C92_shows: propext, Classical.choice, Quot.sound
Pica.Props.C93_pass: propext, Classical.choice, Quot.sound
Pica.Props.C93_time: propext, Classical.choice, Quot.sound
Pica.Props.C93_progress: propext, Classical.choice, Quot.sound
Pica.Props.C93_gap_false: propext, Classical.choice, Quot.sound
Pica.Props.C93_expects: propext, Classical.choice, Quot.sound
Pica.Props.C94_closed: none
Pica.Props.C94_open: none
Pica.Props.C94_fromInt: propext, Classical.choice, Quot.sound
Pica.Props.C94_distinct: propext, Classical.choice, Quot.sound
Pica.Props.C94_refused: propext, Quot.sound
Pica.Props.C94_used: none
Pica.Props.C95_control: propext, Classical.choice, Quot.sound
Pica.Props.C95_received: propext, Classical.choice, Quot.sound
Pica.Props.C95_transfer: propext, Classical.choice, Quot.sound
Pica.Props.C95_placed: propext, Classical.choice, Quot.sound
Pica.Props.C95_destroyed: propext, Classical.choice, Quot.sound
Pica.Props.C95_state: propext, Classical.choice, Quot.sound
Pica.Props.C95_equals: propext, Classical.choice, Quot.sound
Pica.Props.C95_other: propext, Classical.choice, Quot.sound
Pica.Props.C95_many: propext, Classical.choice, Quot.sound
Pica.Props.C95_letters: propext, Classical.choice, Quot.sound
Pica.Props.C96_structs: propext, Classical.choice, Quot.sound
Pica.Props.C96_forward_partial: propext, Classical.choice, Quot.sound
Pica.Props.C96_back: propext, Classical.choice, Quot.sound
Pica.Props.C96_fits: propext, Classical.choice, Quot.sound
Pica.Props.C96_exact: propext, Classical.choice, Quot.sound
Pica.Props.C96_injective: propext, Classical.choice, Quot.sound
Pica.Props.C96_false: propext, Classical.choice, Quot.sound
Pica.Props.C96_unlisted: propext, Classical.choice, Quot.sound
Pica.Props.C96_wide: propext, Classical.choice, Quot.sound
Pica.Props.C96_raises: propext, Classical.choice, Quot.sound
Pica.Props.C97_pace: propext, Classical.choice, Quot.sound
Pica.Props.C97_count: propext, Classical.choice, Quot.sound
Pica.Props.C97_rounds: propext, Classical.choice, Quot.sound
Pica.Props.C98_write_partial: propext, Classical.choice, Quot.sound
Pica.Props.C98_written_partial: propext, Classical.choice, Quot.sound
Pica.Props.C98_read_partial: propext, Classical.choice, Quot.sound
Pica.Props.C98_accept_partial: propext, Classical.choice, Quot.sound
Pica.Props.C98_iff_partial: propext, Classical.choice, Quot.sound
Pica.Props.C98_unambiguous_partial: propext, Classical.choice, Quot.sound
Pica.Props.C98_false: propext, Quot.sound
Pica.Props.C98_multicast: propext, Classical.choice, Quot.sound
Pica.Props.C99_response_written: propext, Classical.choice, Quot.sound
Pica.Props.C99_notification_written: propext, Classical.choice, Quot.sound
Pica.Props.C99_data_written: propext, Classical.choice, Quot.sound
Pica.Props.C99_command_read: propext, Classical.choice, Quot.sound
Pica.Props.C99_controlees_read: propext, Classical.choice, Quot.sound
Pica.Props.C99_data_read: propext, Classical.choice, Quot.sound
Pica.Props.C99_response_read: propext, Classical.choice, Quot.sound
Pica.Props.C99_notification_read: propext, Classical.choice, Quot.sound
Pica.Props.C99_data_received: propext, Classical.choice, Quot.sound
Pica.Props.C99_one: propext, Classical.choice, Quot.sound
Pica.Props.C100_size_partial: propext, Classical.choice, Quot.sound
Pica.Props.C100_written_partial: propext, Classical.choice, Quot.sound
Pica.Props.C100_asked: propext, Classical.choice, Quot.sound
Pica.Props.C100_none: propext, Quot.sound
Pica.Props.C100_false: propext, Quot.sound
Pica.Props.C101_commands: propext, Classical.choice, Quot.sound
Pica.Props.C101_any: propext, Classical.choice, Quot.sound
Pica.Props.C101_never: propext, Classical.choice, Quot.sound
Pica.Props.C101_others: propext, Classical.choice, Quot.sound
Pica.Props.C102_exact: propext, Classical.choice, Quot.sound
Pica.Props.C103_position: propext, Classical.choice, Quot.sound
Pica.Props.C103_glam: propext, Classical.choice, Quot.sound
Pica.Props.C103_mac: propext, Classical.choice, Quot.sound
Pica.Props.C104_decimal: propext, Classical.choice, Quot.sound
Pica.Props.C104_octets: propext, Classical.choice, Quot.sound
Pica.Props.C104_session: propext, Classical.choice, Quot.sound
Pica.Props.C104_transfer: propext, Classical.choice, Quot.sound
Pica.Props.C105_camera: propext, Classical.choice, Quot.sound
Pica.Props.C105_cube: propext, Classical.choice, Quot.sound
Pica.Props.C105_ground_partial: propext, Classical.choice, Quot.sound
Pica.Props.C105_ground_false: propext, Classical.choice, Quot.sound
Pica.Props.C105_deep: propext, Classical.choice, Quot.sound
Pica.Props.C105_deep_line: propext, Classical.choice, Quot.sound
Pica.Props.C105_axes: propext, Classical.choice, Quot.sound
Pica.Props.C105_arrow: propext, Classical.choice, Quot.sound
Pica.Props.C105_sectors: propext, Classical.choice, Quot.sound
Pica.Props.C105_neighbor: propext, Classical.choice, Quot.sound
Pica.Props.C106_tells: propext, Classical.choice, Quot.sound
Pica.Props.C106_complete: propext, Classical.choice, Quot.sound
Pica.Props.C106_schedule: propext, Classical.choice, Quot.sound
Pica.Props.C106_false: propext, Classical.choice, Quot.sound
Pica.Props.C106_stamps: propext, Classical.choice, Quot.sound
Pica.Props.C106_dump: propext, Classical.choice, Quot.sound
Pica.Props.C106_report: propext, Classical.choice, Quot.sound
Pica.Props.C106_fields: propext, Quot.sound
Pica.Props.C106_names: none
Pica.Props.C106_lines: propext, Classical.choice, Quot.sound
Pica.Props.C106_header: propext, Classical.choice, Quot.sound
Pica.Props.C107_events: propext, Classical.choice, Quot.sound
Pica.Props.C107_answered: propext, Classical.choice, Quot.sound
Pica.Props.C107_registry: propext, Classical.choice, Quot.sound
Pica.Props.C107_registry_false: propext, Quot.sound
Pica.Props.C108_in_order: propext, Classical.choice, Quot.sound
Pica.Props.C108_count: propext, Classical.choice, Quot.sound
Pica.Props.C108_small: propext, Classical.choice, Quot.sound
Pica.Props.C108_large: propext, Classical.choice, Quot.sound
Pica.Props.C108_false: propext, Classical.choice, Quot.sound
Pica.Props.C109_appears: propext, Classical.choice, Quot.sound
Pica.Props.C109_gone: propext, Classical.choice, Quot.sound
Pica.Props.C109_answered: propext, Classical.choice, Quot.sound
Pica.Props.C109_ranging: propext, Classical.choice, Quot.sound
Pica.Props.C110_commands: propext, Classical.choice, Quot.sound
Pica.Props.C110_known: propext, Classical.choice, Quot.sound
Pica.Props.C110_parameters: propext, Classical.choice, Quot.sound
Pica.Props.C110_none: propext, Classical.choice, Quot.sound
Pica.Props.C110_states: propext, Classical.choice, Quot.sound
Pica.Props.C110_answers: propext, Classical.choice, Quot.sound
Pica.Props.C110_given: propext, Classical.choice, Quot.sound
Pica.Props.C110_blanks: propext, Classical.choice, Quot.sound
Pica.Props.C111_conversation: propext, Classical.choice, Quot.sound
Pica.Props.C112_apart: propext, Classical.choice, Quot.sound
Pica.Props.C112_order: propext, Classical.choice, Quot.sound
Pica.Props.C112_ready: propext, Classical.choice, Quot.sound
Pica.Props.C113_ranging_round_control: propext, Classical.choice, Quot.sound
Pica.Props.C113_result_report_config: propext, Classical.choice, Quot.sound
Pica.Props.C113_common_header: propext, Classical.choice, Quot.sound
Pica.Props.C113_control_header: propext, Classical.choice, Quot.sound
Pica.Props.C113_data_header: propext, Classical.choice, Quot.sound
Pica.Props.C113_controlee: propext, Classical.choice, Quot.sound
Pica.Props.C113_controlees: propext, Classical.choice, Quot.sound
Pica.Props.C113_cut: propext
Pica.Props.C113_emulator: propext, Classical.choice, Quot.sound
Pica.Props.C113_aoa_measurement: propext, Classical.choice, Quot.sound
Pica.Props.C113_cir_value: propext, Classical.choice, Quot.sound
Pica.Props.C113_tlv_read: propext, Classical.choice, Quot.sound
Pica.Props.C113_tlv_written_partial: propext, Classical.choice, Quot.sound
Pica.Props.C113_bare_written: propext, Classical.choice, Quot.sound
Pica.Props.C113_kept: propext, Classical.choice, Quot.sound
Pica.Props.C113_tlv_written_false: propext, Quot.sound
Pica.Props.C113_size: propext, Classical.choice, Quot.sound
Pica.Props.C113_tlv_size: propext, Classical.choice, Quot.sound
Pica.Props.C114_view: propext, Classical.choice, Quot.sound
Pica.Props.C114_fresh: propext, Classical.choice, Quot.sound
Pica.Props.C114_unheard: propext, Classical.choice, Quot.sound
Pica.Props.C114_panic: propext, Classical.choice, Quot.sound
Pica.Props.C114_measured: propext, Quot.sound
Pica.Props.C114_stopped: propext, Quot.sound
Pica.Props.C115_step: propext, Classical.choice, Quot.sound
Pica.Props.C115_panic: propext, Classical.choice, Quot.sound
Pica.Props.C115_history: propext, Classical.choice, Quot.sound
Pica.Props.C115_deterministic: propext, Classical.choice, Quot.sound
Pica.Props.C115_shuffled: propext, Quot.sound
Pica.Props.C116_reading: propext, Classical.choice, Quot.sound
Pica.Props.C116_structure: propext, Classical.choice, Quot.sound
Pica.Props.C116_kind: propext, Quot.sound
Pica.Props.C116_init: propext, Quot.sound
Pica.Props.C116_report: propext, Quot.sound
Pica.Props.C117_valid: propext, Classical.choice, Quot.sound
Pica.Props.C117_trimmed: propext, Classical.choice, Quot.sound
Pica.Props.C117_values: propext, Classical.choice, Quot.sound
Pica.Props.C118_unique: propext, Classical.choice, Quot.sound
Pica.Props.C118_answer: propext, Classical.choice, Quot.sound
Pica.Props.C118_other: propext, Classical.choice, Quot.sound
Pica.Props.C118_history: propext, Classical.choice, Quot.sound
Pica.Props.C118_silent: propext, Classical.choice, Quot.sound
Pica.Props.C118_stuck: propext, Classical.choice, Quot.sound
Pica.Props.C118_schedule: propext, Classical.choice, Quot.sound
Pica.Props.C118_host: propext, Classical.choice, Quot.sound
Pica.Props.C119_packets: propext, Classical.choice, Quot.sound
Pica.Props.C119_tasks: propext, Classical.choice, Quot.sound
Pica.Props.C119_notices: propext, Classical.choice, Quot.sound
Pica.Props.C119_sends: propext, Classical.choice, Quot.sound
Pica.Props.C119_schedule: propext, Classical.choice, Quot.sound
Pica.Props.C119_stops: propext, Classical.choice, Quot.sound
Pica.Props.C119_flood: propext, Classical.choice, Quot.sound
Pica.Props.C119_endless: propext, Quot.sound
Pica.Props.C119_reports: propext, Classical.choice, Quot.sound
Pica.Props.C120_swap: propext, Quot.sound
Pica.Props.C120_panic: propext, Quot.sound
Pica.Props.C120_mixed: propext, Classical.choice, Quot.sound
Pica.Props.C120_anchor: propext, Classical.choice, Quot.sound
Pica.Props.C120_rounds: propext, Quot.sound
Pica.Props.C120_round: propext, Quot.sound
Pica.Props.C120_rounds_mixed: propext, Classical.choice, Quot.sound
Pica.Props.C120_disconnect: propext, Quot.sound
