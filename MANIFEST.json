{"claims": [
{"property": "C01", "status": "proved", "theorems": ["Pica.Props.C01_parse_display", "Pica.Props.C01_display_injective", "Pica.Props.C01_display"], "note": ""},
{"property": "C02", "status": "proved", "theorems": ["Pica.Props.C02_parse_short_iff", "Pica.Props.C02_parse_extended_iff", "Pica.Props.C02_parse_isSome_iff"], "note": ""},
{"property": "C03", "status": "proved", "theorems": ["Pica.Props.C03_toU64", "Pica.Props.C03_toBytes", "Pica.Props.C03_toBytes_injective", "Pica.Props.C03_toU64_injective"], "note": ""},
{"property": "C04", "status": "proved", "theorems": ["Pica.Props.C04_get_set"], "note": ""},
{"property": "C05", "status": "proved", "theorems": ["Pica.Props.C05_set_frame"], "note": ""},
{"property": "C06", "status": "proved", "theorems": ["Pica.Props.C06_set_ok_iff", "Pica.Props.C06_set_abort_iff", "Pica.Props.C06_context"], "note": ""},
{"property": "C07", "status": "proved", "theorems": ["Pica.Props.C07_get_none_iff"], "note": ""},
{"property": "C08", "status": "proved", "theorems": ["Pica.Props.C08_read_packets", "Pica.Props.C08_cut", "Pica.Props.C08_unknown", "Pica.Props.C08_any_bytes"], "note": ""},
{"property": "C09", "status": "proved", "theorems": ["Pica.Props.C09_segments", "Pica.Props.C09_wellFormed", "Pica.Props.C09_empty", "Pica.Props.C09_count"], "note": "Also shown: nothing is written for a message with an empty payload."},
{"property": "C10", "status": "proved", "theorems": ["Pica.Props.C10_roundtrip"], "note": ""},
{"property": "C11", "status": "proved", "theorems": ["Pica.Props.C11_host"], "note": ""},
{"property": "C12", "status": "partial", "theorems": ["Pica.Props.C12_false", "Pica.Props.C12_partial"], "note": "The statement is false of the code: a data packet received between two fragments of a control message is appended to that message. C12_false is the counterexample; C12_partial covers all other histories."},
{"property": "C13", "status": "proved", "theorems": ["Pica.Props.C13_one_answer"], "note": "step level: one send, first output, RESPONSE with GID and OID of the command"},
{"property": "C14", "status": "proved", "theorems": ["Pica.Props.C14_reset_first", "Pica.Props.C14_untouched", "Pica.Props.C14_needs_reset"], "note": "the answer, its bytes, and that an unreset device is as freshly connected"},
{"property": "C15", "status": "proved", "theorems": ["Pica.Props.C15_ignored"], "note": ""},
{"property": "C16", "status": "partial", "theorems": ["Pica.Props.C16_false", "Pica.Props.C16_partial", "Pica.Props.C16_commands_partial"], "note": "False as stated (C16_false); exact description of the packets that abort the emulator"},
{"property": "C17", "status": "proved", "theorems": ["Pica.Props.C17_reserved", "Pica.Props.C17_type", "Pica.Props.C17_unsupported"], "note": ""},
{"property": "C18", "status": "proved", "theorems": ["Pica.Props.C18_bound", "Pica.Props.C18_count"], "note": "Over every reachable state; the count is the answer to every encoding of SESSION_GET_COUNT."},
{"property": "C19", "status": "proved", "theorems": ["Pica.Props.C19_step", "Pica.Props.C19_history"], "note": "Step form for every command, timer and in-band stop, and history form from the empty environment."},
{"property": "C20", "status": "proved", "theorems": ["Pica.Props.C20_configured"], "note": ""},
{"property": "C21", "status": "proved", "theorems": ["Pica.Props.C21_applied", "Pica.Props.C21_refused", "Pica.Props.C21_abort", "Pica.Props.C22_incomplete"], "note": "Stated with the independent relation Applied on parameter bytes. The one further outcome, a MAC address under MAC_ADDRESS_MODE 1, stops the emulator and is characterised exactly (C21_abort)."},
{"property": "C22", "status": "proved", "theorems": ["Pica.Props.C22_gates", "Pica.Props.C22_incomplete", "Pica.Props.C21_applied", "Pica.Props.C21_refused"], "note": ""},
{"property": "C23", "status": "proved", "theorems": ["Pica.Props.C23_commands", "Pica.Props.C23_other_packets"], "note": "Commands and the other packets; the session is compared as a whole record, tasks spawned or aborted concern the named session only."},
{"property": "C24", "status": "proved", "theorems": ["Pica.Props.C24_devices_independent", "Pica.Props.C24_absent"], "note": ""},
{"property": "C25", "status": "proved", "theorems": ["Pica.Props.C25_deinit", "Pica.Props.C25_absent"], "note": ""},
{"property": "C26", "status": "proved", "theorems": ["Pica.Props.C26_reset", "Pica.Props.C26_like_fresh"], "note": ""},
{"property": "C27", "status": "partial", "theorems": ["Pica.Props.C27_false", "Pica.Props.C27_active_partial", "Pica.Props.C27_orderly_partial"], "note": "False as stated: a device can stay DEVICE_STATE_ACTIVE with no ACTIVE session (C27_false, two witnesses). Proved: ACTIVE session implies device ACTIVE, no underflow ever, and the equivalence for histories without the two offending packets."},
{"property": "C28", "status": "partial", "theorems": ["Pica.Props.C28_false", "Pica.Props.C28_partial"], "note": "False as stated (C28_false): a duplicate SESSION_INIT replaces the session. C28_partial gives the exact behaviour in the three cases."},
{"property": "C29", "status": "partial", "theorems": ["Pica.Props.C29_false", "Pica.Props.C29_start_partial", "Pica.Props.C29_start_orderly_partial", "Pica.Props.C29_stop"], "note": "False as stated (C29_false): START stops the emulator after the controlee list of an ACTIVE session was emptied. Exact behaviour of START and STOP in every case, and the full claim for START in orderly histories."},
{"property": "C30", "status": "partial", "theorems": ["Pica.Props.C30_add_partial", "Pica.Props.C30_keys_partial", "Pica.Props.C30_added", "Pica.Props.C30_removed", "Pica.Props.C30_refused", "Pica.Props.C32_remove", "Pica.Props.C30_false"], "note": "False as stated: sub-session keys are not answered per controlee and NUMBER_OF_CONTROLEES wraps at 256 (C30_false). Everything else holds: the list, the statuses and the refusals."},
{"property": "C31", "status": "partial", "theorems": ["Pica.Props.C31_history_partial", "Pica.Props.C31_step_partial", "Pica.Props.C31_false"], "note": "False as stated: a list set to more than eight entries by SESSION_SET_APP_CONFIG keeps growing (C31_false). Holds for every step from a list of at most eight and for every history without NUMBER_OF_CONTROLEES above eight."},
{"property": "C32", "status": "proved", "theorems": ["Pica.Props.C32_remove", "Pica.Props.C32_others"], "note": ""},
{"property": "C33", "status": "proved", "theorems": ["Pica.Props.C33_measurements", "Pica.Props.C33_peers", "Pica.Props.C33_once"], "note": "Measurements of a round are exactly those of the peers, in order, with the estimator's values; which peers there are is stated one by one in C33_peers."},
{"property": "C34", "status": "proved", "theorems": ["Pica.Props.C34_mutual"], "note": "Mutual, with the two estimates exchanged."},
{"property": "C35", "status": "proved", "theorems": ["Pica.Props.C35_count", "Pica.Props.C35_get_count"], "note": "Since the last SESSION_INIT that created the session anew (status OK or, see C16, DUPLICATE)."},
{"property": "C36", "status": "partial", "theorems": ["Pica.Props.C36_queue", "Pica.Props.C36_round_partial", "Pica.Props.C36_false"], "note": "False as stated (C36_false): data for a peer the estimator gives no distance of are lost. Proved with that exception: order of the queue over every history, receivers, contents, emptied queue."},
{"property": "C37", "status": "proved", "theorems": ["Pica.Props.C37_frame"], "note": ""},
{"property": "C38", "status": "proved", "theorems": ["Pica.Props.C38_stop", "Pica.Props.C38_again"], "note": ""},
{"property": "C39", "status": "proved", "theorems": ["Pica.Props.C39_handles"], "note": "Handles given to devices and anchors are 0,1,2,... in order."},
{"property": "C40", "status": "proved", "theorems": ["Pica.Props.C40_create_taken", "Pica.Props.C40_create_free", "Pica.Props.C40_destroy_absent", "Pica.Props.C40_destroy_present", "Pica.Props.C40_registry"], "note": "Exact step and the registry as a client sees it; a device connecting later may take the address of an anchor, see C41."},
{"property": "C41", "status": "partial", "theorems": ["Pica.Props.C41_unique_partial", "Pica.Props.C41_address", "Pica.Props.C41_false_anchor", "Pica.Props.C41_false_devices"], "note": "False: a device address is the low 16 bits of its handle with no collision check. Witnesses C41_false_anchor, C41_false_devices; C41_unique_partial says exactly when addresses agree, C41_address which address a device has."},
{"property": "C42", "status": "proved", "theorems": ["Pica.Props.C42_events"], "note": ""},
{"property": "C43", "status": "proved", "theorems": ["Pica.Props.C43_one", "Pica.Props.C43_owner", "Pica.Props.C43_none_survives", "Pica.Props.C43_start"], "note": "Over all schedules of the task model (Model/System)."},
{"property": "C44", "status": "partial", "theorems": ["Pica.Props.C44_false", "Pica.Props.C44_partial"], "note": "False as stated: C44_false gives three schedules with well formed commands that stop the event loop (a queued round of a deinitialised session, of a disconnected device, and of a closed connection). C44_partial: no schedule stops it when hosts send mild commands, close connections and send the unsettling commands only while their device is settled (Spec.Prudent), and there are at most 247 devices and fewer than 2^32 steps."},
{"property": "C45", "status": "proved", "theorems": ["Pica.Props.C45_fifo", "Pica.Props.C45_bound", "Pica.Props.C45_progress", "Pica.Props.C45_connection"], "note": "Over all schedules of the task model (Model/System); processing a command never waits for room in the queue, because the event loop itself puts nothing in it."},
{"property": "C46", "status": "proved", "theorems": ["Pica.Props.C46_read", "Pica.Props.C46_aligned"], "note": ""},
{"property": "C47", "status": "proved", "theorems": ["Pica.Props.C47_command_iff", "Pica.Props.C47_command_roundtrip", "Pica.Props.C47_command_injective"], "note": ""},
{"property": "C48", "status": "proved", "theorems": ["Pica.Props.C48_rsp_bytes", "Pica.Props.C48_rsp_roundtrip", "Pica.Props.C48_ntf_bytes", "Pica.Props.C48_ntf_roundtrip", "Pica.Props.C48_data_bytes", "Pica.Props.C48_data_roundtrip"], "note": ""},
{"property": "C49", "status": "partial", "theorems": ["Pica.Props.C49_set", "Pica.Props.C49_get_partial", "Pica.Props.C49_last", "Pica.Props.C49_false"], "note": "The DEVICE_STATE part is false: GET_CONFIG always reports 0xff (C49_false). SET_CONFIG, GET_CONFIG of everything else and the value last set are proved."},
{"property": "C50", "status": "proved", "theorems": ["Pica.Props.C50_last_status", "Pica.Props.C50_get_state", "Pica.Props.C50_device_status"], "note": ""},
{"property": "C51", "status": "partial", "theorems": ["Pica.Props.C51_partial", "Pica.Props.C51_unknown", "Pica.Props.C51_known", "Pica.Props.C51_false_order", "Pica.Props.C51_false_dropped"], "note": "The registry equals the emulator's devices and anchors in every history in which no handler of a successful anchor request is dropped and answers about one anchor are seen in order, as long as no handler has panicked. Both conditions are needed: C51_false_order and C51_false_dropped. set-position changes exactly one entry, 404 exactly without one, and announces."},
{"property": "C52", "status": "partial", "theorems": ["Pica.Props.C52_false", "Pica.Props.C52_listeners", "Pica.Props.C52_partial"], "note": "False: an event without a listener panics its handler and poisons the registry (C52_false). C52_listeners is the exact condition; C52_partial the histories with listeners."},
{"property": "C53", "status": "proved", "theorems": ["Pica.Props.C53_symmetric"], "note": "Floating point numbers are reals with any rounding that satisfies Arith; Arith.ieee (binary32, nearest even) is an instance. The assertion of http_set_position is C52/C51."},
{"property": "C54", "status": "partial", "theorems": ["Pica.Props.C54_static", "Pica.Props.C54_plain", "Pica.Props.C54_address_partial", "Pica.Props.C54_unknown", "Pica.Props.C54_unchanged"], "note": "Routing is exact. A body that ends early is taken for the default position instead of being answered by 406, so the part about malformed positions is for the other JSON errors; the JSON parser is a parameter."},
{"property": "C55", "status": "proved", "theorems": ["Pica.Props.C55_angles"], "note": "For every direction, whatever the rotation of glam returns (finite)."},
{"property": "C56", "status": "proved", "theorems": ["Pica.Props.C56_origin"], "note": ""},
{"property": "C57", "status": "proved", "theorems": ["Pica.Props.C57_round_survives"], "note": "Necessary and sufficient."},
{"property": "C58", "status": "proved", "theorems": ["Pica.Props.C58_range"], "note": ""},
{"property": "C59", "status": "proved", "theorems": ["Pica.Props.C59_azimuth", "Pica.Props.C59_unturned"], "note": "The rotation of glam is a parameter; for an unturned device it is assumed to be the identity in C59_unturned. Straight behind, with negative zero x, -180 is reported."},
{"property": "C60", "status": "proved", "theorems": ["Pica.Props.C60_elevation", "Pica.Props.C60_coincident", "Pica.Props.C59_unturned"], "note": "For any rotation whose result is at least half a unit long; C85_elevation has the same for the rotation of glam."},
{"property": "C61", "status": "proved", "theorems": ["Pica.Props.C61_range"], "note": "The lock of the registry not poisoned; otherwise there are no estimates. Distances as in C58."},
{"property": "C62", "status": "proved", "theorems": ["Pica.Props.C62_messages", "Pica.Props.C62_bad", "Pica.Props.C62_cases", "Pica.Props.C62_stream", "Pica.Props.C62_write"], "note": "Grouping of packets into messages, exact ending of the reader, writer panics iff the packet is empty."},
{"property": "C63", "status": "proved", "theorems": ["Pica.Props.C63_delivery"], "note": "Over the schedules of Model/System; data parse on the host by its generated parser; hand-made error answers compared byte for byte up to the length field."},
{"property": "C64", "status": "proved", "theorems": ["Pica.Props.C64_messages", "Pica.Props.C64_commands", "Pica.Props.C64_refused"], "note": "Messages of any type in one packet each, as send_control and send_data produce them."},
{"property": "C65", "status": "proved", "theorems": ["Pica.Props.C65_unknown", "Pica.Props.C65_unsupported", "Pica.Props.C65_accepted", "Pica.Props.C65_received", "Pica.Props.C65_ignored"], "note": "All data packets of a host that the emulator survives (C16 says which it does not)."},
{"property": "C66", "status": "proved", "theorems": ["Pica.Props.C66_info", "Pica.Props.C66_info_bytes", "Pica.Props.C66_caps", "Pica.Props.C66_power", "Pica.Props.C66_country"], "note": "The byte form is given for the device information; C48 gives it for all responses. GET_DEVICE_INFO on a device that is not READY aborts (C16)."},
{"property": "C67", "status": "proved", "theorems": ["Pica.Props.C67_values", "Pica.Props.C67_failed", "Pica.Props.C67_unknown", "Pica.Props.C67_long"], "note": ""},
{"property": "C68", "status": "proved", "theorems": ["Pica.Props.C68_values", "Pica.Props.C68_init", "Pica.Props.C68_only"], "note": "All 256 identifiers; creation only by SESSION_INIT."},
{"property": "C69", "status": "proved", "theorems": ["Pica.Props.C69"], "note": "Reasons for every notification scheduled in a step, including those of dropped sessions."},
{"property": "C70", "status": "proved", "theorems": ["Pica.Props.C70_serialize", "Pica.Props.C70_received", "Pica.Props.C70_controlees", "Pica.Props.C70_data", "Pica.Props.C70_wide", "Pica.Props.C70_raises", "Pica.Props.C70_data_wide"], "note": "For objects given by the fields of the commands. The extended action codes and keys of the multicast command are in the payload. Also what becomes of objects whose fields do not fit."},
{"property": "C71", "status": "partial", "theorems": ["Pica.Props.C71_rsp_partial", "Pica.Props.C71_false", "Pica.Props.C71_ntf", "Pica.Props.C71_data", "Pica.Props.C71_schedule_partial"], "note": "False: the Python class of the response to a multicast list update lacks the list of controlees. All other packets are read as stated."},
{"property": "C72", "status": "partial", "theorems": ["Pica.Props.C72_sent", "Pica.Props.C72_queued", "Pica.Props.C72_arrives_partial", "Pica.Props.C72_long_false"], "note": "False of files of more than 65535 bytes: the round that delivers one stops the emulator (C72_long_false). Data for a peer that is not ACTIVE in the round is lost, so the delivery is proved for the peers that get data."},
{"property": "C73", "status": "partial", "theorems": ["Pica.Props.C73_received_partial", "Pica.Props.C73_false", "Pica.Props.C73_stuck"], "note": "False of six commands, device_reset among them, which use names missing from the packet library and raise (C73_false); hence a console host never gets past the reset (C73_stuck). Proved for all others."},
{"property": "C74", "status": "proved", "theorems": ["Pica.Props.C74_answers", "Pica.Props.C74_complete", "Pica.Props.C74_host"], "note": "over all schedules, by a system invariant; the response is read from the encoded bytes"},
{"property": "C75", "status": "proved", "theorems": ["Pica.Props.C75_once", "Pica.Props.C75_states", "Pica.Props.C75_exists"], "note": "multiset equality over all schedules, joined with C19_history"},
{"property": "C76", "status": "partial", "theorems": ["Pica.Props.C76_false", "Pica.Props.C76_order_partial"], "note": "false of the code (C76_false); proved for hosts that have at most one notification on its way"},
{"property": "C77", "status": "proved", "theorems": ["Pica.Props.C77_capture", "Pica.Props.C77_host", "Pica.Props.C77_emulator", "Pica.Props.C77_ended", "Pica.Props.C77_close"], "note": ""},
{"property": "C78", "status": "partial", "theorems": ["Pica.Props.C78_false", "Pica.Props.C78_sides_partial", "Pica.Props.C78_exchange_partial"], "note": "False of the code: File::write ignores the direction. Proved for hosts that send commands and data of format 1 only."},
{"property": "C79", "status": "proved", "theorems": ["Pica.Props.C79_events", "Pica.Props.C79_pieces", "Pica.Props.C79_state"], "note": "An independent reader of event streams and JSON recovers the events from the text and every piece of it, and the devices from the state."},
{"property": "C80", "status": "partial", "theorems": ["Pica.Props.C80_partial", "Pica.Props.C80_placed_partial", "Pica.Props.C80_false", "Pica.Props.C80_false_twice", "Pica.Props.C80_false_break", "Pica.Props.C80_false_address", "Pica.Props.C80_false_exception"], "note": "False: a device that connects while the page loads is lost or shown twice, a broken stream is resumed without the state, and equal addresses are confused (C80_false, C80_false_twice, C80_false_break, C80_false_address); a listener may raise an exception (C80_false_exception). Partial: a page loaded at a quiet time, with unique addresses and an unbroken stream, shows the registry and right neighbors."},
{"property": "C81", "status": "partial", "theorems": ["Pica.Props.C81_false_state", "Pica.Props.C81_false_events", "Pica.Props.C81_events_partial", "Pica.Props.C81_codes_partial", "Pica.Props.C81_false_codes", "Pica.Props.C81_false_initialized"], "note": "False of the code: the state is an object, no event conforms because of the names of the categories, and every command has unlisted status codes. Proved: everything else of the events conforms, and exactly which status codes occur."},
{"property": "C82", "status": "proved", "theorems": ["Pica.Props.C82_anchors", "Pica.Props.C82_round", "Pica.Props.C82_data"], "note": ""},
{"property": "C83", "status": "proved", "theorems": ["Pica.Props.C83_window", "Pica.Props.C83_order", "Pica.Props.C83_states", "Pica.Props.C83_close"], "note": "Times in microseconds; the lateness of the machine is a parameter. Changes closer than the lateness may be told in the wrong order (C83_close)."},
{"property": "C84", "status": "proved", "theorems": ["Pica.Props.C84_spacing", "Pica.Props.C84_abort", "Pica.Props.C84_rate", "Pica.Props.C84_ntfs", "Pica.Props.C84_interval", "Pica.Props.C84_configured"], "note": "Tokio's sleep is assumed not to end early. C84_interval: the interval is the RANGING_DURATION the host configured, 200 ms if it did not."},
{"property": "C85", "status": "proved", "theorems": ["Pica.Props.C85_accurate", "Pica.Props.C85_elevation", "Pica.Props.C85_azimuth", "Pica.Props.C85_yaw", "Pica.Props.C85_pitch", "Pica.Props.C85_aim"], "note": "The accuracy of glam's rotation is a hypothesis (Accurate), which follows from the accuracy of its functions (Glam)."},
{"property": "C86", "status": "partial", "theorems": ["Pica.Props.C86_taken", "Pica.Props.C86_unique", "Pica.Props.C86_partial", "Pica.Props.C86_refused", "Pica.Props.C86_whole", "Pica.Props.C86_total", "Pica.Props.C86_page", "Pica.Props.C86_blank", "Pica.Props.C86_cut", "Pica.Props.C86_false", "Pica.Props.C86_stray", "Pica.Props.C86_fraction", "Pica.Props.C86_word"], "note": "False of the code: a body that ends early describes nothing and is taken as the origin (C86_false). Proved: of bodies that are JSON documents, those that describe a position are taken as it and all others are refused (C86_whole); no bodies are taken as anything but what they describe or the origin; bodies of the page; what cut-off bodies do; that nothing but an end is taken as missing (C86_stray). serde_json is modelled from memory."},
{"property": "C87", "status": "partial", "theorems": ["Pica.Props.C87_partial", "Pica.Props.C87_flat", "Pica.Props.C87_over", "Pica.Props.C87_rotation", "Pica.Props.C87_again", "Pica.Props.C87_page", "Pica.Props.C87_false"], "note": "False of the code: a pitch of 120 degrees is shown as 60. Proved: the angles shown always describe the rotation that was set unless the pitch is 90 or -90 degrees, and they are the ones that were set if the pitch is within 89 degrees and yaw and roll are within half a turn."},
{"property": "C88", "status": "proved", "theorems": ["Pica.Props.C88_processed", "Pica.Props.C88_connected", "Pica.Props.C88_answered", "Pica.Props.C88_gone", "Pica.Props.C88_notified", "Pica.Props.C88_ranging", "Pica.Props.C88_quiet", "Pica.Props.C88_late"], "note": "Endless fair schedules; a panic ends a schedule (C44). C88_late: why the last clause says 'after some time'."},
{"property": "C89", "status": "proved", "theorems": ["Pica.Props.C89_count", "Pica.Props.C89_sent", "Pica.Props.C32_remove"], "note": "The effects counted are those of C32_remove."},
{"property": "C90", "status": "proved", "theorems": ["Pica.Props.C90_connected", "Pica.Props.C90_disconnected", "Pica.Props.C90_created", "Pica.Props.C90_destroyed", "Pica.Props.C90_refused", "Pica.Props.C90_lost", "Pica.Props.C90_state", "Pica.Props.C90_poison", "Pica.Props.C90_files", "Pica.Props.C90_events", "Pica.Props.C90_paired", "Pica.Props.C90_ends"], "note": "The outcomes of the commands for anchors are those of C40."},
{"property": "C91", "status": "partial", "theorems": ["Pica.Props.C91_follows", "Pica.Props.C91_lift", "Pica.Props.C91_turn", "Pica.Props.C91_throws", "Pica.Props.C91_select", "Pica.Props.C91_held", "Pica.Props.C91_accepted", "Pica.Props.C91_requests", "Pica.Props.C91_refused", "Pica.Props.C91_click", "Pica.Props.C91_page_partial", "Pica.Props.C91_last_partial", "Pica.Props.C91_high_false", "Pica.Props.C91_buttons_false", "Pica.Props.C91_last_false"], "note": "Proved for pages loaded at a quiet time and users who press one button at a time, lift nothing above 32767, and whose requests are handled in the order they were sent; each of these conditions is shown to be needed."},
{"property": "C92", "status": "proved", "theorems": ["Pica.Props.C92_pass", "Pica.Props.C92_time", "Pica.Props.C92_progress", "Pica.Props.C92_late_false", "Pica.Props.C92_lag_false", "Pica.Props.C92_expects", "Pica.Props.C92_shows"], "note": "The bounds of C92_pass are sharp: the two _false theorems are its other half, not exceptions to it."},
{"property": "C93", "status": "proved", "theorems": ["Pica.Props.C93_pass", "Pica.Props.C93_time", "Pica.Props.C93_progress", "Pica.Props.C93_gap_false", "Pica.Props.C93_expects"], "note": "C93_gap_false is the other half of the condition on the connections: with a gap of a second the test fails. The model starts a host when its connection is accepted; the real test starts both when both are connected."},
{"property": "C94", "status": "proved", "theorems": ["Pica.Props.C94_closed", "Pica.Props.C94_open", "Pica.Props.C94_fromInt", "Pica.Props.C94_distinct", "Pica.Props.C94_refused", "Pica.Props.C94_used"], "note": "Over the whole tables transcribed from the packet description and from the Python package; the enumerations no modelled packet uses (five) are left out."},
{"property": "C95", "status": "proved", "theorems": ["Pica.Props.C95_control", "Pica.Props.C95_received", "Pica.Props.C95_transfer", "Pica.Props.C95_placed", "Pica.Props.C95_destroyed", "Pica.Props.C95_state", "Pica.Props.C95_equals", "Pica.Props.C95_other", "Pica.Props.C95_many", "Pica.Props.C95_letters"], "note": "Over the printable characters; the digits of other scripts, which int takes, are left out."},
{"property": "C96", "status": "partial", "theorems": ["Pica.Props.C96_structs", "Pica.Props.C96_forward_partial", "Pica.Props.C96_back", "Pica.Props.C96_fits", "Pica.Props.C96_exact", "Pica.Props.C96_injective", "Pica.Props.C96_false", "Pica.Props.C96_unlisted", "Pica.Props.C96_wide", "Pica.Props.C96_raises"], "note": "The two commands that ask for parameters are not read back with an identifier without a name (C96_false, C96_unlisted say exactly when); everything else is proved."},
{"property": "C97", "status": "proved", "theorems": ["Pica.Props.C97_pace", "Pica.Props.C97_count", "Pica.Props.C97_rounds"], "note": "Lower bound on the rate, given a bound on how late a due task may be; complement of C84."},
{"property": "C98", "status": "partial", "theorems": ["Pica.Props.C98_write_partial", "Pica.Props.C98_written_partial", "Pica.Props.C98_read_partial", "Pica.Props.C98_accept_partial", "Pica.Props.C98_iff_partial", "Pica.Props.C98_unambiguous_partial", "Pica.Props.C98_false", "Pica.Props.C98_multicast"], "note": "False of the code: the answer to a multicast update (SessionUpdateControllerMulticastListRsp) is written and read without its list of controlees (C98_false, C98_multicast). For every other class, the bytes written are those of the description, what is read has the layout of the description, and all bytes with that layout are read (C98_iff_partial)."},
{"property": "C99", "status": "proved", "theorems": ["Pica.Props.C99_response_written", "Pica.Props.C99_notification_written", "Pica.Props.C99_data_written", "Pica.Props.C99_command_read", "Pica.Props.C99_controlees_read", "Pica.Props.C99_data_read", "Pica.Props.C99_response_read", "Pica.Props.C99_notification_read", "Pica.Props.C99_data_received", "Pica.Props.C99_one"], "note": "Encoders exactly the bits of the description; parsers exactly the matching bytes; unambiguous."},
{"property": "C100", "status": "partial", "theorems": ["Pica.Props.C100_size_partial", "Pica.Props.C100_written_partial", "Pica.Props.C100_asked", "Pica.Props.C100_none", "Pica.Props.C100_false"], "note": "False of the code: the two commands that ask for parameters and DL-TDoA notifications (C100_false, C100_asked, C100_none). Proved for every other packet, read or written."},
{"property": "C101", "status": "proved", "theorems": ["Pica.Props.C101_commands", "Pica.Props.C101_any", "Pica.Props.C101_never", "Pica.Props.C101_others"], "note": "Exact in both directions: a schedule for each listed pair of cause and panic (2^32 rounds by induction), and no schedule for any other. FromStreams restricts the messages to those the connection tasks deliver, which have at least four bytes."},
{"property": "C102", "status": "proved", "theorems": ["Pica.Props.C102_exact"], "note": "For every Arith and rotation."},
{"property": "C103", "status": "proved", "theorems": ["Pica.Props.C103_position", "Pica.Props.C103_glam", "Pica.Props.C103_mac"], "note": "Spec/UnitTests.lean lists the tests; the test of a range rounds where the code truncates, which is the same for its four positions."},
{"property": "C104", "status": "proved", "theorems": ["Pica.Props.C104_decimal", "Pica.Props.C104_octets", "Pica.Props.C104_session", "Pica.Props.C104_transfer"], "note": "The digits of other scripts, which int takes too, are left out of model and specification."},
{"property": "C105", "status": "partial", "theorems": ["Pica.Props.C105_camera", "Pica.Props.C105_cube", "Pica.Props.C105_ground_partial", "Pica.Props.C105_ground_false", "Pica.Props.C105_deep", "Pica.Props.C105_deep_line", "Pica.Props.C105_axes", "Pica.Props.C105_arrow", "Pica.Props.C105_sectors", "Pica.Props.C105_neighbor"], "note": "False of devices more than 40 below the ground (C105_ground_false, C105_deep, C105_deep_line); everything else is proved."},
{"property": "C106", "status": "partial", "theorems": ["Pica.Props.C106_tells", "Pica.Props.C106_complete", "Pica.Props.C106_schedule", "Pica.Props.C106_false", "Pica.Props.C106_stamps", "Pica.Props.C106_dump", "Pica.Props.C106_report", "Pica.Props.C106_fields", "Pica.Props.C106_names", "Pica.Props.C106_lines", "Pica.Props.C106_header"], "note": "Proved: the text printed to the end tells the object up to payloads and time stamps, exactly which objects are printed to the end, the bytes can be read back, and for every schedule which messages are described in full. The full statement is false: responses with an unnamed identifier are described in part (C106_false: the answer to CORE_GET_CAPS_INFO always)."},
{"property": "C107", "status": "proved", "theorems": ["Pica.Props.C107_events", "Pica.Props.C107_answered", "Pica.Props.C107_registry", "Pica.Props.C107_registry_false"], "note": "Fairness is strong fairness of the tasks of the program; the program is assumed not to end in the schedule. C107_registry has the conditions of the statement as hypotheses; C107_registry_false is the schedule that differs forever."},
{"property": "C108", "status": "proved", "theorems": ["Pica.Props.C108_in_order", "Pica.Props.C108_count", "Pica.Props.C108_small", "Pica.Props.C108_large", "Pica.Props.C108_false"], "note": "Order, absence of gaps and the number of events in general (C108_in_order, C108_count); no loss for at most 512 devices (C108_small); the possible loss for every larger number, and that such a registry can be had (C108_large, C108_false)."},
{"property": "C109", "status": "proved", "theorems": ["Pica.Props.C109_appears", "Pica.Props.C109_gone", "Pica.Props.C109_answered", "Pica.Props.C109_ranging"], "note": ""},
{"property": "C110", "status": "partial", "theorems": ["Pica.Props.C110_commands", "Pica.Props.C110_known", "Pica.Props.C110_parameters", "Pica.Props.C110_none", "Pica.Props.C110_states", "Pica.Props.C110_answers", "Pica.Props.C110_given", "Pica.Props.C110_blanks"], "note": "Proved: the proposals are exactly the commands or parameters that begin with the word being typed, and no call raises. False: parameters given by position are proposed again and end the console (C110_given); commands are proposed after leading blanks, where none is known (C110_blanks)."},
{"property": "C111", "status": "proved", "theorems": ["Pica.Props.C111_conversation"], "note": "The class of the answer is given by a table of commands and classes."},
{"property": "C112", "status": "proved", "theorems": ["Pica.Props.C112_apart", "Pica.Props.C112_order", "Pica.Props.C112_ready"], "note": ""},
{"property": "C113", "status": "partial", "theorems": ["Pica.Props.C113_ranging_round_control", "Pica.Props.C113_result_report_config", "Pica.Props.C113_common_header", "Pica.Props.C113_control_header", "Pica.Props.C113_data_header", "Pica.Props.C113_controlee", "Pica.Props.C113_controlees", "Pica.Props.C113_cut", "Pica.Props.C113_emulator", "Pica.Props.C113_aoa_measurement", "Pica.Props.C113_cir_value", "Pica.Props.C113_tlv_read", "Pica.Props.C113_tlv_written_partial", "Pica.Props.C113_bare_written", "Pica.Props.C113_kept", "Pica.Props.C113_tlv_written_false", "Pica.Props.C113_size", "Pica.Props.C113_tlv_size"], "note": "Proved for every object but those of Rssi and Aoa that hold an old payload and an empty list, of which the statement is false (C113_tlv_written_false); what is written of those is C113_kept."},
{"property": "C114", "status": "proved", "theorems": ["Pica.Props.C114_view", "Pica.Props.C114_fresh", "Pica.Props.C114_unheard", "Pica.Props.C114_panic", "Pica.Props.C114_measured", "Pica.Props.C114_stopped"], "note": "Two runs of the emulator compared for one host. C114_measured and C114_stopped are witnesses that measurements and in-band stops do carry influence."},
{"property": "C115", "status": "proved", "theorems": ["Pica.Props.C115_step", "Pica.Props.C115_panic", "Pica.Props.C115_history", "Pica.Props.C115_deterministic", "Pica.Props.C115_shuffled"], "note": "States that are the same up to the order of their maps do the same under every command and over every history; the order of the measurements inside one notification is excepted, with a witness that it does depend on the map."},
{"property": "C116", "status": "proved", "theorems": ["Pica.Props.C116_reading", "Pica.Props.C116_structure", "Pica.Props.C116_kind", "Pica.Props.C116_init", "Pica.Props.C116_report"], "note": "Proved for every list of fields whose arrays are counted or last, and for all packets and structures of the description; kinds are told apart by bits that their constraints fix."},
{"property": "C117", "status": "proved", "theorems": ["Pica.Props.C117_valid", "Pica.Props.C117_trimmed", "Pica.Props.C117_values"], "note": "The lines are copied from the file as bytes; enumerations are numbers of their width."},
{"property": "C118", "status": "proved", "theorems": ["Pica.Props.C118_unique", "Pica.Props.C118_answer", "Pica.Props.C118_other", "Pica.Props.C118_history", "Pica.Props.C118_silent", "Pica.Props.C118_stuck", "Pica.Props.C118_schedule", "Pica.Props.C118_host"], "note": "The reference machine is a relation with one line per case; the emulator refines it for whole conversations. A command that makes the emulator panic has no answer."},
{"property": "C119", "status": "proved", "theorems": ["Pica.Props.C119_packets", "Pica.Props.C119_tasks", "Pica.Props.C119_notices", "Pica.Props.C119_sends", "Pica.Props.C119_schedule", "Pica.Props.C119_stops", "Pica.Props.C119_flood", "Pica.Props.C119_endless", "Pica.Props.C119_reports"], "note": "Counts per step and amortised over a history; the channel to a host that does not read is unbounded in the code, so the packets waiting there are not bounded by this."},
{"property": "C120", "status": "proved", "theorems": ["Pica.Props.C120_swap", "Pica.Props.C120_panic", "Pica.Props.C120_mixed", "Pica.Props.C120_anchor", "Pica.Props.C120_rounds", "Pica.Props.C120_round", "Pica.Props.C120_rounds_mixed", "Pica.Props.C120_disconnect"], "note": "Of the commands of the event loop, packets, anchor requests and rounds; C120_round shows that rounds do not commute with packets."}
]}
