import Verif.Props.Answers
import Verif.Props.AppConfig
import Verif.Props.Burst
import Verif.Props.Clock
import Verif.Props.Codec
import Verif.Props.Codes
import Verif.Props.CommandLine
import Verif.Props.Commute
import Verif.Props.Completion
import Verif.Props.Config
import Verif.Props.Connection
import Verif.Props.Console
import Verif.Props.Conversation
import Verif.Props.Defaults
import Verif.Props.Dispatch
import Verif.Props.Duplex
import Verif.Props.Editor
import Verif.Props.Enumeration
import Verif.Props.Euler
import Verif.Props.Expected
import Verif.Props.Fair
import Verif.Props.Framing
import Verif.Props.Guests
import Verif.Props.Http
import Verif.Props.Influence
import Verif.Props.Interval
import Verif.Props.JsonBody
import Verif.Props.Layout
import Verif.Props.Life
import Verif.Props.MacAddress
import Verif.Props.Machine
import Verif.Props.Main
import Verif.Props.Multicast
import Verif.Props.Notices
import Verif.Props.OpenApi
import Verif.Props.Order
import Verif.Props.Pace
import Verif.Props.Page
import Verif.Props.Panics
import Verif.Props.Params
import Verif.Props.Pcapng
import Verif.Props.Picture
import Verif.Props.Position
import Verif.Props.PyInt
import Verif.Props.PyLayout
import Verif.Props.PyPackets
import Verif.Props.PyShow
import Verif.Props.PySize
import Verif.Props.PyStructs
import Verif.Props.PyUci
import Verif.Props.Queries
import Verif.Props.Ranging
import Verif.Props.Rate
import Verif.Props.Reading
import Verif.Props.Registry
import Verif.Props.Replies
import Verif.Props.Reset
import Verif.Props.Rotation
import Verif.Props.Rounds
import Verif.Props.Schedule
import Verif.Props.Session
import Verif.Props.Site
import Verif.Props.SiteFair
import Verif.Props.Stops
import Verif.Props.Stream
import Verif.Props.System
import Verif.Props.Tests
import Verif.Props.Told
import Verif.Props.Trace
import Verif.Props.Transfer
import Verif.Props.UnitTests
import Verif.Props.Vectors
import Verif.Props.WebText
import Lean.Util.CollectAxioms
/-! Checks that every theorem of `MANIFEST.json` depends on the three standard axioms at most. Written by `tools/axioms.py`. -/

open Lean

/-- Fails if the theorem depends on another axiom. -/
def Pica.audit (n : Name) : CoreM Unit := do
  let some (.thmInfo _) := (← getEnv).find? n | throwError "{n} is not a theorem"
  for a in (← collectAxioms n) do
    unless a ∈ [``propext, ``Classical.choice, ``Quot.sound] do
      throwError "{n} depends on {a}"

run_cmd for n in [
    ``Pica.Props.C01_parse_display,
    ``Pica.Props.C01_display_injective,
    ``Pica.Props.C01_display,
    ``Pica.Props.C02_parse_short_iff,
    ``Pica.Props.C02_parse_extended_iff,
    ``Pica.Props.C02_parse_isSome_iff,
    ``Pica.Props.C03_toU64,
    ``Pica.Props.C03_toBytes,
    ``Pica.Props.C03_toBytes_injective,
    ``Pica.Props.C03_toU64_injective,
    ``Pica.Props.C04_get_set,
    ``Pica.Props.C05_set_frame,
    ``Pica.Props.C06_set_ok_iff,
    ``Pica.Props.C06_set_abort_iff,
    ``Pica.Props.C06_context,
    ``Pica.Props.C07_get_none_iff,
    ``Pica.Props.C08_read_packets,
    ``Pica.Props.C08_cut,
    ``Pica.Props.C08_unknown,
    ``Pica.Props.C08_any_bytes,
    ``Pica.Props.C09_segments,
    ``Pica.Props.C09_wellFormed,
    ``Pica.Props.C09_empty,
    ``Pica.Props.C09_count,
    ``Pica.Props.C10_roundtrip,
    ``Pica.Props.C11_host,
    ``Pica.Props.C12_false,
    ``Pica.Props.C12_partial,
    ``Pica.Props.C13_one_answer,
    ``Pica.Props.C14_reset_first,
    ``Pica.Props.C14_untouched,
    ``Pica.Props.C14_needs_reset,
    ``Pica.Props.C15_ignored,
    ``Pica.Props.C16_false,
    ``Pica.Props.C16_partial,
    ``Pica.Props.C16_commands_partial,
    ``Pica.Props.C17_reserved,
    ``Pica.Props.C17_type,
    ``Pica.Props.C17_unsupported,
    ``Pica.Props.C18_bound,
    ``Pica.Props.C18_count,
    ``Pica.Props.C19_step,
    ``Pica.Props.C19_history,
    ``Pica.Props.C20_configured,
    ``Pica.Props.C21_applied,
    ``Pica.Props.C21_refused,
    ``Pica.Props.C21_abort,
    ``Pica.Props.C22_incomplete,
    ``Pica.Props.C22_gates,
    ``Pica.Props.C23_commands,
    ``Pica.Props.C23_other_packets,
    ``Pica.Props.C24_devices_independent,
    ``Pica.Props.C24_absent,
    ``Pica.Props.C25_deinit,
    ``Pica.Props.C25_absent,
    ``Pica.Props.C26_reset,
    ``Pica.Props.C26_like_fresh,
    ``Pica.Props.C27_false,
    ``Pica.Props.C27_active_partial,
    ``Pica.Props.C27_orderly_partial,
    ``Pica.Props.C28_false,
    ``Pica.Props.C28_partial,
    ``Pica.Props.C29_false,
    ``Pica.Props.C29_start_partial,
    ``Pica.Props.C29_start_orderly_partial,
    ``Pica.Props.C29_stop,
    ``Pica.Props.C30_add_partial,
    ``Pica.Props.C30_keys_partial,
    ``Pica.Props.C30_added,
    ``Pica.Props.C30_removed,
    ``Pica.Props.C30_refused,
    ``Pica.Props.C32_remove,
    ``Pica.Props.C30_false,
    ``Pica.Props.C31_history_partial,
    ``Pica.Props.C31_step_partial,
    ``Pica.Props.C31_false,
    ``Pica.Props.C32_others,
    ``Pica.Props.C33_measurements,
    ``Pica.Props.C33_peers,
    ``Pica.Props.C33_once,
    ``Pica.Props.C34_mutual,
    ``Pica.Props.C35_count,
    ``Pica.Props.C35_get_count,
    ``Pica.Props.C36_queue,
    ``Pica.Props.C36_round_partial,
    ``Pica.Props.C36_false,
    ``Pica.Props.C37_frame,
    ``Pica.Props.C38_stop,
    ``Pica.Props.C38_again,
    ``Pica.Props.C39_handles,
    ``Pica.Props.C40_create_taken,
    ``Pica.Props.C40_create_free,
    ``Pica.Props.C40_destroy_absent,
    ``Pica.Props.C40_destroy_present,
    ``Pica.Props.C40_registry,
    ``Pica.Props.C41_unique_partial,
    ``Pica.Props.C41_address,
    ``Pica.Props.C41_false_anchor,
    ``Pica.Props.C41_false_devices,
    ``Pica.Props.C42_events,
    ``Pica.Props.C43_one,
    ``Pica.Props.C43_owner,
    ``Pica.Props.C43_none_survives,
    ``Pica.Props.C43_start,
    ``Pica.Props.C44_false,
    ``Pica.Props.C44_partial,
    ``Pica.Props.C45_fifo,
    ``Pica.Props.C45_bound,
    ``Pica.Props.C45_progress,
    ``Pica.Props.C45_connection,
    ``Pica.Props.C46_read,
    ``Pica.Props.C46_aligned,
    ``Pica.Props.C47_command_iff,
    ``Pica.Props.C47_command_roundtrip,
    ``Pica.Props.C47_command_injective,
    ``Pica.Props.C48_rsp_bytes,
    ``Pica.Props.C48_rsp_roundtrip,
    ``Pica.Props.C48_ntf_bytes,
    ``Pica.Props.C48_ntf_roundtrip,
    ``Pica.Props.C48_data_bytes,
    ``Pica.Props.C48_data_roundtrip,
    ``Pica.Props.C49_set,
    ``Pica.Props.C49_get_partial,
    ``Pica.Props.C49_last,
    ``Pica.Props.C49_false,
    ``Pica.Props.C50_last_status,
    ``Pica.Props.C50_get_state,
    ``Pica.Props.C50_device_status,
    ``Pica.Props.C51_partial,
    ``Pica.Props.C51_unknown,
    ``Pica.Props.C51_known,
    ``Pica.Props.C51_false_order,
    ``Pica.Props.C51_false_dropped,
    ``Pica.Props.C52_false,
    ``Pica.Props.C52_listeners,
    ``Pica.Props.C52_partial,
    ``Pica.Props.C53_symmetric,
    ``Pica.Props.C54_static,
    ``Pica.Props.C54_plain,
    ``Pica.Props.C54_address_partial,
    ``Pica.Props.C54_unknown,
    ``Pica.Props.C54_unchanged,
    ``Pica.Props.C55_angles,
    ``Pica.Props.C56_origin,
    ``Pica.Props.C57_round_survives,
    ``Pica.Props.C58_range,
    ``Pica.Props.C59_azimuth,
    ``Pica.Props.C59_unturned,
    ``Pica.Props.C60_elevation,
    ``Pica.Props.C60_coincident,
    ``Pica.Props.C61_range,
    ``Pica.Props.C62_messages,
    ``Pica.Props.C62_bad,
    ``Pica.Props.C62_cases,
    ``Pica.Props.C62_stream,
    ``Pica.Props.C62_write,
    ``Pica.Props.C63_delivery,
    ``Pica.Props.C64_messages,
    ``Pica.Props.C64_commands,
    ``Pica.Props.C64_refused,
    ``Pica.Props.C65_unknown,
    ``Pica.Props.C65_unsupported,
    ``Pica.Props.C65_accepted,
    ``Pica.Props.C65_received,
    ``Pica.Props.C65_ignored,
    ``Pica.Props.C66_info,
    ``Pica.Props.C66_info_bytes,
    ``Pica.Props.C66_caps,
    ``Pica.Props.C66_power,
    ``Pica.Props.C66_country,
    ``Pica.Props.C67_values,
    ``Pica.Props.C67_failed,
    ``Pica.Props.C67_unknown,
    ``Pica.Props.C67_long,
    ``Pica.Props.C68_values,
    ``Pica.Props.C68_init,
    ``Pica.Props.C68_only,
    ``Pica.Props.C69,
    ``Pica.Props.C70_serialize,
    ``Pica.Props.C70_received,
    ``Pica.Props.C70_controlees,
    ``Pica.Props.C70_data,
    ``Pica.Props.C70_wide,
    ``Pica.Props.C70_raises,
    ``Pica.Props.C70_data_wide,
    ``Pica.Props.C71_rsp_partial,
    ``Pica.Props.C71_false,
    ``Pica.Props.C71_ntf,
    ``Pica.Props.C71_data,
    ``Pica.Props.C71_schedule_partial,
    ``Pica.Props.C72_sent,
    ``Pica.Props.C72_queued,
    ``Pica.Props.C72_arrives_partial,
    ``Pica.Props.C72_long_false,
    ``Pica.Props.C73_received_partial,
    ``Pica.Props.C73_false,
    ``Pica.Props.C73_stuck,
    ``Pica.Props.C74_answers,
    ``Pica.Props.C74_complete,
    ``Pica.Props.C74_host,
    ``Pica.Props.C75_once,
    ``Pica.Props.C75_states,
    ``Pica.Props.C75_exists,
    ``Pica.Props.C76_false,
    ``Pica.Props.C76_order_partial,
    ``Pica.Props.C77_capture,
    ``Pica.Props.C77_host,
    ``Pica.Props.C77_emulator,
    ``Pica.Props.C77_ended,
    ``Pica.Props.C77_close,
    ``Pica.Props.C78_false,
    ``Pica.Props.C78_sides_partial,
    ``Pica.Props.C78_exchange_partial,
    ``Pica.Props.C79_events,
    ``Pica.Props.C79_pieces,
    ``Pica.Props.C79_state,
    ``Pica.Props.C80_partial,
    ``Pica.Props.C80_placed_partial,
    ``Pica.Props.C80_false,
    ``Pica.Props.C80_false_twice,
    ``Pica.Props.C80_false_break,
    ``Pica.Props.C80_false_address,
    ``Pica.Props.C80_false_exception,
    ``Pica.Props.C81_false_state,
    ``Pica.Props.C81_false_events,
    ``Pica.Props.C81_events_partial,
    ``Pica.Props.C81_codes_partial,
    ``Pica.Props.C81_false_codes,
    ``Pica.Props.C81_false_initialized,
    ``Pica.Props.C82_anchors,
    ``Pica.Props.C82_round,
    ``Pica.Props.C82_data,
    ``Pica.Props.C83_window,
    ``Pica.Props.C83_order,
    ``Pica.Props.C83_states,
    ``Pica.Props.C83_close,
    ``Pica.Props.C84_spacing,
    ``Pica.Props.C84_abort,
    ``Pica.Props.C84_rate,
    ``Pica.Props.C84_ntfs,
    ``Pica.Props.C84_interval,
    ``Pica.Props.C84_configured,
    ``Pica.Props.C85_accurate,
    ``Pica.Props.C85_elevation,
    ``Pica.Props.C85_azimuth,
    ``Pica.Props.C85_yaw,
    ``Pica.Props.C85_pitch,
    ``Pica.Props.C85_aim,
    ``Pica.Props.C86_taken,
    ``Pica.Props.C86_unique,
    ``Pica.Props.C86_partial,
    ``Pica.Props.C86_refused,
    ``Pica.Props.C86_whole,
    ``Pica.Props.C86_total,
    ``Pica.Props.C86_page,
    ``Pica.Props.C86_blank,
    ``Pica.Props.C86_cut,
    ``Pica.Props.C86_false,
    ``Pica.Props.C86_stray,
    ``Pica.Props.C86_fraction,
    ``Pica.Props.C86_word,
    ``Pica.Props.C87_partial,
    ``Pica.Props.C87_flat,
    ``Pica.Props.C87_over,
    ``Pica.Props.C87_rotation,
    ``Pica.Props.C87_again,
    ``Pica.Props.C87_page,
    ``Pica.Props.C87_false,
    ``Pica.Props.C88_processed,
    ``Pica.Props.C88_connected,
    ``Pica.Props.C88_answered,
    ``Pica.Props.C88_gone,
    ``Pica.Props.C88_notified,
    ``Pica.Props.C88_ranging,
    ``Pica.Props.C88_quiet,
    ``Pica.Props.C88_late,
    ``Pica.Props.C89_count,
    ``Pica.Props.C89_sent,
    ``Pica.Props.C90_connected,
    ``Pica.Props.C90_disconnected,
    ``Pica.Props.C90_created,
    ``Pica.Props.C90_destroyed,
    ``Pica.Props.C90_refused,
    ``Pica.Props.C90_lost,
    ``Pica.Props.C90_state,
    ``Pica.Props.C90_poison,
    ``Pica.Props.C90_files,
    ``Pica.Props.C90_events,
    ``Pica.Props.C90_paired,
    ``Pica.Props.C90_ends,
    ``Pica.Props.C91_follows,
    ``Pica.Props.C91_lift,
    ``Pica.Props.C91_turn,
    ``Pica.Props.C91_throws,
    ``Pica.Props.C91_select,
    ``Pica.Props.C91_held,
    ``Pica.Props.C91_accepted,
    ``Pica.Props.C91_requests,
    ``Pica.Props.C91_refused,
    ``Pica.Props.C91_click,
    ``Pica.Props.C91_page_partial,
    ``Pica.Props.C91_last_partial,
    ``Pica.Props.C91_high_false,
    ``Pica.Props.C91_buttons_false,
    ``Pica.Props.C91_last_false,
    ``Pica.Props.C92_pass,
    ``Pica.Props.C92_time,
    ``Pica.Props.C92_progress,
    ``Pica.Props.C92_late_false,
    ``Pica.Props.C92_lag_false,
    ``Pica.Props.C92_expects,
    ``Pica.Props.C92_shows,
    ``Pica.Props.C93_pass,
    ``Pica.Props.C93_time,
    ``Pica.Props.C93_progress,
    ``Pica.Props.C93_gap_false,
    ``Pica.Props.C93_expects,
    ``Pica.Props.C94_closed,
    ``Pica.Props.C94_open,
    ``Pica.Props.C94_fromInt,
    ``Pica.Props.C94_distinct,
    ``Pica.Props.C94_refused,
    ``Pica.Props.C94_used,
    ``Pica.Props.C95_control,
    ``Pica.Props.C95_received,
    ``Pica.Props.C95_transfer,
    ``Pica.Props.C95_placed,
    ``Pica.Props.C95_destroyed,
    ``Pica.Props.C95_state,
    ``Pica.Props.C95_equals,
    ``Pica.Props.C95_other,
    ``Pica.Props.C95_many,
    ``Pica.Props.C95_letters,
    ``Pica.Props.C96_structs,
    ``Pica.Props.C96_forward_partial,
    ``Pica.Props.C96_back,
    ``Pica.Props.C96_fits,
    ``Pica.Props.C96_exact,
    ``Pica.Props.C96_injective,
    ``Pica.Props.C96_false,
    ``Pica.Props.C96_unlisted,
    ``Pica.Props.C96_wide,
    ``Pica.Props.C96_raises,
    ``Pica.Props.C97_pace,
    ``Pica.Props.C97_count,
    ``Pica.Props.C97_rounds,
    ``Pica.Props.C98_write_partial,
    ``Pica.Props.C98_written_partial,
    ``Pica.Props.C98_read_partial,
    ``Pica.Props.C98_accept_partial,
    ``Pica.Props.C98_iff_partial,
    ``Pica.Props.C98_unambiguous_partial,
    ``Pica.Props.C98_false,
    ``Pica.Props.C98_multicast,
    ``Pica.Props.C99_response_written,
    ``Pica.Props.C99_notification_written,
    ``Pica.Props.C99_data_written,
    ``Pica.Props.C99_command_read,
    ``Pica.Props.C99_controlees_read,
    ``Pica.Props.C99_data_read,
    ``Pica.Props.C99_response_read,
    ``Pica.Props.C99_notification_read,
    ``Pica.Props.C99_data_received,
    ``Pica.Props.C99_one,
    ``Pica.Props.C100_size_partial,
    ``Pica.Props.C100_written_partial,
    ``Pica.Props.C100_asked,
    ``Pica.Props.C100_none,
    ``Pica.Props.C100_false,
    ``Pica.Props.C101_commands,
    ``Pica.Props.C101_any,
    ``Pica.Props.C101_never,
    ``Pica.Props.C101_others,
    ``Pica.Props.C102_exact,
    ``Pica.Props.C103_position,
    ``Pica.Props.C103_glam,
    ``Pica.Props.C103_mac,
    ``Pica.Props.C104_decimal,
    ``Pica.Props.C104_octets,
    ``Pica.Props.C104_session,
    ``Pica.Props.C104_transfer,
    ``Pica.Props.C105_camera,
    ``Pica.Props.C105_cube,
    ``Pica.Props.C105_ground_partial,
    ``Pica.Props.C105_ground_false,
    ``Pica.Props.C105_deep,
    ``Pica.Props.C105_deep_line,
    ``Pica.Props.C105_axes,
    ``Pica.Props.C105_arrow,
    ``Pica.Props.C105_sectors,
    ``Pica.Props.C105_neighbor,
    ``Pica.Props.C106_tells,
    ``Pica.Props.C106_complete,
    ``Pica.Props.C106_schedule,
    ``Pica.Props.C106_false,
    ``Pica.Props.C106_stamps,
    ``Pica.Props.C106_dump,
    ``Pica.Props.C106_report,
    ``Pica.Props.C106_fields,
    ``Pica.Props.C106_names,
    ``Pica.Props.C106_lines,
    ``Pica.Props.C106_header,
    ``Pica.Props.C107_events,
    ``Pica.Props.C107_answered,
    ``Pica.Props.C107_registry,
    ``Pica.Props.C107_registry_false,
    ``Pica.Props.C108_in_order,
    ``Pica.Props.C108_count,
    ``Pica.Props.C108_small,
    ``Pica.Props.C108_large,
    ``Pica.Props.C108_false,
    ``Pica.Props.C109_appears,
    ``Pica.Props.C109_gone,
    ``Pica.Props.C109_answered,
    ``Pica.Props.C109_ranging,
    ``Pica.Props.C110_commands,
    ``Pica.Props.C110_known,
    ``Pica.Props.C110_parameters,
    ``Pica.Props.C110_none,
    ``Pica.Props.C110_states,
    ``Pica.Props.C110_answers,
    ``Pica.Props.C110_given,
    ``Pica.Props.C110_blanks,
    ``Pica.Props.C111_conversation,
    ``Pica.Props.C112_apart,
    ``Pica.Props.C112_order,
    ``Pica.Props.C112_ready,
    ``Pica.Props.C113_ranging_round_control,
    ``Pica.Props.C113_result_report_config,
    ``Pica.Props.C113_common_header,
    ``Pica.Props.C113_control_header,
    ``Pica.Props.C113_data_header,
    ``Pica.Props.C113_controlee,
    ``Pica.Props.C113_controlees,
    ``Pica.Props.C113_cut,
    ``Pica.Props.C113_emulator,
    ``Pica.Props.C113_aoa_measurement,
    ``Pica.Props.C113_cir_value,
    ``Pica.Props.C113_tlv_read,
    ``Pica.Props.C113_tlv_written_partial,
    ``Pica.Props.C113_bare_written,
    ``Pica.Props.C113_kept,
    ``Pica.Props.C113_tlv_written_false,
    ``Pica.Props.C113_size,
    ``Pica.Props.C113_tlv_size,
    ``Pica.Props.C114_view,
    ``Pica.Props.C114_fresh,
    ``Pica.Props.C114_unheard,
    ``Pica.Props.C114_panic,
    ``Pica.Props.C114_measured,
    ``Pica.Props.C114_stopped,
    ``Pica.Props.C115_step,
    ``Pica.Props.C115_panic,
    ``Pica.Props.C115_history,
    ``Pica.Props.C115_deterministic,
    ``Pica.Props.C115_shuffled,
    ``Pica.Props.C116_reading,
    ``Pica.Props.C116_structure,
    ``Pica.Props.C116_kind,
    ``Pica.Props.C116_init,
    ``Pica.Props.C116_report,
    ``Pica.Props.C117_valid,
    ``Pica.Props.C117_trimmed,
    ``Pica.Props.C117_values,
    ``Pica.Props.C118_unique,
    ``Pica.Props.C118_answer,
    ``Pica.Props.C118_other,
    ``Pica.Props.C118_history,
    ``Pica.Props.C118_silent,
    ``Pica.Props.C118_stuck,
    ``Pica.Props.C118_schedule,
    ``Pica.Props.C118_host,
    ``Pica.Props.C119_packets,
    ``Pica.Props.C119_tasks,
    ``Pica.Props.C119_notices,
    ``Pica.Props.C119_sends,
    ``Pica.Props.C119_schedule,
    ``Pica.Props.C119_stops,
    ``Pica.Props.C119_flood,
    ``Pica.Props.C119_endless,
    ``Pica.Props.C119_reports,
    ``Pica.Props.C120_swap,
    ``Pica.Props.C120_panic,
    ``Pica.Props.C120_mixed,
    ``Pica.Props.C120_anchor,
    ``Pica.Props.C120_rounds,
    ``Pica.Props.C120_round,
    ``Pica.Props.C120_rounds_mixed,
    ``Pica.Props.C120_disconnect] do
  Elab.Command.liftCoreM (Pica.audit n)
