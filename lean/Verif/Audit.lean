import Lean
import Verif.Props.Base64
import Verif.Props.BrokenRun
import Verif.Props.CMemory
import Verif.Props.ChildStatus
import Verif.Props.CliImages
import Verif.Props.CliMain
import Verif.Props.ClientLocks
import Verif.Props.ClientWait
import Verif.Props.Command
import Verif.Props.CppHandle
import Verif.Props.CvTrackers
import Verif.Props.Debug
import Verif.Props.DebugText
import Verif.Props.Descriptors
import Verif.Props.Drawing
import Verif.Props.Endpoint
import Verif.Props.Environment
import Verif.Props.ErrorText
import Verif.Props.FormatTexts
import Verif.Props.Formats
import Verif.Props.Geometry
import Verif.Props.Grammar
import Verif.Props.Handle
import Verif.Props.Handshake
import Verif.Props.Image
import Verif.Props.ImageMemory
import Verif.Props.Introduction
import Verif.Props.ListWrapper
import Verif.Props.Lists
import Verif.Props.Lock
import Verif.Props.LogCalls
import Verif.Props.LogThreads
import Verif.Props.Logger
import Verif.Props.LoopRun
import Verif.Props.MapMemory
import Verif.Props.Matlab
import Verif.Props.MatlabData
import Verif.Props.Message
import Verif.Props.MexClient
import Verif.Props.MexEnd
import Verif.Props.MexExchange
import Verif.Props.MexServer
import Verif.Props.MexStream
import Verif.Props.MortalRun
import Verif.Props.Ncc
import Verif.Props.NccMatlab
import Verif.Props.NccSearch
import Verif.Props.Numbers
import Verif.Props.OpenCv
import Verif.Props.Options
import Verif.Props.Overlap
import Verif.Props.Parameters
import Verif.Props.Player
import Verif.Props.Polygon
import Verif.Props.PolygonRaster
import Verif.Props.Port
import Verif.Props.Properties
import Verif.Props.PropertyMaps
import Verif.Props.PyDrop
import Verif.Props.PyErrors
import Verif.Props.PyImages
import Verif.Props.PyInterrupt
import Verif.Props.PyMemory
import Verif.Props.PyRegions
import Verif.Props.PySession
import Verif.Props.PyStart
import Verif.Props.PyText
import Verif.Props.PyTracker
import Verif.Props.Python
import Verif.Props.Raster
import Verif.Props.RegionApi
import Verif.Props.RegionCodec
import Verif.Props.RegionMemory
import Verif.Props.RegionText
import Verif.Props.Resources
import Verif.Props.Runner
import Verif.Props.Session
import Verif.Props.Sockets
import Verif.Props.SotSession
import Verif.Props.StaticRun
import Verif.Props.Tester
import Verif.Props.TextBuffer
import Verif.Props.TimedWait
import Verif.Props.Timer
import Verif.Props.TrackerProcess
import Verif.Props.Trajectory
import Verif.Props.Tutorial
import Verif.Props.Values
import Verif.Props.Watchdog
import Verif.Props.Wrapper

/-!
# Axiom audit (generated by tools/gen_audit.py from MANIFEST.json)

`#audit` fails the build if a theorem depends on an axiom other than `propext`,
`Classical.choice` and `Quot.sound`.
-/

open Lean Elab Command in
elab "#audit " ids:ident* : command => do
  for id in ids do
    let name ← liftCoreM <| realizeGlobalConstNoOverload id
    let axs ← liftCoreM <| collectAxioms name
    for a in axs do
      unless a == ``propext || a == ``Classical.choice || a == ``Quot.sound do
        throwErrorAt id "{name} depends on the axiom {a}"

#audit
  Trax.C01_round_trip
  Trax.C02_message_sequence
  Trax.C03_chunking_irrelevant
  Trax.C04_partial_writes
  Trax.C05_any_failure_partial
  Trax.C05_broken_stream_partial
  Trax.C05_failed_write_stops_false
  Trax.C05_failure_not_reported
  Trax.C06_one_line
  Trax.C07_unambiguous
  Trax.C08_foreign_lines_ignored
  Trax.C09_foreign_byte_partial
  Trax.C09_foreign_bytes_false
  Trax.C100_any_writing
  Trax.C101_broken_is_error
  Trax.C105_count_partial
  Trax.C105_mask_partial
  Trax.C105_names_false
  Trax.C105_polygon_partial
  Trax.C105_rectangle_partial
  Trax.C105_rounding_false
  Trax.C105_special_partial
  Trax.C106_format_lists
  Trax.C106_spaces
  Trax.C107_custom_false
  Trax.C107_declared_partial
  Trax.C108_custom_false
  Trax.C108_value_semantics_partial
  Trax.C109_row_false
  Trax.C109_value_semantics_partial
  Trax.C109_write_false
  Trax.C10_eof_is_error_false
  Trax.C10_eof_repeats_last_type
  Trax.C10_fresh_eof_partial
  Trax.C10_truncated_delivered
  Trax.C110_parameters_false
  Trax.C110_parameters_partial
  Trax.C111_lines_false
  Trax.C111_log_partial
  Trax.C112_silent_false
  Trax.C112_silent_partial
  Trax.C113_stopped_false
  Trax.C113_stopped_partial
  Trax.C114_files_false
  Trax.C114_files_partial
  Trax.C115_back_partial
  Trax.C115_colour_partial
  Trax.C115_gray_false
  Trax.C116_mask_false
  Trax.C116_mask_partial
  Trax.C116_matrix_partial
  Trax.C117_points_partial
  Trax.C117_rect_false
  Trax.C117_rect_partial
  Trax.C118_arrays
  Trax.C118_images_false
  Trax.C118_images_partial
  Trax.C119_arrays_partial
  Trax.C119_masks_partial
  Trax.C119_numbers_partial
  Trax.C119_regions_false
  Trax.C11_malformed_line_false
  Trax.C11_stray_character_forges
  Trax.C11_stray_character_leaks
  Trax.C11_unknown_type_partial
  Trax.C120_cell_partial
  Trax.C120_fields
  Trax.C120_properties_false
  Trax.C120_struct_partial
  Trax.C121_flags
  Trax.C121_names_false
  Trax.C121_names_partial
  Trax.C122_lists_false
  Trax.C122_lists_partial
  Trax.C128_setup_false
  Trax.C128_setup_partial
  Trax.C129_exchange_false
  Trax.C129_exchange_partial
  Trax.C12_eight_bit_false
  Trax.C12_eight_bit_partial
  Trax.C130_client_quits_partial
  Trax.C130_life_false
  Trax.C130_no_session_partial
  Trax.C130_tracker_quits_partial
  Trax.C130_unknown_partial
  Trax.C133_from_map_partial
  Trax.C133_listing_partial
  Trax.C133_map_round_trip_partial
  Trax.C133_nul_false
  Trax.C133_to_map_partial
  Trax.C134_connect_false
  Trax.C134_descriptor_zero_false
  Trax.C134_no_descriptor_lost_partial
  Trax.C134_no_hello_false
  Trax.C134_setsockopt_false
  Trax.C134_user_files
  Trax.C135_channels
  Trax.C135_images
  Trax.C135_regions
  Trax.C135_states
  Trax.C136_bytes_false
  Trax.C136_foreign_partial
  Trax.C136_history_partial
  Trax.C136_item_false
  Trax.C136_nul_false
  Trax.C136_refused
  Trax.C136_utf8
  Trax.C137_abort_false
  Trax.C137_arrays_partial
  Trax.C137_buffers_partial
  Trax.C137_images
  Trax.C137_kinds
  Trax.C137_names_false
  Trax.C137_overflow_false
  Trax.C137_path_false
  Trax.C137_refused_partial
  Trax.C137_shape_false
  Trax.C137_texts_partial
  Trax.C137_type_false
  Trax.C138_code_false
  Trax.C138_empty_false
  Trax.C138_get_false
  Trax.C138_mask_arrays
  Trax.C138_masks_partial
  Trax.C138_masks_refused
  Trax.C138_normalize_false
  Trax.C138_polygons
  Trax.C138_rectangles
  Trax.C138_special_partial
  Trax.C138_views_false
  Trax.C139_client_end_partial
  Trax.C139_end_partial
  Trax.C139_exchange_partial
  Trax.C139_frame_false
  Trax.C139_quit_false
  Trax.C139_reason_false
  Trax.C139_reply_false
  Trax.C139_session_partial
  Trax.C139_texts_false
  Trax.C13_argument_stays_argument_false
  Trax.C13_classification_partial
  Trax.C140_channels_false
  Trax.C140_declared_false
  Trax.C140_log_false
  Trax.C140_names
  Trax.C140_start_partial
  Trax.C140_texts_false
  Trax.C141_file_partial
  Trax.C141_newline_false
  Trax.C142_bounds_false
  Trax.C142_crash_false
  Trax.C142_directory
  Trax.C142_file_false
  Trax.C142_file_partial
  Trax.C142_messages_partial
  Trax.C142_nul_false
  Trax.C143_convex_partial
  Trax.C143_first_column_false
  Trax.C143_half_false
  Trax.C143_legacy_false
  Trax.C143_level_false
  Trax.C143_near_convex_partial
  Trax.C143_near_rows_partial
  Trax.C143_parity_false
  Trax.C143_rounding_false
  Trax.C143_rows_partial
  Trax.C144_client_gives
  Trax.C144_memory_false
  Trax.C144_memory_partial
  Trax.C144_quit_false
  Trax.C144_safe
  Trax.C144_server_gives
  Trax.C145_drop_false
  Trax.C145_drop_partial
  Trax.C145_peer
  Trax.C145_quit
  Trax.C145_twice_false
  Trax.C146_call_partial
  Trax.C146_client_clean_partial
  Trax.C146_client_partial
  Trax.C146_ended_false
  Trax.C146_polygon_false
  Trax.C146_refused_false
  Trax.C146_restart_false
  Trax.C146_server_clean_partial
  Trax.C146_server_partial
  Trax.C146_variables_false
  Trax.C146_wait_client_partial
  Trax.C146_wait_mot_partial
  Trax.C146_wait_sot_partial
  Trax.C148_path_false
  Trax.C148_run_partial
  Trax.C148_single_partial
  Trax.C14_invalid_key_false
  Trax.C14_valid_keys_partial
  Trax.C153_path_false
  Trax.C153_print_false
  Trax.C153_run_partial
  Trax.C153_supervised_partial
  Trax.C154_crash_false
  Trax.C154_crash_partial
  Trax.C154_quit_false
  Trax.C154_ready_false
  Trax.C155_drawn_partial
  Trax.C155_mask_false
  Trax.C155_vertices_false
  Trax.C155_width_false
  Trax.C156_command_false
  Trax.C156_log_partial
  Trax.C157_interrupt_partial
  Trax.C157_later_false
  Trax.C157_quiet
  Trax.C158_client_partial
  Trax.C158_client_same
  Trax.C158_interrupted_false
  Trax.C158_metadata_false
  Trax.C158_server_partial
  Trax.C15_read_consumes
  Trax.C160_answer_partial
  Trax.C160_dead_false
  Trax.C160_missing_false
  Trax.C160_other_false
  Trax.C161_documented_false
  Trax.C161_mask_false
  Trax.C161_understood_partial
  Trax.C161_unknown_false
  Trax.C161_version_false
  Trax.C162_closed_false
  Trax.C162_number_false
  Trax.C162_reported_partial
  Trax.C162_wait_false
  Trax.C163_balanced_partial
  Trax.C163_leak_false
  Trax.C163_memory_partial
  Trax.C164_clear_false
  Trax.C164_memory
  Trax.C164_shared
  Trax.C164_stale_false
  Trax.C164_values
  Trax.C165_closed_false
  Trax.C165_end
  Trax.C165_number_false
  Trax.C165_refused_partial
  Trax.C165_send_partial
  Trax.C165_server_partial
  Trax.C165_wait_false
  Trax.C166_answer_false
  Trax.C166_name_false
  Trax.C166_quit_false
  Trax.C166_raises_partial
  Trax.C166_static_partial
  Trax.C166_supervised_partial
  Trax.C167_countdown_partial
  Trax.C167_died_partial
  Trax.C167_finished_partial
  Trax.C168_errors_false
  Trax.C168_lesson_partial
  Trax.C168_quit_false
  Trax.C16_properties_map
  Trax.C17_enumeration
  Trax.C18_copy
  Trax.C19_append_keeps_existing_false
  Trax.C19_append_partial
  Trax.C20_int_round_trip
  Trax.C20_int_round_trip_sent
  Trax.C21_decimal_partial
  Trax.C21_default_false
  Trax.C21_default_partial
  Trax.C22_base64_round_trip
  Trax.C23_base64_sizes
  Trax.C23_overflow_attained
  Trax.C23_short_text_out_of_bounds
  Trax.C24_path_round_trip
  Trax.C25_url_partial
  Trax.C25_url_round_trip_false
  Trax.C26_memory_in_bounds_false
  Trax.C26_memory_partial
  Trax.C27_buffer_partial
  Trax.C27_buffer_round_trip_false
  Trax.C28_image_decode_partial
  Trax.C28_image_decode_safe_false
  Trax.C29_rows_disjoint_false
  Trax.C29_rows_partial
  Trax.C30_format_sets
  Trax.C31_handshake_false
  Trax.C31_handshake_partial
  Trax.C32_only_hello
  Trax.C32_others_refused
  Trax.C33_safe_false
  Trax.C33_safe_partial
  Trax.C34_special_codes_false
  Trax.C34_special_codes_partial
  Trax.C35_mask_false
  Trax.C35_mask_partial
  Trax.C36_polygon
  Trax.C36_rectangle
  Trax.C37_second_hop
  Trax.C37_stable_false
  Trax.C37_stable_partial
  Trax.C38_parse_safe_false
  Trax.C38_parse_safe_partial
  Trax.C38_return_partial
  Trax.C39_converts_partial
  Trax.C39_sent_format_partial
  Trax.C39_special_false
  Trax.C39_thin_rectangle_false
  Trax.C40_mask_bounds_false
  Trax.C40_mask_bounds_partial
  Trax.C40_polygon_bounds
  Trax.C40_rectangle_bounds_partial
  Trax.C40_special_bounds
  Trax.C40_thin_rectangle_false
  Trax.C41_bounding_box_false
  Trax.C41_mask_box_partial
  Trax.C41_polygon_box_partial
  Trax.C42_default_partial
  Trax.C42_legacy_partial
  Trax.C42_rectangle_polygon_false
  Trax.C43_cut_rectangle_partial
  Trax.C43_fraction_false
  Trax.C43_polygon_mask_false
  Trax.C43_rectangle_partial
  Trax.C43_small_false
  Trax.C44_window_false
  Trax.C44_window_partial
  Trax.C45_mask_partial
  Trax.C45_point_false
  Trax.C45_rectangle_inside
  Trax.C45_rectangle_partial
  Trax.C46_nodes
  Trax.C46_raster_false
  Trax.C46_raster_partial
  Trax.C47_sort
  Trax.C48_range_false
  Trax.C48_range_partial
  Trax.C48_symmetric
  Trax.C49_bounded_partial
  Trax.C49_cut_false
  Trax.C49_identical_partial
  Trax.C49_jaccard_false
  Trax.C49_jaccard_partial
  Trax.C49_outside_false
  Trax.C50_history_partial
  Trax.C50_null_false
  Trax.C50_own_element_false
  Trax.C50_plain_partial
  Trax.C50_self_append_false
  Trax.C51_count_false
  Trax.C51_count_partial
  Trax.C51_image_lists
  Trax.C52_cleanup
  Trax.C52_terminate_once
  Trax.C53_calls_return
  Trax.C53_quit_terminates
  Trax.C53_terminated_is_silent
  Trax.C54_accepted
  Trax.C54_accepted_sot
  Trax.C54_refused_false
  Trax.C54_refused_partial
  Trax.C55_counts_false
  Trax.C55_counts_partial
  Trax.C55_start
  Trax.C56_exchange_false
  Trax.C56_exchange_partial
  Trax.C57_refused_false
  Trax.C57_refused_partial
  Trax.C58_error_or_quit_partial
  Trax.C58_wait_ends_false
  Trax.C58_wait_ends_partial
  Trax.C59_images_as_declared
  Trax.C60_initialize_or_frame_partial
  Trax.C60_no_region_false
  Trax.C60_sot_partial
  Trax.C61_modes
  Trax.C62_reason_false
  Trax.C62_reason_partial
  Trax.C63_lists_false
  Trax.C63_moved_from_false
  Trax.C63_released_once_partial
  Trax.C63_self_assignment_false
  Trax.C64_clear_false
  Trax.C64_value_semantics_partial
  Trax.C65_lost_false
  Trax.C65_no_properties_partial
  Trax.C65_reply_properties_false
  Trax.C66_log_partial
  Trax.C66_long_line_false
  Trax.C67_race_false
  Trax.C67_watchdog_partial
  Trax.C68_port_partial
  Trax.C68_wrap_false
  Trax.C69_split_false
  Trax.C69_split_safe
  Trax.C69_words_partial
  Trax.C70_trajectory_false
  Trax.C70_trajectory_partial
  Trax.C71_float_round_trip
  Trax.C71_text_fits
  Trax.C72_in_range_partial
  Trax.C72_out_of_range_false
  Trax.C72_type_guard
  Trax.C73_centres_partial
  Trax.C73_half_false
  Trax.C73_legacy_false
  Trax.C73_rectangle_window_partial
  Trax.C73_thin_false
  Trax.C74_clone
  Trax.C74_clone_type
  Trax.C75_set_get
  Trax.C75_type_guard
  Trax.C76_mask_rows
  Trax.C77_point_false
  Trax.C77_value_semantics_partial
  Trax.C77_write_mask_false
  Trax.C78_caller_region
  Trax.C78_empty_region_false
  Trax.C78_no_connection
  Trax.C78_single_exchange_partial
  Trax.C79_outside_rows
  Trax.C79_point_false
  Trax.C79_polygon_partial
  Trax.C82_arguments
  Trax.C82_collects_partial
  Trax.C82_independent
  Trax.C82_limit_false
  Trax.C90_exchange_false
  Trax.C90_exchange_partial
  Trax.C90_session_partial
  Trax.C90_start
  Trax.C91_single_sot_false
  Trax.C91_single_sot_partial
  Trax.C92_assign_false
  Trax.C92_copies_false
  Trax.C92_lists_partial
  Trax.C92_moved_false
  Trax.C92_stale_false
  Trax.C93_object_properties_false
  Trax.Child.C172_reaped_partial
  Trax.Child.C172_restart_false
  Trax.Child.C172_signals
  Trax.Child.C172_status_partial
  Trax.Child.C172_zombie_false
  Trax.Cli.C102_exif_false
  Trax.Cli.C102_memory_false
  Trax.Cli.C102_size_partial
  Trax.Cli.C103_last_line_false
  Trax.Cli.C103_rows_partial
  Trax.Cli.C104_images_false
  Trax.Cli.C104_images_partial
  Trax.Cli.C147_bounds_false
  Trax.Cli.C147_missing_false
  Trax.Cli.C147_query
  Trax.Cli.C147_result_partial
  Trax.Cli.C147_size_false
  Trax.Cli.C147_status
  Trax.Cli.C147_uninterrupted_partial
  Trax.Cli.C147_unwritable_false
  Trax.Cli.C80_one_entry_per_frame
  Trax.Cli.C80_order
  Trax.Cli.C80_run_partial
  Trax.Cli.C80_short_list_false
  Trax.Cli.C80_truncate
  Trax.Cli.C80_uninterrupted
  Trax.Cli.C81_one_time_per_frame_partial
  Trax.Cli.C81_skipped_false
  Trax.ClientLocks.C175_ends_partial
  Trax.ClientLocks.C175_register_false
  Trax.Cv.C152_camshift_false
  Trax.Cv.C152_click_partial
  Trax.Cv.C152_declared_false
  Trax.Cv.C152_empty_partial
  Trax.Cv.C152_interactive_false
  Trax.Cv.C152_run_false
  Trax.Cv.C152_selection_partial
  Trax.Debug.C176_environment_false
  Trax.Debug.C176_prefix
  Trax.Debug.C176_silent
  Trax.Debug.C176_written_partial
  Trax.Environ.C94_arguments_false
  Trax.Environ.C94_arguments_partial
  Trax.Environ.C95_environment
  Trax.Environ.C95_switches
  Trax.Environ.C96_nested_false
  Trax.Environ.C96_socket
  Trax.Environ.C96_streams_partial
  Trax.Fds.C97_explicit_false
  Trax.Fds.C97_explicit_partial
  Trax.Fds.C97_standard
  Trax.Fds.C98_end_false
  Trax.Fds.C98_ends_partial
  Trax.Fds.C99_descriptors_false
  Trax.Fds.C99_descriptors_partial
  Trax.Lock.C83_exclusion
  Trax.Lock.C83_free
  Trax.Lock.C83_recursion
  Trax.Lock.C83_safe
  Trax.MapMem.C159_enumerate_false
  Trax.MapMem.C159_long_false
  Trax.MapMem.C159_memory_partial
  Trax.MapMem.C159_self_append_false
  Trax.Mex.Client.C131_completes_partial
  Trax.Mex.Client.C131_conversation_partial
  Trax.Mex.Client.C131_properties_false
  Trax.Mex.Client.C132_arguments_false
  Trax.Mex.Client.C132_errors_partial
  Trax.Mex.Client.C132_settings_partial
  Trax.MexStream.C174_end_false
  Trax.MexStream.C174_failure
  Trax.MexStream.C174_order_partial
  Trax.MexStream.C174_push_partial
  Trax.MexStream.C174_zero_false
  Trax.Ncc.C169_empty_false
  Trax.Ncc.C169_images_false
  Trax.Ncc.C169_images_partial
  Trax.Ncc.C169_region_false
  Trax.Ncc.C169_region_partial
  Trax.Ncc.C169_result_partial
  Trax.Ncc.C169_template_false
  Trax.Ncc.C169_template_partial
  Trax.Ncc.C170_border_false
  Trax.Ncc.C170_search
  Trax.Ncc.C170_small_false
  Trax.Ncc.C170_small_partial
  Trax.Ncc.C170_still_partial
  Trax.NccMatlab.C171_border_false
  Trax.NccMatlab.C171_polygon
  Trax.NccMatlab.C171_polygon_false
  Trax.NccMatlab.C171_search_partial
  Trax.NccMatlab.C171_still_partial
  Trax.NccMatlab.C171_whole_false
  Trax.Opt.C123_every_line
  Trax.Opt.C123_getopt
  Trax.Opt.C124_settings
  Trax.Opt.C125_repeat_false
  Trax.Opt.C125_settings_partial
  Trax.Player.C149_ends_partial
  Trax.Player.C149_played_false
  Trax.Player.C150_cancel_false
  Trax.Player.C150_direction_false
  Trax.Player.C150_dragged_partial
  Trax.Player.C150_dropped_partial
  Trax.Player.C151_settings_partial
  Trax.Player.C151_window_false
  Trax.Proc.C84_flag_false
  Trax.Proc.C84_only_cause_partial
  Trax.Proc.C84_watchdog_false
  Trax.Proc.C85_order_partial
  Trax.Proc.C85_reset_false
  Trax.Proc.C86_first_partial
  Trax.Proc.C86_retry_false
  Trax.Proc.C87_armed_false
  Trax.Proc.C87_calls_partial
  Trax.Proc.C87_watchdog_partial
  Trax.Proc.C88_escalation_partial
  Trax.Proc.C88_stuck_false
  Trax.Py.C178_counts
  Trax.Py.C178_format_false
  Trax.Py.C178_labels
  Trax.Py.C178_mask
  Trax.Py.C178_memory_partial
  Trax.Py.C178_path_false
  Trax.Py.C178_rectangle
  Trax.Py.C178_unknown_false
  Trax.Resources.C177_copy_partial
  Trax.Resources.C177_failed_false
  Trax.Resources.C177_missing
  Trax.Resources.C177_overrun_false
  Trax.Resources.C177_pieces_partial
  Trax.Resources.C177_plain_false
  Trax.Resources.C177_stop
  Trax.Resources.C177_there
  Trax.Tester.C126_image_partial
  Trax.Tester.C126_memory_false
  Trax.Tester.C127_last_image_false
  Trax.Tester.C127_perfect
  Trax.Tester.C127_sessions_partial
  Trax.TimedWait.C89_deadline_partial
  Trax.TimedWait.C89_long_false
  Trax.TimedWait.C89_second_false
  Trax.Timer.C173_elapsed_partial
  Trax.Timer.C173_init_false
  Trax.Timer.C173_parts
