{
 "claims": [
  {
   "property": "C01",
   "status": "partial",
   "theorems": [
    "Verif.Props.C01_frame_text_roundtrip_partial",
    "Verif.Props.C01_small_extended_becomes_standard",
    "Verif.Props.C01_fails"
   ],
   "note": "Full claim is false: an extended id below 0x800 is printed with fewer than 8 digits and parsed back as a standard id (C01_fails). The partial theorem excludes only that case."
  },
  {
   "property": "C02",
   "status": "proved",
   "theorems": [
    "Verif.Props.C02_digit",
    "Verif.Props.C02_buffer2hex_denotes",
    "Verif.Props.C02_hex_roundtrip",
    "Verif.Props.C02_hex2buffer_decodes",
    "Verif.Props.C02_hex2buffer_accepts"
   ],
   "note": ""
  },
  {
   "property": "C03",
   "status": "proved",
   "theorems": [
    "Verif.Props.C03_toframe_meaning",
    "Verif.Props.C03_header_too_large",
    "Verif.Props.C03_header_no_number",
    "Verif.Props.C03_toframe_dlc",
    "Verif.Props.C03_toframe_no_separator",
    "Verif.Props.C03_toframe_too_long",
    "Verif.Props.C03_toframe_payload"
   ],
   "note": "C03_header_too_large: identifiers of more than 32 bits become 0xFFFFFFFF instead of being refused."
  },
  {
   "property": "C04",
   "status": "proved",
   "theorems": [
    "Verif.Props.C04_fullid_value",
    "Verif.Props.C04_fullid_injective",
    "Verif.Props.C04_key_error",
    "Verif.Props.C04_key_data",
    "Verif.Props.C04_constructors",
    "Verif.Props.C04_isValid"
   ],
   "note": "C04_constructors: what MsgHeader, ExtendedHeader, ErrorHeader set."
  },
  {
   "property": "C05",
   "status": "proved",
   "theorems": [
    "Verif.Props.C05_mask_filter",
    "Verif.Props.C05_mask_invert"
   ],
   "note": ""
  },
  {
   "property": "C06",
   "status": "proved",
   "theorems": [
    "Verif.Props.C06_range_filter",
    "Verif.Props.C06_range_invert",
    "Verif.Props.C06_range_default"
   ],
   "note": ""
  },
  {
   "property": "C07",
   "status": "partial",
   "theorems": [
    "Verif.Props.C07_filter_number",
    "Verif.Props.C07_filter_text_mask",
    "Verif.Props.C07_filter_text_plain",
    "Verif.Props.C07_filter_text_range_partial",
    "Verif.Props.C07_extended_range_fails"
   ],
   "note": "Full claim is false for ranges of extended ids (C07_extended_range_fails); the partial theorem covers every other range text."
  },
  {
   "property": "C08",
   "status": "proved",
   "theorems": [
    "Verif.Props.C08_filtered_listener",
    "Verif.Props.C08_no_filters"
   ],
   "note": ""
  },
  {
   "property": "C09",
   "status": "proved",
   "theorems": [
    "Verif.Props.C09_dispatch_calls",
    "Verif.Props.C09_exactly_once",
    "Verif.Props.C09_destroyed_not_called",
    "Verif.Props.C09_dispatch_filtered"
   ],
   "note": ""
  },
  {
   "property": "C10",
   "status": "proved",
   "theorems": [
    "Verif.Props.C10_send_excludes_only_sender",
    "Verif.Props.C10_send_needs_connection",
    "Verif.Props.C10_loop_back"
   ],
   "note": ""
  },
  {
   "property": "C11",
   "status": "proved",
   "theorems": [
    "Verif.Props.C11_no_loss_dup_reorder"
   ],
   "note": ""
  },
  {
   "property": "C12",
   "status": "proved",
   "theorems": [
    "Verif.Props.C12_reader_refines",
    "Verif.Props.C12_in_order_at_most_once",
    "Verif.Props.C12_capacity",
    "Verif.Props.C12_no_loss",
    "Verif.Props.C12_scoped_enabler",
    "Verif.Props.C12_read_result"
   ],
   "note": ""
  },
  {
   "property": "C13",
   "status": "proved",
   "theorems": [
    "Verif.Props.C13_socket_roundtrip",
    "Verif.Props.C13_kernel_frame_received",
    "Verif.Props.C13_dlc_out_of_range",
    "Verif.Props.C13_error_flag_not_sent",
    "Verif.Props.C13_delivered",
    "Verif.Props.C13_error_frame_stale_flags"
   ],
   "note": ""
  },
  {
   "property": "C14",
   "status": "proved",
   "theorems": [
    "Verif.Props.C14_notified_exactly_on_change",
    "Verif.Props.C14_last_view_is_current",
    "Verif.Props.C14_send",
    "Verif.Props.C14_life_cycle",
    "Verif.Props.C14_read_error"
   ],
   "note": ""
  },
  {
   "property": "C15",
   "status": "proved",
   "theorems": [
    "Verif.Props.C15_masks",
    "Verif.Props.C15_masks_readable",
    "Verif.Props.C15_fatal_error_stops",
    "Verif.Props.C15_other_frames_harmless",
    "Verif.Props.C15_settings_take_effect",
    "Verif.Props.C15_boolean_texts",
    "Verif.Props.C15_stays_stopped"
   ],
   "note": ""
  },
  {
   "property": "C16",
   "status": "proved",
   "theorems": [
    "Verif.Props.C16_frame_roundtrip",
    "Verif.Props.C16_message_roundtrip",
    "Verif.Props.C16_message_matches"
   ],
   "note": ""
  },
  {
   "property": "C17",
   "status": "partial",
   "theorems": [
    "Verif.Props.C17_published_exactly_valid",
    "Verif.Props.C17_sent_exactly_valid_partial",
    "Verif.Props.C17_out_of_range_id_sent",
    "Verif.Props.C17_sent_always_valid"
   ],
   "note": "Valid traffic is bridged unchanged; the full claim 'invalid messages are never sent' is false for ids beyond 29 bits, which are truncated and sent (C17_out_of_range_id_sent)."
  },
  {
   "property": "C18",
   "status": "proved",
   "theorems": [
    "Verif.Props.C18_status_worst",
    "Verif.Props.C18_reasons"
   ],
   "note": ""
  },
  {
   "property": "C19",
   "status": "proved",
   "theorems": [
    "Verif.Props.C19_layer_life_cycle",
    "Verif.Props.C19_group_life_cycle",
    "Verif.Props.C19_group_history",
    "Verif.Props.C19_ready_only_after_success",
    "Verif.Props.C19_recover_all_or_nothing"
   ],
   "note": ""
  },
  {
   "property": "C20",
   "status": "proved",
   "theorems": [
    "Verif.Props.C20_handlers_follow_life_cycle",
    "Verif.Props.C20_leaf_invocations",
    "Verif.Props.C20_cyclic_handlers",
    "Verif.Props.C20_transition_handlers",
    "Verif.Props.C20_member_order"
   ],
   "note": ""
  },
  {
   "property": "C21",
   "status": "proved",
   "theorems": [
    "Verif.Props.C21_startup_all_or_nothing"
   ],
   "note": ""
  },
  {
   "property": "C22",
   "status": "proved",
   "theorems": [
    "Verif.Props.C22_shutdown_reverse_complete",
    "Verif.Props.C22_shutdown_handler_order"
   ],
   "note": ""
  },
  {
   "property": "C23",
   "status": "proved",
   "theorems": [
    "Verif.Props.C23_read_cycle",
    "Verif.Props.C23_write_cycle"
   ],
   "note": ""
  },
  {
   "property": "C24",
   "status": "proved",
   "theorems": [
    "Verif.Props.C24_key_parts",
    "Verif.Props.C24_keys_never_collide"
   ],
   "note": ""
  },
  {
   "property": "C25",
   "status": "proved",
   "theorems": [
    "Verif.Props.C25_index_text",
    "Verif.Props.C25_sub_text",
    "Verif.Props.C25_key_text_roundtrip"
   ],
   "note": ""
  },
  {
   "property": "C26",
   "status": "proved",
   "theorems": [
    "Verif.Props.C26_literal",
    "Verif.Props.C26_node_id",
    "Verif.Props.C26_bare",
    "Verif.Props.C26_any_literal"
   ],
   "note": "C26_any_literal: literals that do not fit the type are truncated without an error."
  },
  {
   "property": "C27",
   "status": "partial",
   "theorems": [
    "Verif.Props.C27_octets_inverted",
    "Verif.Props.C27_octet_values_false",
    "Verif.Props.C27_octets_partial"
   ],
   "note": "The full claim is false: the condition is inverted (C27_octets_inverted, C27_octet_values_false)."
  },
  {
   "property": "C28",
   "status": "proved",
   "theorems": [
    "Verif.Props.C28_device_accesses",
    "Verif.Props.C28_denied",
    "Verif.Props.C28_access_codes"
   ],
   "note": ""
  },
  {
   "property": "C29",
   "status": "proved",
   "theorems": [
    "Verif.Props.C29_storage_transparent",
    "Verif.Props.C29_initial"
   ],
   "note": ""
  },
  {
   "property": "C30",
   "status": "partial",
   "theorems": [
    "Verif.Props.C30_invented_value",
    "Verif.Props.C30_lost_write",
    "Verif.Props.C30_failed_access_partial"
   ],
   "note": "Both halves of the full claim are false (C30_invented_value, C30_lost_write); the partial theorem says what holds."
  },
  {
   "property": "C31",
   "status": "proved",
   "theorems": [
    "Verif.Props.C31_init_writes"
   ],
   "note": ""
  },
  {
   "property": "C32",
   "status": "partial",
   "theorems": [
    "Verif.Props.C32_download_partial",
    "Verif.Props.C32_segments",
    "Verif.Props.C32_long_download_refused",
    "Verif.Props.C32_empty_write"
   ],
   "note": "Proved for every server except: a server that checks the announced size, with 256 or more bytes (C32_long_download_refused shows the write fails there because the client encodes the size wrongly)."
  },
  {
   "property": "C33",
   "status": "partial",
   "theorems": [
    "Verif.Props.C33_upload_partial",
    "Verif.Props.C33_long_upload_truncated"
   ],
   "note": "Missing: size-indicated values of 256 and more bytes, where the claim is false (C33_long_upload_truncated: a normal return with a few leading bytes)."
  },
  {
   "property": "C34",
   "status": "proved",
   "theorems": [
    "Verif.Props.C34_memory_safe"
   ],
   "note": ""
  },
  {
   "property": "C35",
   "status": "partial",
   "theorems": [
    "Verif.Props.C35_read_complete_partial",
    "Verif.Props.C35_announced_size"
   ],
   "note": "The announced size is read correctly only below 256 (C35_announced_size); above, C33_long_upload_truncated refutes the claim."
  },
  {
   "property": "C36",
   "status": "partial",
   "theorems": [
    "Verif.Props.C36_write_confirmed_partial",
    "Verif.Props.C36_unconfirmed_write_succeeds"
   ],
   "note": "The claim is false: C36_unconfirmed_write_succeeds. The partial theorem shows that at most the very last confirmation can be missing."
  },
  {
   "property": "C37",
   "status": "partial",
   "theorems": [
    "Verif.Props.C37_server_abort",
    "Verif.Props.C37_wrong_kind_partial",
    "Verif.Props.C37_other_object",
    "Verif.Props.C37_wrong_toggle",
    "Verif.Props.C37_too_many_bytes",
    "Verif.Props.C37_too_few_announced",
    "Verif.Props.C37_unknown_specifier_ignored"
   ],
   "note": "Missing: answers with command specifiers 5-7 are ignored instead of aborted (C37_unknown_specifier_ignored)."
  },
  {
   "property": "C38",
   "status": "proved",
   "theorems": [
    "Verif.Props.C38_layout_sent",
    "Verif.Props.C38_layout_received",
    "Verif.Props.C38_transfer",
    "Verif.Props.C38_short_frame_misplaced",
    "Verif.Props.C38_too_long_mapping_overflows"
   ],
   "note": "Layout proved for every mapping that fits in eight bytes and every frame of the full length. Short frames and mappings longer than eight bytes are shown to break it (C38_short_frame_misplaced, C38_too_long_mapping_overflows)."
  },
  {
   "property": "C39",
   "status": "proved",
   "theorems": [
    "Verif.Props.C39_tpdo_sent",
    "Verif.Props.C39_write_reaches_bus",
    "Verif.Props.C39_rpdo_read"
   ],
   "note": ""
  },
  {
   "property": "C40",
   "status": "proved",
   "theorems": [
    "Verif.Props.C40_timeout",
    "Verif.Props.C40_rtr_timeout",
    "Verif.Props.C40_unsupervised"
   ],
   "note": ""
  },
  {
   "property": "C41",
   "status": "proved",
   "theorems": [
    "Verif.Props.C41_cob_id",
    "Verif.Props.C41_mapping_word"
   ],
   "note": ""
  },
  {
   "property": "C42",
   "status": "proved",
   "theorems": [
    "Verif.Props.C42_state",
    "Verif.Props.C42_unknown_interval_escapes"
   ],
   "note": "Needs the heartbeat interval to be known; without a default for object 0x1017 the frame handler throws in the receive thread and the report is lost (C42_unknown_interval_escapes)."
  },
  {
   "property": "C43",
   "status": "partial",
   "theorems": [
    "Verif.Props.C43_sync_partial",
    "Verif.Props.C43_removed_partial",
    "Verif.Props.C43_race",
    "Verif.Props.C43_unknown_state_keeps",
    "Verif.Props.C43_restart_without_report"
   ],
   "note": "Partial: two races are excluded (Spec.Node.Undisturbed); C43_race shows the property fails without that. Also C43_unknown_state_keeps and C43_restart_without_report."
  },
  {
   "property": "C44",
   "status": "partial",
   "theorems": [
    "Verif.Props.C44_command_sent",
    "Verif.Props.C44_nothing_else_sent",
    "Verif.Props.C44_start_confirmed",
    "Verif.Props.C44_reset_confirmed",
    "Verif.Props.C44_prepare_confirmed_partial",
    "Verif.Props.C44_prepare_without_report",
    "Verif.Props.C44_assumed_only_without_heartbeat",
    "Verif.Props.C44_second_reset_succeeds"
   ],
   "note": "Sending and the success of start, reset and reset_com proved in full; prepare succeeds after a reset without a report (C44_prepare_without_report), so its theorem is partial."
  },
  {
   "property": "C45",
   "status": "partial",
   "theorems": [
    "Verif.Props.C45_heartbeat_partial",
    "Verif.Props.C45_no_interval",
    "Verif.Props.C45_read_cycle",
    "Verif.Props.C45_interval_changed"
   ],
   "note": "Partial: the interval must not change between the last frame and the check; C45_interval_changed shows a false alarm right after a reset."
  },
  {
   "property": "C46",
   "status": "partial",
   "theorems": [
    "Verif.Props.C46_emergency_partial",
    "Verif.Props.C46_malformed_counts",
    "Verif.Props.C46_listens",
    "Verif.Props.C46_init",
    "Verif.Props.C46_diag",
    "Verif.Props.C46_error_list"
   ],
   "note": "Partial: the length of the frame is never checked (C46_malformed_counts), so 'a malformed frame changes nothing' is false."
  },
  {
   "property": "C47",
   "status": "proved",
   "theorems": [
    "Verif.Props.C47_rejected",
    "Verif.Props.C47_sync",
    "Verif.Props.C47_nothing_else",
    "Verif.Props.C47_counter_range"
   ],
   "note": "Proved. The first counter sent is 2, and cycles without participants still advance it."
  },
  {
   "property": "C48",
   "status": "proved",
   "theorems": [
    "Verif.Props.C48_bcm",
    "Verif.Props.C48_frames",
    "Verif.Props.C48_broadcast_ignored",
    "Verif.Props.C48_broadcast_start_sticks",
    "Verif.Props.C48_silent",
    "Verif.Props.C48_recover_stops_sync_forever"
   ],
   "note": "Proved for histories between initialisation and shut-down, with a kernel that accepts every job; C48_broadcast_*, C48_recover_stops_sync_forever show what happens outside."
  },
  {
   "property": "C49",
   "status": "proved",
   "theorems": [
    "Verif.Props.C49_state",
    "Verif.Props.C49_read"
   ],
   "note": "Proved for all 65536 status words (reduced to the seven low bits, decided by the kernel)."
  },
  {
   "property": "C50",
   "status": "partial",
   "theorems": [
    "Verif.Props.C50_commands_partial",
    "Verif.Props.C50_step",
    "Verif.Props.C50_refused",
    "Verif.Props.C50_same",
    "Verif.Props.C50_automatic",
    "Verif.Props.C50_quick_stop_not_entered",
    "Verif.Props.C50_fault_reset_needs_edge"
   ],
   "note": "Partial: quick stop from Ready and Switched On is in the table, but no conforming drive takes it (C50_quick_stop_not_entered); fault reset needs an edge of bit 7."
  },
  {
   "property": "C51",
   "status": "partial",
   "theorems": [
    "Verif.Props.C51_after_init",
    "Verif.Props.C51_after_init_any_partial",
    "Verif.Props.C51_after_recover_partial",
    "Verif.Props.C51_repeated_fault_stuck",
    "Verif.Props.C51_recover_stuck"
   ],
   "note": "Partial: full after init (losses, delays allowed); after recover only for drives that act at once; C51_repeated_fault_stuck and C51_recover_stuck show two ways to stay in Fault."
  },
  {
   "property": "C52",
   "status": "proved",
   "theorems": [
    "Verif.Props.C52_accessor",
    "Verif.Props.C52_write"
   ],
   "note": "Proved."
  },
  {
   "property": "C53",
   "status": "proved",
   "theorems": [
    "Verif.Props.C53_halt",
    "Verif.Props.C53_target",
    "Verif.Props.C53_moves"
   ],
   "note": "Proved for all histories of a freshly constructed motor, with junk in the uninitialised members; also the converse (C53_moves) and the value written (C53_target)."
  },
  {
   "property": "C54",
   "status": "proved",
   "theorems": [
    "Verif.Props.C54_target",
    "Verif.Props.C54_objects",
    "Verif.Props.C54_run_bits",
    "Verif.Props.C54_nan",
    "Verif.Props.C54_determined"
   ],
   "note": "Proved; double is NaN, an infinity or an exact rational; boost::numeric_cast is modelled (trusted)."
  },
  {
   "property": "C55",
   "status": "proved",
   "theorems": [
    "Verif.Props.C55_raised",
    "Verif.Props.C55_sent",
    "Verif.Props.C55_lowered",
    "Verif.Props.C55_held"
   ],
   "note": "Proved as a complete decision table of a write cycle after every history."
  },
  {
   "property": "C56",
   "status": "partial",
   "theorems": [
    "Verif.Props.C56_available",
    "Verif.Props.C56_selected",
    "Verif.Props.C56_accepts",
    "Verif.Props.C56_other_modes_partial",
    "Verif.Props.C56_timeout",
    "Verif.Props.C56_refused_keeps_mode",
    "Verif.Props.C56_no_modes_object"
   ],
   "note": "Partial: a refused request keeps the mode selected before (C56_refused_keeps_mode), so 'in every other case no mode is selected' is false."
  },
  {
   "property": "C57",
   "status": "partial",
   "theorems": [
    "Verif.Props.C57_accepts",
    "Verif.Props.C57_recorded_partial",
    "Verif.Props.C57_one_interface",
    "Verif.Props.C57_one_mode",
    "Verif.Props.C57_two_controllers",
    "Verif.Props.C57_stale_record",
    "Verif.Props.C57_refused_recorded"
   ],
   "note": "Partial: acceptance is characterised exactly; records are exact for first starts only (C57_stale_record: a restart keeps the old record), conflicts are only excluded within a controller (C57_two_controllers), a refused request can leave a record (C57_refused_recorded)."
  },
  {
   "property": "C58",
   "status": "partial",
   "theorems": [
    "Verif.Props.C58_prepare",
    "Verif.Props.C58_doSwitch_partial",
    "Verif.Props.C58_locked_out",
    "Verif.Props.C58_doSwitch_others_keep_running"
   ],
   "note": "Partial: proved for the first phase; false for the second phase (C58_doSwitch_others_keep_running: the loop stops the failed joint again and again). C58_locked_out: what a failed mode change stays failed until the next switch."
  },
  {
   "property": "C59",
   "status": "partial",
   "theorems": [
    "Verif.Props.C59_norm_partial",
    "Verif.Props.C59_needs_interval",
    "Verif.Props.C59_double_bounds",
    "Verif.Props.C59_rounding",
    "Verif.Props.C59_double_partial",
    "Verif.Props.C59_inside",
    "Verif.Props.C59_double_returns_max",
    "Verif.Props.C59_double_hangs"
   ],
   "note": "Partial: proved in exact arithmetic; in doubles the result can be the excluded upper limit (C59_double_returns_max) or the loop does not end (C59_double_hangs). C59_rounding: the rounding used is round to nearest, ties to even, in 53 bits (of every positive number; exponent range unbounded). C59_double_partial: for doubles up to 2^52 widths the loops end in the closed interval."
  },
  {
   "property": "C60",
   "status": "proved",
   "theorems": [
    "Verif.Props.C60_node_wins",
    "Verif.Props.C60_default",
    "Verif.Props.C60_struct",
    "Verif.Props.C60_blocked",
    "Verif.Props.C60_complete"
   ],
   "note": "Proved for all parameter trees."
  },
  {
   "property": "C61",
   "status": "proved",
   "theorems": [
    "Verif.Props.C61_translate_result",
    "Verif.Props.C61_translate_text"
   ],
   "note": ""
  },
  {
   "property": "C62",
   "status": "proved",
   "theorems": [
    "Verif.Props.C62_text_values"
   ],
   "note": "The claim is false; the theorem states what happens for every text."
  },
  {
   "property": "C63",
   "status": "proved",
   "theorems": [
    "Verif.Props.C63_node_id_init",
    "Verif.Props.C63_node_id_default"
   ],
   "note": ""
  },
  {
   "property": "C64",
   "status": "proved",
   "theorems": [
    "Verif.Props.C64_compact_constant"
   ],
   "note": "Compact sub-objects get whatever is in memory as constant flag; see also C65_compact_arrays."
  },
  {
   "property": "C65",
   "status": "proved",
   "theorems": [
    "Verif.Props.C65_compact_arrays"
   ],
   "note": ""
  },
  {
   "property": "C66",
   "status": "proved",
   "theorems": [
    "Verif.Props.C66_variables_loaded",
    "Verif.Props.C66_sub_objects_loaded",
    "Verif.Props.C66_keys_match",
    "Verif.Props.C66_contents",
    "Verif.Props.C66_value",
    "Verif.Props.C66_overlay"
   ],
   "note": ""
  },
  {
   "property": "C67",
   "status": "partial",
   "theorems": [
    "Verif.Props.C67_stays_enabled_partial",
    "Verif.Props.C67_enabled_drive_dropped"
   ],
   "note": "Partial: false for a drive that is already enabled when init is called (C67_enabled_drive_dropped)."
  },
  {
   "property": "C68",
   "status": "proved",
   "theorems": [
    "Verif.Props.C68_started",
    "Verif.Props.C68_stopped",
    "Verif.Props.C68_others",
    "Verif.Props.C68_refused"
   ],
   "note": "Proved; controllers of one request do not share joints (checked by ros_control before)."
  },
  {
   "property": "C69",
   "status": "proved",
   "theorems": [
    "Verif.Props.C69_forwarded"
   ],
   "note": "Proved."
  },
  {
   "property": "C70",
   "status": "proved",
   "theorems": [
    "Verif.Props.C70_kind",
    "Verif.Props.C70_silent_while_switching"
   ],
   "note": "Proved."
  },
  {
   "property": "C71",
   "status": "partial",
   "theorems": [
    "Verif.Props.C71_avg_partial",
    "Verif.Props.C71_avg_wrong"
   ],
   "note": "Partial: the code divides by the number plus one (C71_avg_wrong)."
  },
  {
   "property": "C72",
   "status": "proved",
   "theorems": [
    "Verif.Props.C72_smooth",
    "Verif.Props.C72_converges",
    "Verif.Props.C72_nan_is_zero"
   ],
   "note": "Proved in exact arithmetic; an invalid input gives 0 (C72_nan_is_zero)."
  },
  {
   "property": "C73",
   "status": "proved",
   "theorems": [
    "Verif.Props.C73_replay",
    "Verif.Props.C73_not_after_end"
   ],
   "note": "Frames whose text determines them are the domain of C01; the transport of frames is C11."
  },
  {
   "property": "C74",
   "status": "proved",
   "theorems": [
    "Verif.Props.C74_type_stays",
    "Verif.Props.C74_first_handle"
   ],
   "note": "Storage operations are atomic steps of the model; concurrency inside one entry is serialised by its mutex."
  },
  {
   "property": "C75",
   "status": "proved",
   "theorems": [
    "Verif.Props.C75_reset",
    "Verif.Props.C75_fresh_read"
   ],
   "note": "reset keeps delegates, so mapped objects stay mapped."
  },
  {
   "property": "C76",
   "status": "proved",
   "theorems": [
    "Verif.Props.C76_mapped",
    "Verif.Props.C76_traffic",
    "Verif.Props.C76_which"
   ],
   "note": "Which buffer is used is a number; buffers themselves are modelled in C38-C40."
  },
  {
   "property": "C77",
   "status": "partial",
   "theorems": [
    "Verif.Props.C77_no_destroyed_buffer_partial",
    "Verif.Props.C77_disabled_pdo_false",
    "Verif.Props.C77_failed_repetition_false"
   ],
   "note": "Partial: proved for the first set-up and dictionaries in which every PDO present is switched on or empty. False otherwise: C77_disabled_pdo_false (a PDO switched off in the dictionary is destroyed while its objects keep pointing to its buffers) and C77_failed_repetition_false (a second set-up that fails half-way)."
  },
  {
   "property": "C78",
   "status": "proved",
   "theorems": [
    "Verif.Props.C78_order",
    "Verif.Props.C78_restored"
   ],
   "note": "Requires that identifier and number of entries are writable and not themselves mapped; if the identifier is not writable the code changes the mapping without switching the PDO off. Configured communication parameters alone are not noticed by the code (pdo.cpp:107 passes the mapping index)."
  },
  {
   "property": "C79",
   "status": "proved",
   "theorems": [
    "Verif.Props.C79_sent",
    "Verif.Props.C79_received"
   ],
   "note": "Place holders (index below 0x1000) get a buffer and no object. The frame length is modulo 256; mappings longer than eight bytes are accepted (see C38)."
  },
  {
   "property": "C80",
   "status": "proved",
   "theorems": [
    "Verif.Props.C80_which",
    "Verif.Props.C80_frame",
    "Verif.Props.C80_every_sync"
   ],
   "note": "A dictionary with 255 communication sub-objects makes the code loop for ever; this is rendered as undefined behaviour in the model."
  },
  {
   "property": "C81",
   "status": "partial",
   "theorems": [
    "Verif.Props.C81_control_loop_partial",
    "Verif.Props.C81_thread_object",
    "Verif.Props.C81_late_thread_false",
    "Verif.Props.C81_two_loops_false",
    "Verif.Props.C81_loops_bounded"
   ],
   "note": "Partial: proved if the control thread begins before the init request that created it is answered. False otherwise: C81_late_thread_false (the thread loops on a chain that is off, the next failing init hangs for ever) and C81_two_loops_false (two control loops). C81_thread_object holds for all schedules."
  },
  {
   "property": "C82",
   "status": "partial",
   "theorems": [
    "Verif.Props.C82_init_partial",
    "Verif.Props.C82_init_warning_false",
    "Verif.Props.C82_init_halted_false",
    "Verif.Props.C82_recover",
    "Verif.Props.C82_recover_resets",
    "Verif.Props.C82_shutdown_and_halt"
   ],
   "note": "Partial: C82_init_partial says exactly what each answer means. False as stated: C82_init_warning_false (failure although everything runs, after a warning) and C82_init_halted_false (success on a halted chain). recover, halt and shutdown are as stated."
  },
  {
   "property": "C83",
   "status": "partial",
   "theorems": [
    "Verif.Props.C83_init_during_cycles_partial",
    "Verif.Props.C83_halted_layer_false"
   ],
   "note": "Partial: proved if no call of the control thread fails meanwhile; calls do not overlap the initialisation of a single member. False otherwise: C83_halted_layer_false."
  },
  {
   "property": "C84",
   "status": "proved",
   "theorems": [
    "Verif.Props.C84_chain_report",
    "Verif.Props.C84_halted_ok_false",
    "Verif.Props.C84_node_report"
   ],
   "note": "C84_halted_ok_false: the level OK does not imply that the chain works."
  },
  {
   "property": "C85",
   "status": "partial",
   "theorems": [
    "Verif.Props.C85_init_and_recover",
    "Verif.Props.C85_shutdown",
    "Verif.Props.C85_one_thread",
    "Verif.Props.C85_threaded_init",
    "Verif.Props.C85_threaded_ready_false",
    "Verif.Props.C85_undisturbed_init",
    "Verif.Props.C85_restart_partial",
    "Verif.Props.C85_stuck_false",
    "Verif.Props.C85_join_returns_partial",
    "Verif.Props.C85_hang_false",
    "Verif.Props.C85_stale_abort_false",
    "Verif.Props.C85_init_again",
    "Verif.Props.C85_init_refused",
    "Verif.Props.C85_cycle",
    "Verif.Props.C85_diag",
    "Verif.Props.C85_diag_dlc",
    "Verif.Props.C85_calls_end"
   ],
   "note": "Partial: C85_restart_partial assumes that no update of the driver state is under way when the socket is closed (false otherwise: C85_stuck_false), C85_join_returns_partial that no timed wait of an init ran out (false otherwise: C85_hang_false). Also false: C85_threaded_ready_false, C85_stale_abort_false."
  },
  {
   "property": "C86",
   "status": "partial",
   "theorems": [
    "Verif.Props.C86_no_drift",
    "Verif.Props.C86_start",
    "Verif.Props.C86_rate",
    "Verif.Props.C86_failure_is_final",
    "Verif.Props.C86_heartbeat_result",
    "Verif.Props.C86_stop_partial",
    "Verif.Props.C86_stop_false",
    "Verif.Props.C86_calls_bounded"
   ],
   "note": "Partial: stop with a handler already queued does not stop (C86_stop_false). A single failed send ends the heartbeat (C86_failure_is_final)."
  },
  {
   "property": "C87",
   "status": "partial",
   "theorems": [
    "Verif.Props.C87_types",
    "Verif.Props.C87_get_integer",
    "Verif.Props.C87_set_integer",
    "Verif.Props.C87_round_trip",
    "Verif.Props.C87_out_of_range_false",
    "Verif.Props.C87_byte_shown",
    "Verif.Props.C87_byte_false",
    "Verif.Props.C87_text_shown_partial",
    "Verif.Props.C87_text_false",
    "Verif.Props.C87_set_text_false",
    "Verif.Props.C87_set_octets_false",
    "Verif.Props.C87_set_success",
    "Verif.Props.C87_set_cached",
    "Verif.Props.C87_set_cached_false",
    "Verif.Props.C87_garbage_false",
    "Verif.Props.C87_node_id_refused",
    "Verif.Props.C87_unknown",
    "Verif.Props.C87_others_untouched"
   ],
   "note": "Partial: integers of two bytes and more are as stated (C87_get_integer, C87_set_integer, C87_round_trip), texts are shown up to their first zero if they have one. False as stated: one-byte objects (C87_byte_false), texts and octets (C87_text_false, C87_set_text_false, C87_set_octets_false), out-of-range numbers and non-numbers are written (C87_out_of_range_false, C87_garbage_false), cached writes are always answered with success (C87_set_cached_false). Printing and reading of floating point numbers is a parameter."
  },
  {
   "property": "C88",
   "status": "partial",
   "theorems": [
    "Verif.Props.C88_publish_cycle",
    "Verif.Props.C88_sync_partial",
    "Verif.Props.C88_sync_false",
    "Verif.Props.C88_heartbeat_partial",
    "Verif.Props.C88_heartbeat_false",
    "Verif.Props.C88_object_name",
    "Verif.Props.C88_node",
    "Verif.Props.C88_nodes",
    "Verif.Props.C88_addressable",
    "Verif.Props.C88_ids_false",
    "Verif.Props.C88_id_kept",
    "Verif.Props.C88_names_false",
    "Verif.Props.C88_no_nodes_false",
    "Verif.Props.C88_no_file_false",
    "Verif.Props.C88_order",
    "Verif.Props.C88_publish",
    "Verif.Props.C88_publish_false"
   ],
   "note": "Partial: C88_sync_partial needs parameters in the range of the C++ types and C88_heartbeat_partial a rate that is a number; C88_node and C88_nodes say exactly what is accepted. False as stated: C88_sync_false (truncated periods and overflows, negative update period), C88_heartbeat_false (NaN), C88_ids_false (257 means node 1, numbers twice), C88_names_false, C88_no_nodes_false (undefined behaviour), C88_no_file_false (exception), C88_publish_false (a failing object suppresses the others). The bus part and the parameter server are inputs."
  },
  {
   "property": "C89",
   "status": "partial",
   "theorems": [
    "Verif.Props.C89_init_order",
    "Verif.Props.C89_init_listens",
    "Verif.Props.C89_init_result",
    "Verif.Props.C89_init_assumes",
    "Verif.Props.C89_early_boot_false",
    "Verif.Props.C89_init_waits",
    "Verif.Props.C89_recover_partial",
    "Verif.Props.C89_recover_false",
    "Verif.Props.C89_shutdown",
    "Verif.Props.C89_shutdown_unsynced_partial",
    "Verif.Props.C89_shutdown_synced_false",
    "Verif.Props.C89_shutdown_exception",
    "Verif.Props.C89_shutdown_false",
    "Verif.Props.C89_diag",
    "Verif.Props.C89_write"
   ],
   "note": "Order, completeness, bounded waits, diagnostics and write cycles are proved for every schedule. False as stated: C89_early_boot_false (a boot-up message handled before the reset command counts as confirmation), C89_recover_false (the result of start is dropped), C89_shutdown_false (a device that does not answer is not stopped and stays in the SYNC producer; a second attempt ends normally), C89_shutdown_synced_false (a report between stop and the end of the subscription); the partial theorems say what remains. What SDO client, PDO mapper and storage return are inputs of the steps."
  },
  {
   "property": "C90",
   "status": "proved",
   "theorems": [
    "Verif.Props.C90_success",
    "Verif.Props.C90_failure",
    "Verif.Props.C90_result",
    "Verif.Props.C90_homed_before_false",
    "Verif.Props.C90_start_bit",
    "Verif.Props.C90_bits",
    "Verif.Props.C90_times",
    "Verif.Props.C90_method",
    "Verif.Props.C90_short_error_false"
   ],
   "note": "Proved for every schedule with a drive following CiA 402 that has not been homed before, and bit-exactly for any device. C90_homed_before_false: a drive that still reports an earlier homing is reported as homed without being told to start. C90_short_error_false: an error bit that is gone before the thread looks is missed."
  },
  {
   "property": "C91",
   "status": "partial",
   "theorems": [
    "Verif.Props.C91_init",
    "Verif.Props.C91_recover",
    "Verif.Props.C91_mode",
    "Verif.Props.C91_shutdown_partial",
    "Verif.Props.C91_shutdown_false",
    "Verif.Props.C91_shutdown_word",
    "Verif.Props.C91_shutdown_refused",
    "Verif.Props.C91_commands",
    "Verif.Props.C91_halt_partial",
    "Verif.Props.C91_halt_mode_false",
    "Verif.Props.C91_halt_race_false",
    "Verif.Props.C91_halt_late_false",
    "Verif.Props.C91_time_limit_partial",
    "Verif.Props.C91_time_limit_false",
    "Verif.Props.C91_mode_wait",
    "Verif.Props.C91_calls",
    "Verif.Props.C91_mode_at_once",
    "Verif.Props.C91_report"
   ],
   "note": "Results of init, recover, mode changes and the commands are proved for every schedule. C91_shutdown_partial: without a halt in between; C91_shutdown_false is the counterexample with one. C91_halt_partial: unless the handler is about to set a new goal; C91_halt_mode_false, C91_halt_race_false and C91_halt_late_false are the counterexamples. C91_time_limit_partial: if no new state is reported after the limit; C91_time_limit_false: a drive that keeps changing its state keeps initialisation going for ever. One handler at a time; executeHoming's result is an input here (see C90). C91_mode_wait/C91_mode_at_once: when and how waiting for a mode ends; C91_calls: every call returns."
  },
  {
   "property": "C92",
   "status": "partial",
   "theorems": [
    "Verif.Props.C92_measured",
    "Verif.Props.C92_limits",
    "Verif.Props.C92_target",
    "Verif.Props.C92_tracking",
    "Verif.Props.C92_start",
    "Verif.Props.C92_silent",
    "Verif.Props.C92_restart",
    "Verif.Props.C92_first_update",
    "Verif.Props.C92_recover_race_false",
    "Verif.Props.C92_halt_tracking_false",
    "Verif.Props.C92_early_false",
    "Verif.Props.C92_shutdown_race_false",
    "Verif.Props.C92_shutdown_partial",
    "Verif.Props.C92_sync",
    "Verif.Props.C92_variable",
    "Verif.Props.C92_unread_false"
   ],
   "note": "Limits, targets, tracking, start values, silence, restart flags, synchronisation and naming of variables are proved for every schedule and value; the limits handles and conversions are arbitrary functions. False parts, with witnesses: a cycle between the recovery of the handle layer and that of the controller manager layer sends the old command without restarting controllers; commands do not follow the measured value while halted; the two loads in handleWrite let a command through before forwarding is enabled; shutdown can destroy the controller manager during update; values that were never read are uninitialised memory and no error is reported."
  },
  {
   "property": "C93",
   "status": "partial",
   "theorems": [
    "Verif.Props.C93_path",
    "Verif.Props.C93_create_partial",
    "Verif.Props.C93_namespace_false",
    "Verif.Props.C93_map",
    "Verif.Props.C93_optional",
    "Verif.Props.C93_roundtrip",
    "Verif.Props.C93_typed",
    "Verif.Props.C93_unsigned",
    "Verif.Props.C93_negative_false",
    "Verif.Props.C93_bool",
    "Verif.Props.C93_motor"
   ],
   "note": "Lookup by path, relative creation, history of a settings map, round trips, accepted texts (boost::lexical_cast is written into the model) and the settings of a motor are proved. False parts: settings created with the default name come from the root of the parameter server, not from the node handle's namespace (as used by ros_chain and the bridges); negative numbers are accepted for unsigned settings and wrap."
  },
  {
   "property": "C94",
   "status": "partial",
   "theorems": [
    "Verif.Props.C94_node",
    "Verif.Props.C94_nodes",
    "Verif.Props.C94_joint_partial",
    "Verif.Props.C94_joint_false",
    "Verif.Props.C94_exprs_false",
    "Verif.Props.C94_order",
    "Verif.Props.C94_cycle",
    "Verif.Props.C94_period_fixed",
    "Verif.Props.C94_period_realtime"
   ],
   "note": "Acceptance of each node and of all nodes, order of the layers, the cycle and both kinds of period are proved. False parts: two nodes that share a joint are both accepted but the joint commands only the first (C94_joint_false); obsolete unit factors and expressions that are no strings raise an exception that leaves the set-up (C94_exprs_false). Parsing of muparser expressions, the filter plug-ins and the motor allocator are parameters of the model."
  },
  {
   "property": "C95",
   "status": "partial",
   "theorems": [
    "Verif.Props.C95_ids",
    "Verif.Props.C95_requests",
    "Verif.Props.C95_foreign",
    "Verif.Props.C95_idle",
    "Verif.Props.C95_transfer_partial",
    "Verif.Props.C95_read",
    "Verif.Props.C95_write",
    "Verif.Props.C95_memory_safe",
    "Verif.Props.C95_sequence",
    "Verif.Props.C95_returns",
    "Verif.Props.C95_stale_false",
    "Verif.Props.C95_stale_other_false",
    "Verif.Props.C95_uninitialised_false",
    "Verif.Props.C95_init_race_false"
   ],
   "note": "Identifiers, requests, foreign frames, idle channel, the meaning of one call, and the sequence of calls with a conforming server under every schedule without time-outs are proved, and that all these calls return once the server has answered and the call has read 256 times, whatever the object, its contents and the history (C95_returns). False parts: a frame left in the reader after a time-out is used by the next transfer (C95_stale_false, C95_stale_other_false), so C95_transfer_partial allows one frame from before the call; before init the identifier is 0 (C95_uninitialised_false); init during a failing transfer dereferences a null pointer (C95_init_race_false)."
  },
  {
   "property": "C96",
   "status": "partial",
   "theorems": [
    "Verif.Props.C96_init",
    "Verif.Props.C96_succeeds",
    "Verif.Props.C96_once",
    "Verif.Props.C96_enforce_partial",
    "Verif.Props.C96_continuous_false",
    "Verif.Props.C96_retry_false",
    "Verif.Props.C96_refused_false"
   ],
   "note": "Robot description, parameters and the limits library are parameters of the model. False: velocity limits of a joint without position limits do not hold for position commands (C96_continuous_false); after an initialisation that ended with an exception the limits of the first attempt stay (C96_retry_false). A joint whose limits handle is refused stays offered for commands without its limits (C96_refused_false)."
  },
  {
   "property": "C97",
   "status": "partial",
   "theorems": [
    "Verif.Props.C97_node",
    "Verif.Props.C97_own_heartbeat_partial",
    "Verif.Props.C97_own_heartbeat_false",
    "Verif.Props.C97_job_partial",
    "Verif.Props.C97_interval_false",
    "Verif.Props.C97_overflow_false",
    "Verif.Props.C97_identifier_false",
    "Verif.Props.C97_tool",
    "Verif.Props.C97_tool_refuses",
    "Verif.Props.C97_tool_ub",
    "Verif.Props.C97_tool_period_false",
    "Verif.Props.C97_states",
    "Verif.Props.C97_bring_up",
    "Verif.Props.C97_sync_partial",
    "Verif.Props.C97_fault_partial",
    "Verif.Props.C97_dead_false",
    "Verif.Props.C97_stuck_false",
    "Verif.Props.C97_filter_false"
   ],
   "note": "Proved: acceptance of the configuration, sets of nodes, the job, the command line, the states of the layers for every history, bring-up, faults and recovery, SYNC exactly while a node of interest is started (without broadcast commands, see C48). False: intervals above 65535 ms are truncated, negative overflows and invalid identifiers are accepted, a list of ignored nodes drops the own heartbeat, the tool takes periods that are no positive number; after a recovery without the broadcast manager's socket nothing is ever tried again (C97_dead_false); a start between halt and recovery disables SYNC (C97_stuck_false); a filter that cannot be set is only a warning (C97_filter_false). C97_tool_ub: the tool converts a text that does not fit an int in an undefined way."
  },
  {
   "property": "C98",
   "status": "partial",
   "theorems": [
    "Verif.Props.C98_new_quiet",
    "Verif.Props.C98_frames_partial",
    "Verif.Props.C98_delivers",
    "Verif.Props.C98_one_at_a_time",
    "Verif.Props.C98_restart_frames_false",
    "Verif.Props.C98_ready_partial",
    "Verif.Props.C98_restart_ready_false",
    "Verif.Props.C98_init",
    "Verif.Props.C98_init_late_false",
    "Verif.Props.C98_shutdown",
    "Verif.Props.C98_shutdown_returns_partial",
    "Verif.Props.C98_shutdown_hangs_false",
    "Verif.Props.C98_destroy_false",
    "Verif.Props.C98_after_shutdown_false",
    "Verif.Props.C98_after_shutdown_partial",
    "Verif.Props.C98_recover_false"
   ],
   "note": "Proved for every schedule: order and exactly-once delivery in a session that starts without left-overs (C98_frames_partial), progress (C98_delivers), init true means ready, readiness is kept without faults, the state after shutdown, a shutdown of a ready driver cannot get stuck. False in the code: after shutdown and re-initialisation a left-over read handler loses one frame and doubles another, or makes a healthy driver not ready; an initialisation that timed out goes on; a shutdown during start-up can hang; listeners are called after shutdown by the thread that is not joined; recover() starts no thread and the driver is never ready again. Destroying a driver that runs waits for ever (C98_destroy_false)."
  },
  {
   "property": "C99",
   "status": "partial",
   "theorems": [
    "Verif.Props.C99_published",
    "Verif.Props.C99_all_published",
    "Verif.Props.C99_send",
    "Verif.Props.C99_only_messages",
    "Verif.Props.C99_start",
    "Verif.Props.C99_no_device_partial",
    "Verif.Props.C99_timeout_false",
    "Verif.Props.C99_ids",
    "Verif.Props.C99_fault_false",
    "Verif.Props.C99_read_error_false",
    "Verif.Props.C99_quit",
    "Verif.Props.C99_done",
    "Verif.Props.C99_fault_logged_partial",
    "Verif.Props.C99_read_error_logged_false"
   ],
   "note": "Proved for every history of each of the three programs: what is published for which frames (with the frames dropped before the listener is registered and those still queued made explicit), progress, what is written to the bus, what is needed to start, ending, and that nothing happens afterwards. False in the code: if the device was opened but the driver does not become ready in time, main hangs in the destructor of the driver; after a fault the programs never send (any fault) or receive (read error) again; errors of the socket are logged as information with the text OK."
  },
  {
   "property": "C100",
   "status": "partial",
   "theorems": [
    "Verif.Props.C100_message",
    "Verif.Props.C100_start",
    "Verif.Props.C100_stop",
    "Verif.Props.C100_closed_partial",
    "Verif.Props.C100_reinit_false",
    "Verif.Props.C100_descriptor0_false",
    "Verif.Props.C100_remote_false",
    "Verif.Props.C100_safe",
    "Verif.Props.C100_long_name_false",
    "Verif.Props.C100_canbcm",
    "Verif.Props.C100_canbcm_exit",
    "Verif.Props.C100_canbcm_malformed_false",
    "Verif.Props.C100_sync"
   ],
   "note": "The message is proved byte by byte against a decoder with the kernel's layout. Partial: nothing is left sending after the end only if the object is not initialised while open and does not get descriptor 0; remote frames are sent as data frames; device names of 16 or more characters overflow a buffer; canbcm does not refuse malformed texts (each proved as a `_false` theorem)."
  },
  {
   "property": "C101",
   "status": "partial",
   "theorems": [
    "Verif.Props.C101_never_early",
    "Verif.Props.C101_read_shifted",
    "Verif.Props.C101_spacing_partial",
    "Verif.Props.C101_on_time",
    "Verif.Props.C101_catch_up_false",
    "Verif.Props.C101_external_returns",
    "Verif.Props.C101_external_read",
    "Verif.Props.C101_external_once",
    "Verif.Props.C101_external_phase_false"
   ],
   "note": "Producer: due times, spacing and shift of the read phase for all histories and delays; no drift for loops that are fast enough. Consumer: a read phase returns in bounded time, uses a SYNC at most once and misses none but for newer ones. Partial: after a stall SYNC frames follow each other after half a period (`C101_catch_up_false`), and a consumer that was slow shifts its phase (`C101_external_phase_false`)."
  },
  {
   "property": "C102",
   "status": "partial",
   "theorems": [
    "Verif.Props.C102_no_deadlock_partial",
    "Verif.Props.C102_can_return_partial",
    "Verif.Props.C102_return_partial",
    "Verif.Props.C102_reinit_false",
    "Verif.Props.C102_bcm_false",
    "Verif.Props.C102_responder_false",
    "Verif.Props.C102_answer_false"
   ],
   "note": "All schedules of any number of threads with any sequences of the calls listed in `Verif.Lk.Call`. Partial: left out are the calls that do block each other, initialisation of a node, re-registering a reader, initialisation and shut-down of `BCMsync`, responders on the simulated bus (`C102_reinit_false`, `C102_bcm_false`, `C102_responder_false`); and the dispatcher can be blocked until an SDO transfer times out (`C102_answer_false`)."
  },
  {
   "property": "C103",
   "status": "partial",
   "theorems": [
    "Verif.Props.C103_output_partial",
    "Verif.Props.C103_readable",
    "Verif.Props.C103_same_partial",
    "Verif.Props.C103_run_partial",
    "Verif.Props.C103_usage",
    "Verif.Props.C103_interleave_false",
    "Verif.Props.C103_long_false"
   ],
   "note": "partial because the two listeners run in different threads and share std::cout: a state printed while a frame is printed comes out in base 16 inside the line of the frame (C103_interleave_false). Proved for listeners that are called one at a time. Frames with more than 8 bytes are undefined behaviour (C103_long_false). The error texts of SocketCAN are used for states also when another plugin is loaded."
  },
  {
   "property": "C104",
   "status": "proved",
   "theorems": [
    "Verif.Props.C104_defined",
    "Verif.Props.C104_word",
    "Verif.Props.C104_moves",
    "Verif.Props.C104_setpoint",
    "Verif.Props.C104_limits",
    "Verif.Props.C104_command"
   ],
   "note": "The axis is the composition of the models of C34-C36 (PDO), C49-C56 (motor) and C92 (handle). C104_defined: every step is defined and only the end of the write cycle sends. The control word and the targets are in one TPDO, status word and display in one RPDO; the objects are mapped with the sizes of their types (Ok) and nobody else writes them (Proper). For the profiled position mode the target in the frame is governed by the handshake of C55; C104_moves states for it that a target was given; C104_setpoint that the frame in which the bit for a new set-point rises between two write cycles carries the last target given, with the drive enabled, in the mode and not halted."
  },
  {
   "property": "C105",
   "status": "partial",
   "theorems": [
    "Verif.Props.C105_abort",
    "Verif.Props.C105_abort_line",
    "Verif.Props.C105_lines",
    "Verif.Props.C105_read_quiet",
    "Verif.Props.C105_write",
    "Verif.Props.C105_throws_partial",
    "Verif.Props.C105_silent_false"
   ],
   "note": "Abort lines (C105_abort, C105_abort_line), the complete list of what can be logged (C105_lines), reads and writes that return (C105_read_quiet, C105_write) hold. The last sentence does not: accesses can throw without any line (C105_silent_false); C105_throws_partial gives all the cases in which that happens with the mutex held."
  },
  {
   "property": "C106",
   "status": "partial",
   "theorems": [
    "Verif.Props.C106_accepted_partial",
    "Verif.Props.C106_refused",
    "Verif.Props.C106_shipped",
    "Verif.Props.C106_chain",
    "Verif.Props.C106_types_false",
    "Verif.Props.C106_settings_false"
   ],
   "note": "Acceptance is characterised exactly, refusals leave one line. The full claim is false in two points: parameters of an unexpected type are ignored silently (C106_types_false) and the settings of the CAN layer come from the root of the parameter server, not from the bus parameters (C106_settings_false)."
  },
  {
   "property": "C107",
   "status": "partial",
   "theorems": [
    "Verif.Props.C107_request",
    "Verif.Props.C107_warning",
    "Verif.Props.C107_objects",
    "Verif.Props.C107_init_warning_false",
    "Verif.Props.C107_loop_rate",
    "Verif.Props.C107_loop_told_partial",
    "Verif.Props.C107_loop_only",
    "Verif.Props.C107_loop_false"
   ],
   "note": "Partial: an error line after warnings during init although the chain runs (C107_init_warning_false); errors in the first ten seconds of a simulated clock and reasons that change within ten seconds are not told (C107_loop_false). Lines of overlapping requests can be mixed (each request's lines are what is proved). The throttling macro is library code rendered in the model."
  },
  {
   "property": "C108",
   "status": "partial",
   "theorems": [
    "Verif.Props.C108_end_partial",
    "Verif.Props.C108_late_thread_false"
   ],
   "note": "Partial: for histories in which threads begin in time; otherwise a thread survives the node (C108_late_thread_false)."
  },
  {
   "property": "C109",
   "status": "proved",
   "theorems": [
    "Verif.Props.C109_initialised",
    "Verif.Props.C109_same_as_memory",
    "Verif.Props.C109_object",
    "Verif.Props.C109_returns"
   ],
   "note": "Storage (C28-C31), SDO channel (C95) and server of the standard composed; C109_same_as_memory for whole histories of a node's storage, C109_object for one handle against the specification of C29, C109_returns that every access ends within 256 rounds of an answer and a read. Time-outs are left out (C30, C95 tell what happens then)."
  },
  {
   "property": "C110",
   "status": "partial",
   "theorems": [
    "Verif.Props.C110_accepted_partial",
    "Verif.Props.C110_accepted_one",
    "Verif.Props.C110_applied_sent",
    "Verif.Props.C110_applied_received",
    "Verif.Props.C110_identifier_applied",
    "Verif.Props.C110_untouched",
    "Verif.Props.C110_identifier_false",
    "Verif.Props.C110_count_false",
    "Verif.Props.C110_endless_false"
   ],
   "note": "A device as strict as CiA 301 allows, which may refuse anything else. C110_accepted_partial: the set-up of all PDOs never tries a forbidden write; C110_applied_sent/received: what the device has when a set-up with a configured mapping ends normally. False for what is left to init_all, which runs after the set-up (node.cpp:188-191): an identifier alone (pdo.cpp:107 looks for configured communication parameters at the mapping index; C110_identifier_false) and a number of entries alone (C110_count_false) are written while the PDO is on. Identifier and number must be writable, not constant and not mapped; a configured identifier must be a plain number. C110_endless_false: with 255 communication sub-objects the set-up does not end (pdo.cpp:150). C110_identifier_applied, C110_untouched: when the identifier is written and when nothing is."
  },
  {
   "property": "C111",
   "status": "proved",
   "theorems": [
    "Verif.Props.C111_stopped",
    "Verif.Props.C111_not_stopped",
    "Verif.Props.C111_limit",
    "Verif.Props.C111_write_stopped",
    "Verif.Props.C111_write_fails",
    "Verif.Props.C111_quick_stop_sent",
    "Verif.Props.C111_halt",
    "Verif.Props.C111_reports",
    "Verif.Props.C111_read"
   ],
   "note": "Trees of any shape with any number of motors; other layers are arbitrary as long as they leave command word, target state and last status of the motors alone (modes and targets may be changed). The stop is judged by the state last read, as in the code. Writing the target object does not fail in the model; the write of the control word may. A switch of modes from within the cycle of the controller manager (it changes target state and command word) is not a calm layer in this sense and is excluded."
  },
  {
   "property": "C112",
   "status": "partial",
   "theorems": [
    "Verif.Props.C112_isolated_partial",
    "Verif.Props.C112_foreign_frame",
    "Verif.Props.C112_delivered",
    "Verif.Props.C112_stopped",
    "Verif.Props.C112_predefined",
    "Verif.Props.C112_disjoint",
    "Verif.Props.C112_survives",
    "Verif.Props.C112_escape_false"
   ],
   "note": "C112_isolated_partial assumes that the program survives, which C112_survives gives if every heartbeat interval is known; without it the property fails (C112_escape_false): after a reset, the boot-up message of a node whose object 1017 has no default in the EDS raises an exception on the thread that receives for all nodes. Actions of the program on one node are arbitrary functions of this node's state (SDO, state machine, emergency handler, received PDOs); frames the program sends are not looped back."
  },
  {
   "property": "C113",
   "status": "partial",
   "theorems": [
    "Verif.Props.C113_shown_partial",
    "Verif.Props.C113_kept",
    "Verif.Props.C113_not_older",
    "Verif.Props.C113_same_frame",
    "Verif.Props.C113_torn_false",
    "Verif.Props.C113_first_false",
    "Verif.Props.C113_integer_unique"
   ],
   "note": "Partial because the full claim fails: values of one cycle can stem from different frames (C113_torn_false) and the first cycle shows uninitialised memory (C113_first_false, with muParser creating variables at the first evaluation). Frames must be as long as the mapping (shorter ones: C38). Objects are integers mapped to one received PDO; the conversions are arbitrary functions of the variables, filters with memory are left out."
  },
  {
   "property": "C114",
   "status": "partial",
   "theorems": [
    "Verif.Props.C114_operational_partial",
    "Verif.Props.C114_configured_in_preop",
    "Verif.Props.C114_comes_up",
    "Verif.Props.C114_never_stuck",
    "Verif.Props.C114_missed_boot_false",
    "Verif.Props.C114_stale_boot_false"
   ],
   "note": "Partial because the full claim fails: a heartbeat handled right after the boot-up message hides it from the waiting thread and the initialisation fails for good (C114_missed_boot_false), and with an old boot-up message on its way the values are written before the reset and lost (C114_stale_boot_false). Without heartbeat the node assumes the operational state, hence the second case of C114_operational_partial. Commands and reports are not lost and not reordered; nobody else commands the device; writing the values is one step."
  },
  {
   "property": "C115",
   "status": "partial",
   "theorems": [
    "Verif.Props.C115_adopted_partial",
    "Verif.Props.C115_arrives_partial",
    "Verif.Props.C115_missed_false"
   ],
   "note": "Partial because the full claim fails for a drive that does not look at every frame: a command given before the previous one is acknowledged is sent after a single frame with the bit low; if this frame is overwritten the drive sees no new edge, and the mode never sends the target again as it takes it for sent (C115_missed_false). With a drive that looks at every frame the claim holds without a further condition. Frames are not lost or reordered; the device's range is that of a 32 bit integer; other code does not touch bit 4 of the control word."
  },
  {
   "property": "C116",
   "status": "partial",
   "theorems": [
    "Verif.Props.C116_told",
    "Verif.Props.C116_told_again_false",
    "Verif.Props.C116_init",
    "Verif.Props.C116_init_again",
    "Verif.Props.C116_shutdown_partial",
    "Verif.Props.C116_shutdown_returns_partial",
    "Verif.Props.C116_late_start_false",
    "Verif.Props.C116_hangs_false",
    "Verif.Props.C116_destroy_returns",
    "Verif.Props.C116_stale_false",
    "Verif.Props.C116_send_false",
    "Verif.Props.C116_no_crash"
   ],
   "note": "Partial because the full claim fails: a shutdown before the thread has started leaves a driver that says it is ready without thread and connection, and the next shutdown hangs (C116_late_start_false, C116_hangs_false); frames that come in during a shutdown are delivered in the next session (C116_stale_false); sending on a driver that was shut down dereferences a null pointer instead of failing (C116_send_false); listeners are told 'ready' again and again (C116_told_again_false). What run does between two waits is one step, as it holds the mutex; listeners neither throw nor call the driver (for that see C102)."
  },
  {
   "property": "C117",
   "status": "partial",
   "theorems": [
    "Verif.Props.C117_buses",
    "Verif.Props.C117_while_there_partial",
    "Verif.Props.C117_twins_false"
   ],
   "note": "Partial because the full claim fails with two bus objects of one name: the end of one makes the name unknown (C117_twins_false). C117_buses holds for every history."
  },
  {
   "property": "C118",
   "status": "proved",
   "theorems": [
    "Verif.Props.C118_raised",
    "Verif.Props.C118_silence",
    "Verif.Props.C118_stops",
    "Verif.Props.C118_supervised",
    "Verif.Props.C118_write_stops",
    "Verif.Props.C118_no_alarm",
    "Verif.Props.C118_bus_quiet",
    "Verif.Props.C118_unsupervised"
   ],
   "note": "C118_raised and C118_silence: from what arrives to what the program knows; C118_stops, C118_supervised: from there to the motors (read cycle), C118_write_stops (write cycle, bus and nodes). C118_no_alarm: nothing else is reported. Two limits that are not violations are proved beside it: on a failed bus nothing is sent any more, also no quick stop (C118_bus_quiet), and a node without heartbeat is never found silent (C118_unsupervised)."
  },
  {
   "property": "C119",
   "status": "partial",
   "theorems": [
    "Verif.Props.C119_info_partial",
    "Verif.Props.C119_missing",
    "Verif.Props.C119_hex_false",
    "Verif.Props.C119_no_pdos_false",
    "Verif.Props.C119_number_else_zero",
    "Verif.Props.C119_sets",
    "Verif.Props.C119_refused",
    "Verif.Props.C119_loaded"
   ],
   "note": "Partial because the full claim is false: read_optional reads decimal numbers only, a hexadecimal NrOfTXPDO/NrOfRXPDO counts as 0 (C119_hex_false) and the node is set up without process data (C119_no_pdos_false). Bit rates and dummy objects are exact (C119_sets); files with other truth values there are refused (C119_refused)."
  },
  {
   "property": "C120",
   "status": "proved",
   "theorems": [
    "Verif.Props.C120_same_as_memory",
    "Verif.Props.C120_set_get",
    "Verif.Props.C120_others",
    "Verif.Props.C120_cached_false"
   ],
   "note": "Any number of nodes, each with its own SDO client and device. C120_same_as_memory: all answers, storages and device values equal those of direct memory access, provided the accesses end and are supported (C32, C33). C120_set_get: integers of at least 16 bits; bytes and texts are shown differently (C87). Writes with the flag cached may be skipped (C120_cached_false)."
  },
  {
   "property": "C121",
   "status": "proved",
   "theorems": [
    "Verif.Props.C121_published",
    "Verif.Props.C121_message",
    "Verif.Props.C121_delivered",
    "Verif.Props.C121_origin",
    "Verif.Props.C121_error_false"
   ],
   "note": "Programs of C99 on different computers (a program does not get its own frames). C121_published: what was queued for a program is, in order, dropped (before it ran), published if valid and selected, or waiting. C121_message, C121_delivered: a message sent while the receiver runs is published. C121_origin: messages of one sender arrive in order and unchanged as far as they can be said on a bus; error messages become ordinary ones (C121_error_false). The bus loses nothing between an open socket and the wire; kernel buffers are unbounded."
  },
  {
   "property": "C122",
   "status": "partial",
   "theorems": [
    "Verif.Props.C122_started_partial",
    "Verif.Props.C122_failed",
    "Verif.Props.C122_now_false",
    "Verif.Props.C122_recovered_partial",
    "Verif.Props.C122_recovered_false"
   ],
   "note": "Trees of layers (C40-C48) over one world with the bus (C85), nodes (C89) and motors (C91). C122_started_partial: a successful init passes, in the order of the layers, moments in which the driver runs, each node is operational after its full set-up, each drive reports enabled. C122_now_false: an earlier layer need not be up any more at the end. C122_failed: after a failed init all layers are off, socket and driver are closed and stay so. Handlers that do not return are excluded (hung); handlers of other layers do not call those modelled. C122_recovered_partial: a successful recovery of a halted chain passes moments in which the driver runs, nodes were told to start, drives report enabled; C122_recovered_false: a node that does not start goes unnoticed."
  },
  {
   "property": "C123",
   "status": "partial",
   "theorems": [
    "Verif.Props.C123_last",
    "Verif.Props.C123_shown_partial",
    "Verif.Props.C123_origin",
    "Verif.Props.C123_mixed_false",
    "Verif.Props.C123_missed_false"
   ],
   "note": "CAN layer and driver with the strand in between, all interleavings. C123_last: the error frame kept is the last one heard. C123_shown_partial: after a fatal error frame that the layer hears, while no other error frame comes and the driver is not initialised again, diagnostics show its number and its payload. C123_origin: diagnostics are always defined, number and payload always come from error frames read. C123_mixed_false: number and payload may come from different frames until the strand is served; C123_missed_false: an error frame before the listener exists (can_layer.h:78, 79) is never shown."
  },
  {
   "property": "C124",
   "status": "proved",
   "theorems": [
    "Verif.Props.C124_independent",
    "Verif.Props.C124_forgets",
    "Verif.Props.C124_command",
    "Verif.Props.C124_value",
    "Verif.Props.C124_shared_false",
    "Verif.Props.C124_command_false"
   ],
   "note": "The six converters of a joint with the places their variables refer to; expressions of muParser as terms with arbitrary operators, assignments at the top of an expression. C124_value: what a conversion without assignments gives after any history; C124_independent: results of one conversion do not depend on the texts, evaluations and commands of the others; C124_forgets: reset; C124_command: commands are not changed. The exceptions (assignments to objects or commands) are witnessed by C124_shared_false and C124_command_false; before its first evaluation an object is not copied (C113_first_false)."
  },
  {
   "property": "C125",
   "status": "partial",
   "theorems": [
    "Verif.Props.C125_received_partial",
    "Verif.Props.C125_sent_partial",
    "Verif.Props.C125_all_partial",
    "Verif.Props.C125_default_false"
   ],
   "note": "The device is that of C110, with what CiA 301 says about its PDO frames (Spec/PdoAgree). C125_received_partial: values written and sent arrive in the same objects; C125_sent_partial: values of the device are read from the same objects; C125_all_partial: after the set-up of all PDOs every PDO in use has identifier and words of the device. Partial: mappings that are configured in full; otherwise the master takes the default of the EDS without asking the device (C125_default_false). Parameters of PDOs must be writable and not mapped themselves, mappings of at most 8 bytes. The buffers of a schedule (Model/Pdo) are those of the record by their sizes (Layout.room)."
  },
  {
   "property": "C126",
   "status": "partial",
   "theorems": [
    "Verif.Props.C126_ordered_partial",
    "Verif.Props.C126_closed",
    "Verif.Props.C126_restart_partial",
    "Verif.Props.C126_device_false",
    "Verif.Props.C126_halt_false"
   ],
   "note": "The world of C122, with the shutdown of nodes (C89). C126_ordered_partial: a shutdown without an error passes, in the order of shutdown, moments in which the drive reports switch-on-disabled, the node was told to stop and the bus is closed; at the end everything is as before the first start. C126_restart_partial: C122 holds again for the next start. C126_closed: whatever is reported, all layers are off and the bus is closed and stays so. Partial: a motor halted meanwhile ends without a report (C126_halt_false); a device that does not answer is not told to stop, which is reported (C126_device_false). Handlers that do not return are excluded (hung)."
  },
  {
   "property": "C127",
   "status": "partial",
   "theorems": [
    "Verif.Props.C127_same_as_memory",
    "Verif.Props.C127_returns",
    "Verif.Props.C127_accepted",
    "Verif.Props.C127_agrees_partial"
   ],
   "note": "Joins PdoInit (C78-C81, C110, C125) with the object services over the bus (C109). C127_same_as_memory: any history of set-ups, uses of the storage and changes on the device over the bus gives results, storage, PDOs, buffers, accesses and device contents of a node working directly on the device's memory, if accesses end and are supported by the client. C127_returns: with 256 rounds for each access none hangs, in any such history. C127_accepted: a device that enforces the rules of CiA 301 for PDO parameters would have refused nothing. C127_agrees_partial: C125_all for the device at the other end of the bus; partial like C125 (C125_default_false: a mapping that is not configured is not read from the device)."
  },
  {
   "property": "C128",
   "status": "partial",
   "theorems": [
    "Verif.Props.C128_report_partial",
    "Verif.Props.C128_unknown",
    "Verif.Props.C128_two_words",
    "Verif.Props.C128_mixed_false"
   ],
   "note": "C128_report_partial: no status word is read between the two looks of the diagnostics (the word, then the state). With reads in between the bits shown are those of the older word and the state that of the newer one (C128_two_words); two words that both call for an error can be shown as all right (C128_mixed_false). Modelled are the severities in their order, not the texts; loads of the two members are taken as atomic."
  },
  {
   "property": "C129",
   "status": "partial",
   "theorems": [
    "Verif.Props.C129_worst",
    "Verif.Props.C129_drives_partial",
    "Verif.Props.C129_drives_any",
    "Verif.Props.C129_nodes",
    "Verif.Props.C129_bus",
    "Verif.Props.C129_mixed_false"
   ],
   "note": "C129_worst: the level is the maximum of what was said when the layers were asked one after the other. C129_bus, C129_nodes and C129_drives_any hold for every schedule; C129_drives_partial needs that the drive's status word is not read while the report is made, else a drive that was never without alarm can be shown as all right (C129_mixed_false). The layers of bus, nodes and motors are given by what their diagnostics report (IsBus, IsNode, IsMotor, with the models of C85, C89 and C128); the state of the chain itself does not change during the report (report_diagnostics and shutdown share a mutex)."
  }
 ]
}