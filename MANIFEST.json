{
 "claims": [
  {
   "property": "C01",
   "status": "proved",
   "theorems": [
    "Verif.Props.C01_compile_wellformed",
    "Verif.Props.C01_compile_wraps"
   ],
   "note": "Exact layout of compiled messages for every payload up to 252 bytes; behaviour of longer payloads (length byte wraps) characterised."
  },
  {
   "property": "C02",
   "status": "proved",
   "theorems": [
    "Verif.Props.C02_accept_sound",
    "Verif.Props.C02_accept_complete"
   ],
   "note": "Decode reports a complete frame exactly for buffers that start with a frame with correct length and checksum."
  },
  {
   "property": "C03",
   "status": "proved",
   "theorems": [
    "Verif.Props.C03_single_corruption"
   ],
   "note": "Any single corrupted byte after the start and length bytes is detected."
  },
  {
   "property": "C04",
   "status": "proved",
   "theorems": [
    "Verif.Props.C04_incomplete"
   ],
   "note": "Incomplete frames ask for more data and leave the buffer unchanged."
  },
  {
   "property": "C05",
   "status": "partial",
   "theorems": [
    "Verif.Props.C05_violated_buffer_changed",
    "Verif.Props.C05_buffer_effect_partial"
   ],
   "note": "Violated by the code: the checksum byte of the caller's buffer is overwritten (C05_violated_buffer_changed). Proved instead: exactly that byte is the only one that may change."
  },
  {
   "property": "C06",
   "status": "partial",
   "theorems": [
    "Verif.Props.C06_violated_panics",
    "Verif.Props.C06_panic_iff",
    "Verif.Props.C06_no_panic_partial",
    "Verif.Props.C06_no_panic_other_partial"
   ],
   "note": "Violated by the code (C06_violated_panics). Proved instead: the exact set of buffers on which Decode panics, and absence of panics on sane frames and junk."
  },
  {
   "property": "C07",
   "status": "proved",
   "theorems": [
    "Verif.Props.C07_chunk_independent",
    "Verif.Props.C07_session"
   ],
   "note": "For every burst of good frames, noise and a final control byte, every chunking and every capacity; also whole sessions of bursts."
  },
  {
   "property": "C08",
   "status": "proved",
   "theorems": [
    "Verif.Props.C08_one_ack_per_frame",
    "Verif.Props.C08_ack_count",
    "Verif.Props.C08_frame_is_acked"
   ],
   "note": "For every byte stream and chunking."
  },
  {
   "property": "C09",
   "status": "partial",
   "theorems": [
    "Verif.Props.C09_violated_false_start",
    "Verif.Props.C09_resync_partial",
    "Verif.Props.C09_recovers_after_gap"
   ],
   "note": "Violated for noise that contains a start byte (C09_violated_false_start). Proved for noise of any length without start and control bytes."
  },
  {
   "property": "C10",
   "status": "proved",
   "theorems": [
    "Verif.Props.C10_drain_terminates",
    "Verif.Props.C10_leftover",
    "Verif.Props.C10_bounded"
   ],
   "note": "Loop termination, shape of the remainder, bound on the buffer for every history of reads."
  },
  {
   "property": "C11",
   "status": "proved",
   "theorems": [
    "Verif.Props.C11_stale_discarded",
    "Verif.Props.C11_gap_matters"
   ],
   "note": "For every leftover, read and continuation."
  },
  {
   "property": "C12",
   "status": "partial",
   "theorems": [
    "Verif.Props.C12_violated_bytes_crash",
    "Verif.Props.C12_no_crash_partial"
   ],
   "note": "Violated by the code (C12_violated_bytes_crash). Proved for sessions of good bursts."
  },
  {
   "property": "C13",
   "status": "proved",
   "theorems": [
    "Verif.Props.C13_protocol_info",
    "Verif.Props.C13_through_decode"
   ],
   "note": "Every field at its bit position for every payload, also through the whole decoder."
  },
  {
   "property": "C14",
   "status": "proved",
   "theorems": [
    "Verif.Props.C14_discovery_bitmap",
    "Verif.Props.C14_through_decode"
   ],
   "note": "Exact bitmap semantics, rejection and panic ranges, also through the whole decoder."
  },
  {
   "property": "C15",
   "status": "proved",
   "theorems": [
    "Verif.Props.C15_dispatch",
    "Verif.Props.C15_error"
   ],
   "note": "Equivalence with an independent (class, command, length) table."
  },
  {
   "property": "C16",
   "status": "proved",
   "theorems": [
    "Verif.Props.C16_manufacturer",
    "Verif.Props.C16_injective"
   ],
   "note": "Length, digit alphabet, value, injectivity."
  },
  {
   "property": "C17",
   "status": "proved",
   "theorems": [
    "Verif.Props.C17_sensor_value",
    "Verif.Props.C17_truncated"
   ],
   "note": "Two's complement value over 10^precision for every payload; exact rationals (float rounding not modelled)."
  },
  {
   "property": "C18",
   "status": "partial",
   "theorems": [
    "Verif.Props.C18_violated_size3",
    "Verif.Props.C18_unsupported_partial"
   ],
   "note": "Violated by the code (C18_violated_size3). Proved instead: what happens for every unsupported size."
  },
  {
   "property": "C19",
   "status": "proved",
   "theorems": [
    "Verif.Props.C19_documented_names",
    "Verif.Props.C19_keys_distinct",
    "Verif.Props.C19_keys_not_reserved"
   ],
   "note": "Names, distinctness over all 256 types, disjointness of state keys."
  },
  {
   "property": "C20",
   "status": "proved",
   "theorems": [
    "Verif.Props.C20_binary_v1",
    "Verif.Props.C20_binary_v2",
    "Verif.Props.C20_multilevel",
    "Verif.Props.C20_level_range"
   ],
   "note": "All switch reports."
  },
  {
   "property": "C21",
   "status": "proved",
   "theorems": [
    "Verif.Props.C21_alarm",
    "Verif.Props.C21_endpoints"
   ],
   "note": "Alarm and endpoint reports."
  },
  {
   "property": "C22",
   "status": "proved",
   "theorems": [
    "Verif.Props.C22_duration",
    "Verif.Props.C22_increasing"
   ],
   "note": "All 256 bytes; monotonicity."
  },
  {
   "property": "C23",
   "status": "proved",
   "theorems": [
    "Verif.Props.C23_binary",
    "Verif.Props.C23_level",
    "Verif.Props.C23_infinite",
    "Verif.Props.C23_nan_undefined"
   ],
   "note": "Every finite level, infinities; NaN shown to be implementation-defined."
  },
  {
   "property": "C24",
   "status": "proved",
   "theorems": [
    "Verif.Props.C24_lossless",
    "Verif.Props.C24_short_panics",
    "Verif.Props.C24_injective"
   ],
   "note": "Losslessness, injectivity, length, panic range."
  },
  {
   "property": "C25",
   "status": "partial",
   "theorems": [
    "Verif.Props.C25_violated_length",
    "Verif.Props.C25_raw_partial"
   ],
   "note": "Violated for every raw command (C25_violated_length). Proved instead: the exact encoding."
  },
  {
   "property": "C26",
   "status": "proved",
   "theorems": [
    "Verif.Props.C26_on",
    "Verif.Props.C26_off",
    "Verif.Props.C26_level"
   ],
   "note": "On, Off, Level for every node."
  },
  {
   "property": "C27",
   "status": "partial",
   "theorems": [
    "Verif.Props.C27_violated_offset",
    "Verif.Props.C27_lookup_partial"
   ],
   "note": "Violated by the code (C27_violated_offset). Proved instead: the exact lookup behaviour."
  },
  {
   "property": "C28",
   "status": "proved",
   "theorems": [
    "Verif.Props.C28_endpoint_commands",
    "Verif.Props.C28_decapsulates"
   ],
   "note": "For every endpoint linked to its node; linkage is C66."
  },
  {
   "property": "C29",
   "status": "partial",
   "theorems": [
    "Verif.Props.C29_sound_buffer",
    "Verif.Props.C29_match_iff_answers_partial",
    "Verif.Props.C29_violated_short_frame"
   ],
   "note": "Proved on buffer positions for every buffer, and as an equivalence for every frame that carries a command. Violated for shorter frames followed by stray bytes (C29_violated_short_frame)."
  },
  {
   "property": "C30",
   "status": "proved",
   "theorems": [
    "Verif.Props.C30_report_matched",
    "Verif.Props.C30_function_matched",
    "Verif.Props.C30_library_requests"
   ],
   "note": "Reports, protocol info and discovery replies."
  },
  {
   "property": "C31",
   "status": "partial",
   "theorems": [
    "Verif.Props.C31_no_crash_partial",
    "Verif.Props.C31_no_crash_unaddressed",
    "Verif.Props.C31_violated"
   ],
   "note": "Violated by the code (C31_violated). Proved for buffers of at least nine bytes and for unaddressed requests."
  },
  {
   "property": "C32",
   "status": "partial",
   "theorems": [
    "Verif.Props.C32_protocol_info_only_partial",
    "Verif.Props.C32_violated"
   ],
   "note": "Violated by the code (C32_violated). Proved with a single protocol-info request outstanding."
  },
  {
   "property": "C33",
   "status": "proved",
   "theorems": [
    "Verif.Props.C33_at_most_one_reply",
    "Verif.Props.C33_nothing_after_close"
   ],
   "note": ""
  },
  {
   "property": "C34",
   "status": "proved",
   "theorems": [
    "Verif.Props.C34_reply_matches_request"
   ],
   "note": ""
  },
  {
   "property": "C35",
   "status": "proved",
   "theorems": [
    "Verif.Props.C35_open_request_somewhere",
    "Verif.Props.C35_timeout_pending",
    "Verif.Props.C35_timeout_closes"
   ],
   "note": "Every open request has a live timeout worker or a writer about to start one; firing it closes the channel."
  },
  {
   "property": "C36",
   "status": "partial",
   "theorems": [
    "Verif.Props.C36_one_at_a_time_partial",
    "Verif.Props.C36_each_writer",
    "Verif.Props.C36_violated_after_reconnect"
   ],
   "note": "Proved until the first reconnect and per writer always; after a reconnect two writers exist and C36_violated_after_reconnect exhibits two unacknowledged commands."
  },
  {
   "property": "C37",
   "status": "proved",
   "theorems": [
    "Verif.Props.C37_nak_fails_only_outstanding",
    "Verif.Props.C37_nak_is_handled",
    "Verif.Props.C37_only_outstanding_any_interleaving"
   ],
   "note": "Effect of a NAK for every table and iteration order with the reader running alone; safety for every interleaving; the reader can always finish the scan."
  },
  {
   "property": "C38",
   "status": "partial",
   "theorems": [
    "Verif.Props.C38_can_starts_one_retransmission",
    "Verif.Props.C38_can_is_handled",
    "Verif.Props.C38_only_after_can",
    "Verif.Props.C38_retransmits_cancelled_partial",
    "Verif.Props.C38_retransmission_proceeds",
    "Verif.Props.C38_shared_variable_partial",
    "Verif.Props.C38_violated_shared_variable"
   ],
   "note": "Proved for per-iteration loop variables and, with shared loop variables, when the scan visited only the cancelled command; C38_violated_shared_variable otherwise."
  },
  {
   "property": "C39",
   "status": "partial",
   "theorems": [
    "Verif.Props.C39_completed_left_table_partial",
    "Verif.Props.C39_completed_left_table_unlocked",
    "Verif.Props.C39_violated_resend",
    "Verif.Props.C39_violated_unbounded"
   ],
   "note": "Holds for every request that was not retransmitted; C39_violated_resend and C39_violated_unbounded are the exceptions."
  },
  {
   "property": "C40",
   "status": "partial",
   "theorems": [
    "Verif.Props.C40_completes_matching_partial",
    "Verif.Props.C40_violated"
   ],
   "note": "False as stated: one frame completes every matching request (C40_violated). The exact set of completed requests is proved."
  },
  {
   "property": "C41",
   "status": "partial",
   "theorems": [
    "Verif.Props.C41_released_partial",
    "Verif.Props.C41_channel_live",
    "Verif.Props.C41_violated"
   ],
   "note": "A caller can always be released by the timeout of its request unless the process crashed; C41_violated is the crash."
  },
  {
   "property": "C42",
   "status": "proved",
   "theorems": [
    "Verif.Props.C42_wire_contents",
    "Verif.Props.C42_wire_count",
    "Verif.Props.C42_wire_conservation"
   ],
   "note": "Every frame on the wire is the frame of a submitted request, and counts are conserved."
  },
  {
   "property": "C43",
   "status": "proved",
   "theorems": [
    "Verif.Props.C43_fifo",
    "Verif.Props.C43_order",
    "Verif.Props.C43_bounded",
    "Verif.Props.C43_never_blocks"
   ],
   "note": "Fifo refinement of the queue, order law, capacity, and independence of progress from the queue, for all runs of the controller machine"
  },
  {
   "property": "C44",
   "status": "proved",
   "theorems": [
    "Verif.Props.C44_registers_active_nodes",
    "Verif.Props.C44_announced_once_in_order",
    "Verif.Props.C44_known_nodes_unchanged",
    "Verif.Props.C44_no_reply_no_change",
    "Verif.Props.C44_discovery_ends"
   ],
   "note": "all bitmaps and prior lists: kept, registered, announced once in id order, untouched, ends"
  },
  {
   "property": "C45",
   "status": "proved",
   "theorems": [
    "Verif.Props.C45_only_the_sender",
    "Verif.Props.C45_applies_what_arrived",
    "Verif.Props.C45_unknown_ignored",
    "Verif.Props.C45_applied_at_most_once",
    "Verif.Props.C45_state_from_own_reports"
   ],
   "note": "only the sender's node changes; unknown ids change nothing; applied at most once; states are those of the node's own reports"
  },
  {
   "property": "C46",
   "status": "partial",
   "theorems": [
    "Verif.Props.C46_violated_reordered",
    "Verif.Props.C46_in_order_partial"
   ],
   "note": "false in general (counterexample); proved when a report arrives only after earlier deliveries are over"
  },
  {
   "property": "C47",
   "status": "partial",
   "theorems": [
    "Verif.Props.C47_saves_are_caused",
    "Verif.Props.C47_save_when_quiet",
    "Verif.Props.C47_saved_at_rest_partial",
    "Verif.Props.C47_rest_is_reached_partial",
    "Verif.Props.C47_violated_saver_stuck",
    "Verif.Props.C47_stream_postpones_save"
   ],
   "note": "cause, quiet period and rest theorems for all runs; false when the saver copies the list during Add (counterexample)"
  },
  {
   "property": "C48",
   "status": "proved",
   "theorems": [
    "Verif.Props.C48_restored",
    "Verif.Props.C48_any_list",
    "Verif.Props.C48_text_determines_nodes"
   ],
   "note": "Every node list reachable through any number of runs, saves and restarts is restored by loading the saved text (up to the fields that are not saved); proved for every savable list, with a full JSON printer and parser."
  },
  {
   "property": "C49",
   "status": "partial",
   "theorems": [
    "Verif.Props.C49_crash_contents_partial",
    "Verif.Props.C49_every_prefix_occurs",
    "Verif.Props.C49_complete_save",
    "Verif.Props.C49_violated_crash_loses_both"
   ],
   "note": "The contents a crash can leave are characterised exactly (old file, or a prefix of the new text, every prefix occurs); C49_violated_crash_loses_both: neither the old nor the new configuration may be recoverable."
  },
  {
   "property": "C50",
   "status": "proved",
   "theorems": [
    "Verif.Props.C50_failed_load_changes_nothing",
    "Verif.Props.C50_missing_file",
    "Verif.Props.C50_not_json",
    "Verif.Props.C50_bound_irrelevant",
    "Verif.Props.C50_blank",
    "Verif.Props.C50_not_an_object",
    "Verif.Props.C50_truncated"
   ],
   "note": "A load that fails changes nothing; missing, blank, non-JSON, non-object and truncated files fail."
  },
  {
   "property": "C51",
   "status": "proved",
   "theorems": [
    "Verif.Props.C51_get_last_added",
    "Verif.Props.C51_all",
    "Verif.Props.C51_endpoints_linked",
    "Verif.Props.C51_add_panics_exactly",
    "Verif.Props.C51_violated_locked_after_panic"
   ],
   "note": "Any sequence of Add of nodes without nil endpoints on an empty or zero list; panics of Add characterised exactly, and after one the list stays locked."
  },
  {
   "property": "C52",
   "status": "proved",
   "theorems": [
    "Verif.Props.C52_bool_state_is_last_report",
    "Verif.Props.C52_float_state_is_last_report",
    "Verif.Props.C52_one_event_per_state_report",
    "Verif.Props.C52_reports_are_processed"
   ],
   "note": "Node state after any run is the last report per key; one event per state report; reports never blocked or panicking."
  },
  {
   "property": "C53",
   "status": "proved",
   "theorems": [
    "Verif.Props.C53_alarm_is_raised",
    "Verif.Props.C53_alarm_is_cleared",
    "Verif.Props.C53_other_status_ignored",
    "Verif.Props.C53_alarm_shown_only_during_pulse",
    "Verif.Props.C53_last_type_remembered",
    "Verif.Props.C53_pulse_can_end"
   ],
   "note": "Raise, clear, other statuses, only-during-pulse invariant, last type, pulse can always end."
  },
  {
   "property": "C54",
   "status": "partial",
   "theorems": [
    "Verif.Props.C54_violated_unknown_is_shown",
    "Verif.Props.C54_other_keys_kept_partial"
   ],
   "note": "False: 0xFE sets on/level for every node (C54_violated_...). Proved: nothing else changes."
  },
  {
   "property": "C55",
   "status": "proved",
   "theorems": [
    "Verif.Props.C55_identified_means_complete",
    "Verif.Props.C55_ends_only_identified",
    "Verif.Props.C55_keeps_going"
   ],
   "note": "Invariant over all interleavings; goroutine ends only when identified; progress whenever the lock is free."
  },
  {
   "property": "C56",
   "status": "partial",
   "theorems": [
    "Verif.Props.C56_controller_classes",
    "Verif.Props.C56_classes_are_mandatory_partial",
    "Verif.Props.C56_violated_database_classes_forgotten"
   ],
   "note": "False: database classes are dropped by the next loop round. Proved: exactly the mandatory classes remain (one identification)."
  },
  {
   "property": "C57",
   "status": "partial",
   "theorems": [
    "Verif.Props.C57_terminates_partial",
    "Verif.Props.C57_requests_bounded_partial",
    "Verif.Props.C57_violated_never_identified",
    "Verif.Props.C57_violated_unbounded_requests",
    "Verif.Props.C57_real_database_partial"
   ],
   "note": "Proved for answering nodes (bounds on steps and requests). False for nodes of a known class that do not answer the endpoint request."
  },
  {
   "property": "C58",
   "status": "partial",
   "theorems": [
    "Verif.Props.C58_contacted_after_wakeup_partial",
    "Verif.Props.C58_counters",
    "Verif.Props.C58_violated_second_identification"
   ],
   "note": "Proved for one identification per node; counterexample with two concurrent identifications."
  },
  {
   "property": "C59",
   "status": "partial",
   "theorems": [
    "Verif.Props.C59_endpoints_created_partial",
    "Verif.Props.C59_violated_last_endpoint_missing"
   ],
   "note": "False: endpoint k is missing for every count k >= 1. Proved: exactly 1..k-1, linked."
  },
  {
   "property": "C60",
   "status": "proved",
   "theorems": [
    "Verif.Props.C60_found_iff",
    "Verif.Props.C60_ids_match",
    "Verif.Props.C60_every_device_reported"
   ],
   "note": ""
  },
  {
   "property": "C61",
   "status": "proved",
   "theorems": [
    "Verif.Props.C61_lookup_iff",
    "Verif.Props.C61_order_irrelevant"
   ],
   "note": ""
  },
  {
   "property": "C62",
   "status": "partial",
   "theorems": [
    "Verif.Props.C62_reads_back_partial",
    "Verif.Props.C62_no_newline",
    "Verif.Props.C62_violated_nul"
   ],
   "note": "False for texts with NUL or a byte order mark, which the compiler rejects (C62_violated_nul); proved for all others."
  },
  {
   "property": "C63",
   "status": "partial",
   "theorems": [
    "Verif.Props.C63_groups_partial",
    "Verif.Props.C63_bytes_partial",
    "Verif.Props.C63_violated_last_row",
    "Verif.Props.C63_violated_clock"
   ],
   "note": "False: the last group of each direction is never printed (C63_violated_last_row), and a clock that steps back reorders groups (C63_violated_clock). Exact output proved for nondecreasing times."
  },
  {
   "property": "C64",
   "status": "partial",
   "theorems": [
    "Verif.Props.C64_function_names",
    "Verif.Props.C64_function_names_distinct",
    "Verif.Props.C64_command_names_partial",
    "Verif.Props.C64_violated_unnamed",
    "Verif.Props.C64_violated_mark",
    "Verif.Props.C64_command_names_distinct"
   ],
   "note": "Proved for serial functions; false for eight command classes (C64_violated_unnamed, C64_violated_mark)."
  },
  {
   "property": "C65",
   "status": "partial",
   "theorems": [
    "Verif.Props.C65_error_means_failed_partial",
    "Verif.Props.C65_success_means_opened_partial",
    "Verif.Props.C65_answer_final",
    "Verif.Props.C65_first_attempt_partial",
    "Verif.Props.C65_returns_after_success",
    "Verif.Props.C65_returns_after_failure",
    "Verif.Props.C65_violated_error_lost",
    "Verif.Props.C65_violated_success_lost",
    "Verif.Props.C65_violated_port_open_after_error",
    "Verif.Props.C65_connected_when_open_partial",
    "Verif.Props.C65_connected_means_open_partial",
    "Verif.Props.C65_violated_connected_while_lost"
   ],
   "note": "Answers are truthful in all runs; error iff the first attempt failed when the call waits in time and timers are not late; otherwise false (lost errors, port kept after an error, Connected while disconnected: C65_violated_*)."
  },
  {
   "property": "C66",
   "status": "proved",
   "theorems": [
    "Verif.Props.C66_endpoints_linked"
   ],
   "note": "invariant over discovery, loads and interrogations"
  },
  {
   "property": "C67",
   "status": "partial",
   "theorems": [
    "Verif.Props.C67_map_access_partial",
    "Verif.Props.C67_violated"
   ],
   "note": "Only the unlocked iteration of the control byte scan can race; C67_violated exhibits it."
  },
  {
   "property": "C68",
   "status": "partial",
   "theorems": [
    "Verif.Props.C68_ack_attribution_partial",
    "Verif.Props.C68_violated_after_reconnect"
   ],
   "note": "Acknowledgements credit the command on the wire until the first reconnect; C68_violated_after_reconnect afterwards."
  },
  {
   "property": "C69",
   "status": "proved",
   "theorems": [
    "Verif.Props.C69_lock_released",
    "Verif.Props.C69_lock_available"
   ],
   "note": "The holder of the connection lock can release it by its own steps."
  },
  {
   "property": "C70",
   "status": "partial",
   "theorems": [
    "Verif.Props.C70_controller_panics_only_by_race",
    "Verif.Props.C70_node_never_panics",
    "Verif.Props.C70_violated_without_maps",
    "Verif.Props.C70_violated_before_setup"
   ],
   "note": "Proved for usable nodes. False for nodes without maps (null in the file) or before Setup."
  },
  {
   "property": "C71",
   "status": "partial",
   "theorems": [
    "Verif.Props.C71_violated_lost_wakeup",
    "Verif.Props.C71_wakeup_releases_partial"
   ],
   "note": "Counterexample: lost wake-up. Proved: a wake-up that finds the waiter on its channel releases it."
  },
  {
   "property": "C72",
   "status": "partial",
   "theorems": [
    "Verif.Props.C72_violated_stuck",
    "Verif.Props.C72_violated_race",
    "Verif.Props.C72_delivered_partial",
    "Verif.Props.C72_applied",
    "Verif.Props.C72_no_crash_partial"
   ],
   "note": "false (two counterexamples); proved while no node is being added"
  },
  {
   "property": "C73",
   "status": "partial",
   "theorems": [
    "Verif.Props.C73_violated_race_with_save",
    "Verif.Props.C73_no_file_no_crash_partial"
   ],
   "note": "false (counterexample); proved without a configuration file"
  },
  {
   "property": "C74",
   "status": "partial",
   "theorems": [
    "Verif.Props.C74_violated_not_set_up",
    "Verif.Props.C74_set_up_partial"
   ],
   "note": "false (counterexample); proved when discovery is not in the middle of adding the node"
  },
  {
   "property": "C75",
   "status": "proved",
   "theorems": [
    "Verif.Props.C75_at_most_one_identification",
    "Verif.Props.C75_active_nodes_identified"
   ],
   "note": "invariant over all runs; exact count after a discovery"
  },
  {
   "property": "C76",
   "status": "partial",
   "theorems": [
    "Verif.Props.C76_lines_read_partial",
    "Verif.Props.C76_violated_multichannel",
    "Verif.Props.C76_violated_in_table"
   ],
   "note": "False for Multichannel Association (C76_violated_multichannel); proved for all other announced lines."
  },
  {
   "property": "C77",
   "status": "proved",
   "theorems": [
    "Verif.Props.C77_table_is_generated"
   ],
   "note": ""
  },
  {
   "property": "C78",
   "status": "partial",
   "theorems": [
    "Verif.Props.C78_each_spelling_once",
    "Verif.Props.C78_violated_letter_case",
    "Verif.Props.C78_distinct_labels_partial"
   ],
   "note": "False when references differ only in letter case (C78_violated_letter_case)."
  },
  {
   "property": "C79",
   "status": "partial",
   "theorems": [
    "Verif.Props.C79_violated_failure_not_reported",
    "Verif.Props.C79_success_partial"
   ],
   "note": "Violated by the code: nil is always returned (C79_violated_failure_not_reported); C79_success_partial says when a save has succeeded."
  },
  {
   "property": "C80",
   "status": "partial",
   "theorems": [
    "Verif.Props.C80_violated_load_panics",
    "Verif.Props.C80_panics_exactly",
    "Verif.Props.C80_violated_report_panics",
    "Verif.Props.C80_own_files_partial",
    "Verif.Props.C80_violated_save_panics"
   ],
   "note": "Violated by the code: the files that make loading panic are characterised exactly; files the program wrote itself are safe."
  },
  {
   "property": "C81",
   "status": "partial",
   "theorems": [
    "Verif.Props.C81_first_ten",
    "Verif.Props.C81_announced_partial",
    "Verif.Props.C81_violated_eleven"
   ],
   "note": "Violated by the code beyond ten nodes; exact contents of the queue proved; up to ten nodes each is announced."
  },
  {
   "property": "C82",
   "status": "proved",
   "theorems": [
    "Verif.Props.C82_stable",
    "Verif.Props.C82_order_irrelevant"
   ],
   "note": "Save, load, save is the identity on bytes for every reachable list and every iteration order."
  },
  {
   "property": "C83",
   "status": "partial",
   "theorems": [
    "Verif.Props.C83_write_crashes_exactly_partial",
    "Verif.Props.C83_no_failed_reopen_partial",
    "Verif.Props.C83_violated"
   ],
   "note": "False after a failed re-open (C83_violated); exact condition proved, and safety when no Open fails after a success."
  },
  {
   "property": "C84",
   "status": "partial",
   "theorems": [
    "Verif.Props.C84_crash_causes_partial",
    "Verif.Props.C84_violated_ack_with_response",
    "Verif.Props.C84_violated_ack_with_frame",
    "Verif.Props.C84_violated_undecodable_report",
    "Verif.Props.C84_violated_short_frame",
    "Verif.Props.C84_violated_bytes"
   ],
   "note": "False (five counterexamples, one of them for every command); the list of causes is complete (C84_crash_causes_partial)."
  },
  {
   "property": "C85",
   "status": "proved",
   "theorems": [
    "Verif.Props.C85_reader_refines_bytes",
    "Verif.Props.C85_reader_prefix",
    "Verif.Props.C85_crash_not_passed",
    "Verif.Props.C85_acks_frames",
    "Verif.Props.C85_reader_returns"
   ],
   "note": "Simulation of the byte-level reader inside the concurrent machine; every frame is handled in finitely many reader steps."
  },
  {
   "property": "C86",
   "status": "partial",
   "theorems": [
    "Verif.Props.C86_command_decoded",
    "Verif.Props.C86_violated_handler_node"
   ],
   "note": "Decoding of class, command and data proved for all frames; false for the node id of the handler, which is never set (C86_violated_handler_node)."
  },
  {
   "property": "C87",
   "status": "proved",
   "theorems": [
    "Verif.Props.C87_controller_only_queries",
    "Verif.Props.C87_controller_asks_all_states",
    "Verif.Props.C87_controller_asks_what_it_has",
    "Verif.Props.C87_only_queries",
    "Verif.Props.C87_never_switches",
    "Verif.Props.C87_asks_what_it_has_partial",
    "Verif.Props.C87_asks_all_states_partial"
   ],
   "note": "Queries only, for any number of identifications; completeness with one identification per node (_partial), which holds for every node of a controller (C87_controller_*)."
  },
  {
   "property": "C88",
   "status": "partial",
   "theorems": [
    "Verif.Props.C88_update_names_node",
    "Verif.Props.C88_report_announced_partial",
    "Verif.Props.C88_violated_before_setup"
   ],
   "note": "False between the addition of a node and its setup (C88_violated_before_setup); otherwise exact, and every update event names the node that changed."
  },
  {
   "property": "C89",
   "status": "partial",
   "theorems": [
    "Verif.Props.C89_callbacks_are_the_reports",
    "Verif.Props.C89_agreed_bool",
    "Verif.Props.C89_agreed_float",
    "Verif.Props.C89_silent_bool",
    "Verif.Props.C89_last_bool_partial",
    "Verif.Props.C89_wire_on",
    "Verif.Props.C89_wire_level"
   ],
   "note": "for disagreeing reports only when they are delivered one at a time (C89_last_bool_partial); other schedules: C46_violated_reordered"
  },
  {
   "property": "C90",
   "status": "proved",
   "theorems": [
    "Verif.Props.C90_frame_of_request",
    "Verif.Props.C90_on_wire",
    "Verif.Props.C90_off_wire",
    "Verif.Props.C90_level_wire",
    "Verif.Props.C90_endpoint_on_wire",
    "Verif.Props.C90_endpoint_off_wire",
    "Verif.Props.C90_endpoint_level_wire",
    "Verif.Props.C90_can_reach_port"
   ],
   "note": "Frames on the wire for On, Off, Level of nodes and endpoints; every waiting command can still reach the port."
  },
  {
   "property": "C91",
   "status": "partial",
   "theorems": [
    "Verif.Props.C91_in_turn_partial",
    "Verif.Props.C91_violated_after_reconnect",
    "Verif.Props.C91_violated_by_cancel"
   ],
   "note": "In turn until the first reconnect (C91_in_turn_partial); false after a reconnect and for repetitions of cancelled commands, with concrete executions."
  },
  {
   "property": "C92",
   "status": "partial",
   "theorems": [
    "Verif.Props.C92_only_traffic_partial",
    "Verif.Props.C92_nothing_lost_partial",
    "Verif.Props.C92_order_partial",
    "Verif.Props.C92_violated_reused_buffer",
    "Verif.Props.C92_violated_order"
   ],
   "note": "Proved when callers do not reuse buffers and (completeness, order) for one Open; order and reused buffers violated with concrete executions."
  },
  {
   "property": "C93",
   "status": "partial",
   "theorems": [
    "Verif.Props.C93_decodable_iff",
    "Verif.Props.C93_never_again",
    "Verif.Props.C93_violated_reconnect"
   ],
   "note": "Exactly when a recording decodes; violated after a second Open, permanently."
  },
  {
   "property": "C94",
   "status": "proved",
   "theorems": [
    "Verif.Props.C94_reading_recoverable",
    "Verif.Props.C94_order"
   ],
   "note": "For every rounding to nearest; that Go's division of exact operands is such a rounding is IEEE 754, trusted."
  },
  {
   "property": "C95",
   "status": "partial",
   "theorems": [
    "Verif.Props.C95_control_status",
    "Verif.Props.C95_on_command",
    "Verif.Props.C95_off_command",
    "Verif.Props.C95_violated_silent",
    "Verif.Props.C95_get_node",
    "Verif.Props.C95_all_nodes",
    "Verif.Props.C95_links",
    "Verif.Props.C95_on_wire",
    "Verif.Props.C95_controller_lists",
    "Verif.Props.C95_control_never_panics"
   ],
   "note": "Everything but 'the answer 200 means that the node was told', which is refuted for nodes that are no switches (C95_violated_silent)."
  },
  {
   "property": "C96",
   "status": "partial",
   "theorems": [
    "Verif.Props.C96_lock_released",
    "Verif.Props.C96_writer_returns",
    "Verif.Props.C96_write_returns",
    "Verif.Props.C96_timeout_fires",
    "Verif.Props.C96_every_request_ends_partial",
    "Verif.Props.C96_violated_late_caller",
    "Verif.Props.C96_violated_no_connection"
   ],
   "note": "Violated: a caller that reads the channel field after its request was closed waits for ever in a fair execution, and so does every caller before the first connection (C96_violated_*). Everything else of the claim is proved for every fair execution."
  },
  {
   "property": "C97",
   "status": "partial",
   "theorems": [
    "Verif.Props.C97_discovery_ends",
    "Verif.Props.C97_report_applied_partial",
    "Verif.Props.C97_report_applied",
    "Verif.Props.C97_saved_partial",
    "Verif.Props.C97_violated_stuck",
    "Verif.Props.C97_violated_never_saved",
    "Verif.Props.C97_violated_postponed"
   ],
   "note": "Violated: a delivery or save that copies the node list while a node is being added waits for ever in a fair execution (C97_violated_*). Proved: the discovery ends; reports are applied (without exception after the discovery and without a file); changes are saved when updates pause, unless the saver got stuck or the program died."
  },
  {
   "property": "C98",
   "status": "partial",
   "theorems": [
    "Verif.Props.C98_identified_partial",
    "Verif.Props.C98_identified_sleeping",
    "Verif.Props.C98_identified_listening",
    "Verif.Props.C98_violated_lost_wakeup"
   ],
   "note": "Violated: a sleeping node whose wake-up report is processed between the creation of the channel and its return is never identified in a fair execution (C98_violated_lost_wakeup). Proved: listening nodes and sleeping nodes without that race are identified; in general the only other outcome is the wait on nil."
  },
  {
   "property": "C99",
   "status": "proved",
   "theorems": [
    "Verif.Props.C99_reader_returns",
    "Verif.Props.C99_everything_processed",
    "Verif.Props.C99_read_is_processed",
    "Verif.Props.C99_bad_bytes_crash"
   ],
   "note": "For every fair execution in which requests and repetitions pause; the pause is part of the claim."
  },
  {
   "property": "C100",
   "status": "proved",
   "theorems": [
    "Verif.Props.C100_nothing_between",
    "Verif.Props.C100_report_applied",
    "Verif.Props.C100_all_applied",
    "Verif.Props.C100_on_shown",
    "Verif.Props.C100_level_shown",
    "Verif.Props.C100_state_shown",
    "Verif.Props.C100_failed_connect"
   ],
   "note": ""
  },
  {
   "property": "C101",
   "status": "partial",
   "theorems": [
    "Verif.Props.C101_alarm",
    "Verif.Props.C101_manufacturer",
    "Verif.Props.C101_endpoints",
    "Verif.Props.C101_binary",
    "Verif.Props.C101_level",
    "Verif.Props.C101_sensor_partial",
    "Verif.Props.C101_sensor_seven_partial",
    "Verif.Props.C101_wakeup",
    "Verif.Props.C101_class",
    "Verif.Props.C101_alarm_same",
    "Verif.Props.C101_duration",
    "Verif.Props.C101_violated_unknown",
    "Verif.Props.C101_violated_seven"
   ],
   "note": "unknown binary state (0xFE) prints as off and readings with seven decimals are printed rounded (both proved); everything else reads back exactly"
  },
  {
   "property": "C102",
   "status": "partial",
   "theorems": [
    "Verif.Props.C102_known_nodes",
    "Verif.Props.C102_protocol_info",
    "Verif.Props.C102_manufacturer",
    "Verif.Props.C102_library_requests",
    "Verif.Props.C102_violated_protocol_info"
   ],
   "note": "Exact for nodes, protocol information, manufacturer and requests; violated: one protocol info reply is taken as the answer for two nodes."
  },
  {
   "property": "C103",
   "status": "partial",
   "theorems": [
    "Verif.Props.C103_named_nodes_asked_partial",
    "Verif.Props.C103_parts_fair_partial",
    "Verif.Props.C103_discovery_ends_partial",
    "Verif.Props.C103_identified_listening_partial",
    "Verif.Props.C103_identified_sleeping_partial",
    "Verif.Props.C103_named_nodes_started_partial",
    "Verif.Props.C103_named_nodes_identified_partial",
    "Verif.Props.C103_on_shown_partial",
    "Verif.Props.C103_violated_late"
   ],
   "note": "Proved except for goroutines that read the channel from the package late (nil channel); that gap is a proved counterexample."
  },
  {
   "property": "C104",
   "status": "partial",
   "theorems": [
    "Verif.Props.C104_pulse_ends",
    "Verif.Props.C104_alarm_over_partial",
    "Verif.Props.C104_violated_restart"
   ],
   "note": "false across a restart (C104_violated_restart); proved for nodes that were not loaded with a raised alarm"
  },
  {
   "property": "C105",
   "status": "proved",
   "theorems": [
    "Verif.Props.C105_known_stays",
    "Verif.Props.C105_not_asked_again",
    "Verif.Props.C105_known_for_ever",
    "Verif.Props.C105_loaded_not_asked"
   ],
   "note": ""
  },
  {
   "property": "C106",
   "status": "partial",
   "theorems": [
    "Verif.Props.C106_mandatory_stays",
    "Verif.Props.C106_identified_fixed",
    "Verif.Props.C106_violated_switch_lost"
   ],
   "note": "A class mandatory for the kind of node, once known, stays known (C106_mandatory_stays); an identified node takes the same commands for ever (C106_identified_fixed). False for the classes of the device database before the end of the identification (C106_violated_switch_lost)."
  },
  {
   "property": "C107",
   "status": "proved",
   "theorems": [
    "Verif.Props.C107_committed_table",
    "Verif.Props.C107_labels_distinct"
   ],
   "note": ""
  },
  {
   "property": "C108",
   "status": "partial",
   "theorems": [
    "Verif.Props.C108_reference_read",
    "Verif.Props.C108_violated_two_colons",
    "Verif.Props.C108_found_iff_listed",
    "Verif.Props.C108_first_file",
    "Verif.Props.C108_every_product_reported",
    "Verif.Props.C108_violated_file_lost"
   ],
   "note": "Found exactly if listed, first file wins (C108_found_iff_listed, C108_first_file). False that the data of every file are used (C108_violated_file_lost)."
  },
  {
   "property": "C109",
   "status": "partial",
   "theorems": [
    "Verif.Props.C109_old_or_new",
    "Verif.Props.C109_known_is_saved",
    "Verif.Props.C109_violated_brand_lost",
    "Verif.Props.C109_violated_endpoints_lost"
   ],
   "note": "Every field written is old or new, what was known is written as it is: proved. Completeness is false: a save during an identification can lose brand and product or endpoints for ever (C109_violated_brand_lost, C109_violated_endpoints_lost)."
  },
  {
   "property": "C110",
   "status": "proved",
   "theorems": [
    "Verif.Props.C110_endpoints",
    "Verif.Props.C110_product",
    "Verif.Props.C110_product_committed",
    "Verif.Props.C110_device_class",
    "Verif.Props.C110_one_class",
    "Verif.Props.C110_class_said"
   ],
   "note": "For every run of the whole process: product data, endpoints and device class are from the file or from the wire, with the committed device files by C107 and C108."
  },
  {
   "property": "C111",
   "status": "partial",
   "theorems": [
    "Verif.Props.C111_event_names_node",
    "Verif.Props.C111_never_nil",
    "Verif.Props.C111_in_order",
    "Verif.Props.C111_prints_the_node",
    "Verif.Props.C111_all_handled_partial",
    "Verif.Props.C111_violated_hangs",
    "Verif.Props.C111_violated_map_race"
   ],
   "note": "After the discovery; false during it (C111_violated_hangs, C111_violated_map_race)."
  },
  {
   "property": "C112",
   "status": "partial",
   "theorems": [
    "Verif.Props.C112_all_nodes",
    "Verif.Props.C112_the_node",
    "Verif.Props.C112_found",
    "Verif.Props.C112_answered_partial",
    "Verif.Props.C112_only_state_races",
    "Verif.Props.C112_violated_hangs",
    "Verif.Props.C112_violated_state_race",
    "Verif.Props.C112_violated_list_race"
   ],
   "note": "Contents proved; answered after the discovery; false during it and for nodes that report while they are shown."
  },
  {
   "property": "C113",
   "status": "partial",
   "theorems": [
    "Verif.Props.C113_alarm_over_partial",
    "Verif.Props.C113_last_type_shown",
    "Verif.Props.C113_violated_restart"
   ],
   "note": "a node loaded from a file that was written during an alarm shows it for ever (C113_violated_restart)"
  },
  {
   "property": "C114",
   "status": "partial",
   "theorems": [
    "Verif.Props.C114_attempted",
    "Verif.Props.C114_written_partial",
    "Verif.Props.C114_frame_written_partial",
    "Verif.Props.C114_web_on_partial",
    "Verif.Props.C114_violated_lost"
   ],
   "note": "a port that is lost between the call and the write loses the command for ever, although Write returned (C114_violated_lost)"
  },
  {
   "property": "C115",
   "status": "partial",
   "theorems": [
    "Verif.Props.C115_contacted_partial",
    "Verif.Props.C115_violated_interval"
   ],
   "note": "any command of the wake-up class counts as a wake-up (C115_violated_interval); the protocol info reply need not be this node's (C102)"
  },
  {
   "property": "C116",
   "status": "partial",
   "theorems": [
    "Verif.Props.C116_bool",
    "Verif.Props.C116_float",
    "Verif.Props.C116_on",
    "Verif.Props.C116_level",
    "Verif.Props.C116_sensor_partial",
    "Verif.Props.C116_endpoint_not_node",
    "Verif.Props.C116_endpoint_states",
    "Verif.Props.C116_violated_endpoint"
   ],
   "note": "endpoint reports are shown nowhere (C116_violated_endpoint); sensor reports with impossible sizes are shown as 0 (C18)"
  },
  {
   "property": "C117",
   "status": "partial",
   "theorems": [
    "Verif.Props.C117_nodes",
    "Verif.Props.C117_on",
    "Verif.Props.C117_level",
    "Verif.Props.C117_sensor_partial",
    "Verif.Props.C117_alarm",
    "Verif.Props.C117_product",
    "Verif.Props.C117_endpoints",
    "Verif.Props.C117_awake_partial",
    "Verif.Props.C117_contacted_partial",
    "Verif.Props.C117_never_panics_partial",
    "Verif.Props.C117_comes_back"
   ],
   "note": "proved over any number of lives; missing because false: sensor reports of sizes that do not exist (C18), map races (C72, C73), the node a protocol info reply is about (C102, C115)"
  },
  {
   "property": "C118",
   "status": "proved",
   "theorems": [
    "Verif.Props.C118_given",
    "Verif.Props.C118_attempted",
    "Verif.Props.C118_written",
    "Verif.Props.C118_discovery_written",
    "Verif.Props.C118_states_asked",
    "Verif.Props.C118_port_needed"
   ],
   "note": "For every fair execution; for the frame on the wire reading from the port must not fail, which is part of the claim and shown to be needed (C118_port_needed). Without that: C118_attempted."
  },
  {
   "property": "C119",
   "status": "partial",
   "theorems": [
    "Verif.Props.C119_writes_sound",
    "Verif.Props.C119_reads_sound",
    "Verif.Props.C119_only_races_partial",
    "Verif.Props.C119_violated_table",
    "Verif.Props.C119_violated_table_timeout",
    "Verif.Props.C119_violated_last",
    "Verif.Props.C119_violated_last_writers",
    "Verif.Props.C119_violated_port",
    "Verif.Props.C119_violated_channel",
    "Verif.Props.C119_violated_loop",
    "Verif.Props.C119_loop_variables",
    "Verif.Props.C119_channels_partial",
    "Verif.Props.C119_port_partial"
   ],
   "note": "false: five pairs of accesses race; the exact list is proved to be complete, and each pair occurs"
  },
  {
   "property": "C120",
   "status": "partial",
   "theorems": [
    "Verif.Props.C120_writes_sound",
    "Verif.Props.C120_reads_sound",
    "Verif.Props.C120_guard_sound",
    "Verif.Props.C120_only_races_partial",
    "Verif.Props.C120_violated_setup",
    "Verif.Props.C120_violated_early_command",
    "Verif.Props.C120_violated_classes",
    "Verif.Props.C120_violated_sleep",
    "Verif.Props.C120_violated_wake",
    "Verif.Props.C120_violated_saving",
    "Verif.Props.C120_violated_kills",
    "Verif.Props.C120_states_partial",
    "Verif.Props.C120_no_file_partial",
    "Verif.Props.C120_identified_partial",
    "Verif.Props.C120_awake_partial"
   ],
   "note": "false: saving, Setup of a listed node, HasCommand and isAwake race (violated_*); these are all the races (C120_only_races_partial)"
  },
  {
   "property": "C121",
   "status": "partial",
   "theorems": [
    "Verif.Props.C121_file_in_the_end_partial",
    "Verif.Props.C121_updates_suffice_partial",
    "Verif.Props.C121_identified_partial",
    "Verif.Props.C121_restart_partial",
    "Verif.Props.C121_violated_stale",
    "Verif.Props.C121_nothing_pending",
    "Verif.Props.C121_known_in_file_partial"
   ],
   "note": "Violated for the command classes of a sleeping node (C121_violated_stale); otherwise, after the last update, the file says in the end what is known (also after a restart), unless the program crashes or the saver got stuck."
  },
  {
   "property": "C122",
   "status": "partial",
   "theorems": [
    "Verif.Props.C122_updates_stop",
    "Verif.Props.C122_file_partial",
    "Verif.Props.C122_on_after_restart_partial",
    "Verif.Props.C122_level_after_restart_partial",
    "Verif.Props.C122_state_after_restart_partial",
    "Verif.Props.C122_no_alarm_after_restart_partial",
    "Verif.Props.C122_last_type_after_restart_partial",
    "Verif.Props.C122_states_in_file_partial",
    "Verif.Props.C122_on_while_identifying_partial",
    "Verif.Props.C122_level_while_identifying_partial",
    "Verif.Props.C122_state_while_identifying_partial",
    "Verif.Props.C122_no_alarm_while_identifying_partial",
    "Verif.Props.C122_last_type_while_identifying_partial"
   ],
   "note": "on fair executions of the whole process; exceptions: a crash (C73), a stuck saver (C47); while nodes are identified for the states only (C121)"
  },
  {
   "property": "C123",
   "status": "proved",
   "theorems": [
    "Verif.Props.C123_list_untouched",
    "Verif.Props.C123_dies_only_saving",
    "Verif.Props.C123_never_dies",
    "Verif.Props.C123_report_applied",
    "Verif.Props.C123_saved",
    "Verif.Props.C123_in_list",
    "Verif.Props.C123_violated_new_node",
    "Verif.Props.C123_no_alarm_after_restart",
    "Verif.Props.C123_last_type_after_restart",
    "Verif.Props.C123_usable",
    "Verif.Props.C123_listed_usable",
    "Verif.Props.C123_report_announced",
    "Verif.Props.C123_announced",
    "Verif.Props.C123_on_after_restart",
    "Verif.Props.C123_level_after_restart",
    "Verif.Props.C123_state_after_restart",
    "Verif.Props.C123_all_applied",
    "Verif.Props.C123_on_shown",
    "Verif.Props.C123_level_shown",
    "Verif.Props.C123_state_shown",
    "Verif.Props.C123_registered",
    "Verif.Props.C123_second_start",
    "Verif.Props.C123_every_later_start"
   ],
   "note": "Holds as stated; the hypothesis (an unchanged network) is part of the claim, C123_violated_new_node shows that it cannot be dropped"
  }
 ]
}