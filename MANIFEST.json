{
 "claims": [
  {
   "property": "C01",
   "status": "proved",
   "theorems": [
    "Verif.Scheduler.C01_timers_fire_once_on_time_in_order"
   ],
   "note": "Assume-guarantee: monotone time and no running timer overdue by 2^30 us. Verif.Scheduler.C01_needs_in_time shows the assumption is needed."
  },
  {
   "property": "C02",
   "status": "proved",
   "theorems": [
    "Verif.Scheduler.C02_slots_never_leaked",
    "Verif.Scheduler.C02_handles_report_running"
   ],
   "note": "pf_scheduler_add is atomic in the model. C02_stale_handle_removes_other documents the hazard outside the handle discipline."
  },
  {
   "property": "C03",
   "status": "proved",
   "theorems": [
    "Verif.Scheduler.C03_delay_rounding"
   ],
   "note": "Tick period 1..2^31 us."
  },
  {
   "property": "C04",
   "status": "partial",
   "theorems": [
    "Verif.Layout.C04_fields_disjoint_partial",
    "Verif.Layout.C04_one_descriptor",
    "Verif.Layout.C04_fields_as_requested",
    "Verif.Layout.C04_total_within_payload",
    "Verif.Layout.C04_own_iocs_overlap",
    "Verif.Layout.C04_gap_accepted",
    "Verif.Layout.C04_only_requested"
   ],
   "note": "All fields of accepted layouts are inside the payload and disjoint, except a submodule's own consumer status against its own data/provider status, which the code never checks (C04_own_iocs_overlap is the witness)."
  },
  {
   "property": "C05",
   "status": "proved",
   "theorems": [
    "Verif.Ppm.C05_read_back",
    "Verif.Ppm.C05_isolation",
    "Verif.Ppm.C05_refused_changes_nothing",
    "Verif.Ppm.C05_accepts_exact_lengths",
    "Verif.Ppm.C05_defined",
    "Verif.Ppm.C54_frame_content_partial",
    "Verif.Ppm.good_of_accept"
   ],
   "note": "For sound layouts (Good); good_of_accept derives soundness from an accepted connect request, given no own-IOCS overlap (C04), distinct API numbers, payload <= 1476."
  },
  {
   "property": "C06",
   "status": "partial",
   "theorems": [
    "Verif.Ppm.C06_counter_partial",
    "Verif.Ppm.C06_before_wrap",
    "Verif.Ppm.C06_wrong_after_wrap"
   ],
   "note": "Proved for intervals dividing 2^16; false after wrap-around otherwise (witness)."
  },
  {
   "property": "C07",
   "status": "proved",
   "theorems": [
    "Verif.Cpm.C07_delivered_iff_ahead",
    "Verif.Cpm.C07_outdated_ignored"
   ],
   "note": "Before the first frame the code treats the previous counter as 65535, so a first frame with counter 61440..65535 is refused (C07_first_frame_refused)."
  },
  {
   "property": "C08",
   "status": "proved",
   "theorems": [
    "Verif.Cpm.C08_watchdog_iff",
    "Verif.Cpm.C08_never_overdue",
    "Verif.Cpm.C08_reported_once"
   ],
   "note": "Assumes the timer service accepted each restart of the supervision timer (otherwise an error is reported by the code)."
  },
  {
   "property": "C09",
   "status": "partial",
   "theorems": [
    "Verif.Cpm.C09_reads_last_delivered",
    "Verif.Cpm.C09_new_flag_partial",
    "Verif.Cpm.C09_new_flag_lost"
   ],
   "note": "The data part is proved for all histories. The new-flag part is false when consumer status reads intervene (C09_new_flag_lost); proved without them."
  },
  {
   "property": "C10",
   "status": "proved",
   "theorems": [
    "Verif.Cpm.C10_bad_frame_ignored"
   ],
   "note": ""
  },
  {
   "property": "C11",
   "status": "proved",
   "theorems": [
    "Verif.AlarmQueue.C11_queue_is_bounded_fifo",
    "Verif.AlarmQueue.C11_fifo_order_and_conservation",
    "Verif.AlarmQueue.C11_refused_iff_full"
   ],
   "note": ""
  },
  {
   "property": "C12",
   "status": "partial",
   "theorems": [
    "Verif.Alarm.C12_only_next",
    "Verif.Alarm.C12_repeated",
    "Verif.Alarm.C12_otherwise_nack_partial",
    "Verif.Alarm.C12_once_in_order",
    "Verif.Alarm.C12_blocked_not_answered",
    "Verif.Alarm.C12_example"
   ],
   "note": "At most once, in order, only on the next number: proved for every history. Missing: the NACK for other numbers, which fails once a malformed notification has blocked the endpoint (witness)."
  },
  {
   "property": "C13",
   "status": "partial",
   "theorems": [
    "Verif.Alarm.C13_exactly_once_partial",
    "Verif.Alarm.C13_example",
    "Verif.Alarm.C56_acknowledged_not_delivered"
   ],
   "note": "Composition of two full alarm endpoints over lossy, duplicating, order-preserving links. Hypotheses: acknowledgement numbers in retransmissions are less than 0x7fff frames old; for the prefix and confirmation claims the receiver could send its acknowledgements (the failure of which is a finding)."
  },
  {
   "property": "C14",
   "status": "partial",
   "theorems": [
    "Verif.Alarm.C14_bounded",
    "Verif.Alarm.C14_only_unacknowledged",
    "Verif.Alarm.C14_acknowledged",
    "Verif.Alarm.C14_aborted_partial",
    "Verif.Alarm.C14_lost_without_buffer",
    "Verif.Alarm.C14_example",
    "Verif.Alarm.C14_lost_example"
   ],
   "note": "Missing: the abort after the last retry when the first transmission found no buffer or no timer (witness that such an alarm is lost silently)."
  },
  {
   "property": "C15",
   "status": "proved",
   "theorems": [
    "Verif.Connect.C15_ar_block_verdict",
    "Verif.Connect.C15_ar_block_accepted_iff"
   ],
   "note": "Accepted exactly when all listed requirements hold; a refusal reports the first one that fails. Hypothesis: the request holds the announced bytes of the name (the block reader refuses it otherwise)."
  },
  {
   "property": "C16",
   "status": "partial",
   "theorems": [
    "Verif.Connect.C16_accepted_within_limits_partial",
    "Verif.Connect.C16_documented_accepted",
    "Verif.Connect.C16_iff_partial",
    "Verif.Connect.C16_csdu_unchecked",
    "Verif.Connect.C16_hold_time_wraps",
    "Verif.Connect.C16_vlan_2048_accepted",
    "Verif.Connect.C16_class5_unchecked",
    "Verif.Connect.C16_device_access_refused"
   ],
   "note": "The code violates the property: C_SDU length unchecked for RT classes 2, 3, 5; hold time product wraps at 32 bits; VLAN bit 11 ignored; RT class 5 unchecked (witnesses proved). All other limits proved, and the exact iff for RT class 1/UDP without wrap."
  },
  {
   "property": "C17",
   "status": "partial",
   "theorems": [
    "Verif.Connect.C17_alarm_block_verdict_partial",
    "Verif.Connect.C17_alarm_accepted_iff_partial",
    "Verif.Connect.C17_documented_accepted",
    "Verif.Connect.C17_vlan_256_accepted",
    "Verif.Connect.C17_device_access_refused"
   ],
   "note": "The upper four VLAN id bits are lost in an 8-bit field (witness proved); everything else exact."
  },
  {
   "property": "C18",
   "status": "partial",
   "theorems": [
    "Verif.Connect.C18_frame_ids_partial",
    "Verif.Connect.C18_terminates",
    "Verif.Connect.C18_class5_gets_zero"
   ],
   "note": "RT classes 1, 2, 3, UDP: range, uniqueness, minimality, exhaustion. RT class 5 gets frame id 0 (witness proved)."
  },
  {
   "property": "C19",
   "status": "partial",
   "theorems": [
    "Verif.Device.C19_owner_is_live_partial",
    "Verif.Device.C19_nothing_owned_after_end",
    "Verif.Device.C19_not_taken_away",
    "Verif.Device.C19_stale_owner",
    "Verif.Device.C19_example"
   ],
   "note": "Owner is live only if no connect was refused after its configuration was looked at (negation proved); the other two parts hold for all histories"
  },
  {
   "property": "C20",
   "status": "partial",
   "theorems": [
    "Verif.Device.C20_map_of_slots_partial",
    "Verif.Device.C20_no_duplicates",
    "Verif.Device.C20_failed_calls_have_effect",
    "Verif.Device.C20_example"
   ],
   "note": "Full map semantics of plug/pull; failed calls may change the tables (negation proved)"
  },
  {
   "property": "C21",
   "status": "partial",
   "theorems": [
    "Verif.Diag.C21_lists_never_corrupt",
    "Verif.Diag.C21_diagnosis_store_partial",
    "Verif.Diag.C21_error_type_zero_breaks",
    "Verif.Diag.C21_add_reports_failure_although_stored"
   ],
   "note": "List integrity for every history; refinement to a map for histories without standard diagnoses of the reserved error type 0. Error type 0, the returned result and pulling violate the property in the code: proved as counterexamples."
  },
  {
   "property": "C22",
   "status": "partial",
   "theorems": [
    "Verif.Diag.C22_pull_removes_diagnoses_partial",
    "Verif.Diag.C22_pull_leaks"
   ],
   "note": "First half proved. The storage is not released by the code: for every capacity a history is given after which nothing can be added."
  },
  {
   "property": "C23",
   "status": "partial",
   "theorems": [
    "Verif.Diag.C23_problem_indicator_partial",
    "Verif.Diag.C23_other_submodule_ignored",
    "Verif.Diag.C23_qualified_fault_ignored",
    "Verif.Diag.C23_present_before_connection_ignored"
   ],
   "note": "Proved right after a diagnosis call when the other submodules of the connection have no fault and there is no qualified fault; the general property is false for the code: three counterexamples."
  },
  {
   "property": "C24",
   "status": "partial",
   "theorems": [
    "Verif.Startup.C24_sequence_partial",
    "Verif.Startup.C24_data_partial",
    "Verif.Startup.C24_example",
    "Verif.Startup.C24_fails_stray_session",
    "Verif.Startup.C24_stray_event",
    "Verif.Startup.C24_fails_no_session",
    "Verif.Startup.C24_fails_refused",
    "Verif.Startup.C24_refused_stuck",
    "Verif.Startup.C24_fails_no_timer",
    "Verif.Startup.C24_no_timer_aborts",
    "Verif.Startup.C24_fails_negative_answer"
   ],
   "note": "Proved for all orderly runs (each request on the session of its connection, refusals carry a code, no negative answer marked done, a session and timers left); five kinds of other runs break it, each with a witness."
  },
  {
   "property": "C25",
   "status": "proved",
   "theorems": [
    "Verif.Startup.C25_supervision",
    "Verif.Startup.C25_example"
   ],
   "note": "For all runs: a connection that was accepted and is not in DATA has its supervision deadline at most the timeout after its last activity, and when the timer fires then it is aborted. Timer resources are assumed available."
  },
  {
   "property": "C26",
   "status": "partial",
   "theorems": [
    "Verif.Startup.C26_write_partial",
    "Verif.Startup.C26_owner_partial",
    "Verif.Startup.C26_refused",
    "Verif.Startup.C26_fails_unplugged"
   ],
   "note": "Phase and ownership proved for writes to plugged submodules; a write to a place with no plugged submodule is forwarded by any connection (C26_fails_unplugged)."
  },
  {
   "property": "C27",
   "status": "proved",
   "theorems": [
    "Verif.Startup.C27_retransmission",
    "Verif.Startup.C27_new_executed",
    "Verif.Startup.C27_example",
    "Verif.Startup.C27_new_example",
    "Verif.Startup.C27_first_number_lost"
   ],
   "note": "For all states: a repeated sequence number is answered with the stored result and nothing is executed; a different one is executed. The first request with number 0xFFFFFFFF on a fresh session is taken for a repetition (C27_first_number_lost)."
  },
  {
   "property": "C28",
   "status": "partial",
   "theorems": [
    "Verif.Rpc.C28_total",
    "Verif.Rpc.C28_in_order",
    "Verif.Rpc.C28_complete_partial",
    "Verif.Rpc.C28_fails_missing",
    "Verif.Rpc.C28_fails_reuse",
    "Verif.Rpc.C28_fails_sequence",
    "Verif.Rpc.C28_fails_ping",
    "Verif.Rpc.C28_fails_short_datagram"
   ],
   "note": "In-order reassembly proved for any number and length of fragments with other traffic in between; a fragmented request without error mark is proved to be the concatenation of fragments 0..n and to fit the buffer. The claim that incomplete requests are not processed is false (witnesses)."
  },
  {
   "property": "C29",
   "status": "partial",
   "theorems": [
    "Verif.Rpc.C29_fragments",
    "Verif.Rpc.C29_all",
    "Verif.Rpc.C29_single",
    "Verif.Rpc.C29_fits",
    "Verif.Rpc.C29_last_partial",
    "Verif.Rpc.C29_fails_multiple",
    "Verif.Rpc.C29_fails_released",
    "Verif.Rpc.C29_fails_limit"
   ],
   "note": "Sizes, numbers, bodies and their concatenation proved for all lengths and interleavings; the last mark is missing for exact multiples (proved), fragments stop when the session is released (proved), limit wraps (witness)."
  },
  {
   "property": "C30",
   "status": "proved",
   "theorems": [
    "Verif.Device.C30_distinct_identifiers",
    "Verif.Device.C30_arep_alias",
    "Verif.Device.C19_example"
   ],
   "note": "for tables of fewer than 65536 connections"
  },
  {
   "property": "C31",
   "status": "partial",
   "theorems": [
    "Verif.Wire.C31_readers_stay_inside",
    "Verif.Wire.C31_composition",
    "Verif.Wire.C31_tables_partial"
   ],
   "note": "Proved for all readers of the block reader and every combination of them. The readers of expected modules and of peer names write outside their destination for some inputs (C33, C69); for them and for the whole connect request it is proved with destinations large enough for every announced number."
  },
  {
   "property": "C32",
   "status": "proved",
   "theorems": [
    "Verif.Wire.C32_round_trip",
    "Verif.Wire.C32_records",
    "Verif.Wire.C32_bit_fields",
    "Verif.Wire.C32_writers_stay_inside",
    "Verif.Wire.C32_block"
   ],
   "note": "Integers, UUIDs, memory, block headers, RPC header, alarm header, control block, bit fields, in both byte orders; the status only in big-endian order, the only one in which it is read."
  },
  {
   "property": "C33",
   "status": "partial",
   "theorems": [
    "Verif.Wire.C33_tables_partial",
    "Verif.Wire.C33_only_submodules",
    "Verif.Wire.C33_overflow"
   ],
   "note": "The table sizes are kept for APIs and modules. They are not for submodules: refuted by C33_overflow for every table size."
  },
  {
   "property": "C34",
   "status": "partial",
   "theorems": [
    "Verif.Validate.C34_accepted_iff_partial",
    "Verif.Validate.C34_zero_with_gateway",
    "Verif.Validate.C34_example"
   ],
   "note": "Exact acceptance condition for all inputs. The claim that the all-zero setting requires a zero gateway is false (C34_zero_with_gateway)."
  },
  {
   "property": "C35",
   "status": "partial",
   "theorems": [
    "Verif.Validate.C35_accepted_iff_partial",
    "Verif.Validate.C35_documented_partial",
    "Verif.Validate.C35_accepts_empty_label",
    "Verif.Validate.C35_accepts_port_label",
    "Verif.Validate.C35_rejects_documented",
    "Verif.Validate.C35_example"
   ],
   "note": "Exact set of accepted names; agreement with the documented rules on an explicit set of names; three families of differences."
  },
  {
   "property": "C36",
   "status": "partial",
   "theorems": [
    "Verif.Cmina.C36_answer",
    "Verif.Cmina.C36_refused_partial",
    "Verif.Cmina.C36_fails",
    "Verif.Cmina.C36_example"
   ],
   "note": "Proved for every refused block of every reachable device except an IP block while a connection exists: that one is answered with an error and still takes effect (C36_fails)."
  },
  {
   "property": "C37",
   "status": "partial",
   "theorems": [
    "Verif.Cmina.C37_name_partial",
    "Verif.Cmina.C37_ip_partial",
    "Verif.Cmina.C37_fails_reload",
    "Verif.Cmina.C37_example"
   ],
   "note": "Proved for all histories in which the background worker stores the settings before the settings are read again; a reset with mode 0 before that loses a permanent setting (C37_fails_reload)."
  },
  {
   "property": "C38",
   "status": "partial",
   "theorems": [
    "Verif.Dcp.C38_exclusive_partial",
    "Verif.Dcp.C38_same",
    "Verif.Dcp.C38_takeover_partial",
    "Verif.Dcp.C38_period",
    "Verif.Dcp.C38_fails_full",
    "Verif.Dcp.C38_fails_nil",
    "Verif.Dcp.C38_example"
   ],
   "note": "Proved for all histories of Get, Set and Identify frames, timer runs and other changes, for stations with an address that is not all zeros (C38_fails_nil); release proved if the timers could be started (C38_fails_full: otherwise the device stays reserved)."
  },
  {
   "property": "C39",
   "status": "proved",
   "theorems": [
    "Verif.Signal.C39_delay",
    "Verif.Signal.C39_example"
   ],
   "note": ""
  },
  {
   "property": "C40",
   "status": "partial",
   "theorems": [
    "Verif.Dcp.C40_answers_partial",
    "Verif.Dcp.C40_fails_empty",
    "Verif.Dcp.C40_fails_overlong",
    "Verif.Dcp.C40_fails_ip",
    "Verif.Dcp.C40_fails_vendor",
    "Verif.Dcp.C40_fails_role",
    "Verif.Dcp.C40_fails_options",
    "Verif.Dcp.C40_fails_zero",
    "Verif.Dcp.C40_fails_long",
    "Verif.Dcp.C40_example"
   ],
   "note": "Equivalence proved for all non-empty lists of filters other than vendor, role, options, IP address on a little-endian machine, names above 240 bytes or with zeros, aliases above 255 bytes or with zeros; each exclusion has its failure theorem."
  },
  {
   "property": "C41",
   "status": "partial",
   "theorems": [
    "Verif.Signal.C41_three_flashes_partial",
    "Verif.Signal.C41_led_left_on",
    "Verif.Signal.C41_example"
   ],
   "note": "Proved while the scheduler has room; a failing timer start is ignored and leaves the LED on."
  },
  {
   "property": "C42",
   "status": "proved",
   "theorems": [
    "Verif.Store.C42_path",
    "Verif.Store.C42_load_iff",
    "Verif.Store.C42_roundtrip",
    "Verif.Store.C42_save_if_modified",
    "Verif.Store.C42_history",
    "Verif.Store.C42_example"
   ],
   "note": "The platform's file functions are the environment, see Store/File.lean."
  },
  {
   "property": "C43",
   "status": "partial",
   "theorems": [
    "Verif.Store.Worker.C43_no_lost_update_partial",
    "Verif.Store.Worker.C43_worker_becomes_idle",
    "Verif.Store.Worker.C43_im_update_lost",
    "Verif.Store.Worker.C43_im_update_lost_by_direct_save",
    "Verif.Store.Worker.C43_example"
   ],
   "note": "Proved for all interleavings for IP settings and port settings, and for I&M data without direct saves. With direct saves I&M updates can be lost."
  },
  {
   "property": "C44",
   "status": "proved",
   "theorems": [
    "Verif.LogBook.C44_newest_entries",
    "Verif.LogBook.C44_example"
   ],
   "note": ""
  },
  {
   "property": "C45",
   "status": "partial",
   "theorems": [
    "Verif.Im.C45_decides",
    "Verif.Im.C45_im0",
    "Verif.Im.C45_accepted",
    "Verif.Im.C45_readback_partial",
    "Verif.Im.C45_refused_partial",
    "Verif.Im.C45_stays",
    "Verif.Im.C45_always",
    "Verif.Im.C45_fails_im1",
    "Verif.Im.C45_fails_zero",
    "Verif.Im.C45_fails_room"
   ],
   "note": "Acceptance, storage, independence of the records and survival of restarts proved for all writes. Refused I&M 1 writes of 32 bytes or more change the data; zero bytes are read as spaces; with little room the location is missing."
  },
  {
   "property": "C46",
   "status": "proved",
   "theorems": [
    "Verif.Eth.C46_dispatch",
    "Verif.Eth.C46_never_another_handler",
    "Verif.Eth.C46_other_types",
    "Verif.Eth.C46_reads_beyond_short_frame",
    "Verif.Eth.C46_misuse",
    "Verif.Eth.C46_example"
   ],
   "note": "Dispatch for frames with any number of VLAN tags. Frames too short are read beyond their end (C46_reads_beyond_short_frame)."
  },
  {
   "property": "C47",
   "status": "partial",
   "theorems": [
    "Verif.Plug.C47_in_order",
    "Verif.Plug.C47_dropped",
    "Verif.Plug.C47_completes",
    "Verif.Plug.C47_fails_alarm",
    "Verif.Plug.C47_fails_inside",
    "Verif.Plug.C47_fails_answer"
   ],
   "note": "Order, one at a time and completion proved for all histories; if an alarm cannot be sent, or the application confirms inside its callback, all later submodules wait for ever."
  },
  {
   "property": "C48",
   "status": "partial",
   "theorems": [
    "Verif.Device.C48_report_complete_partial",
    "Verif.Device.C48_wrong_module_not_reported",
    "Verif.Device.C48_unknown_api_not_reported",
    "Verif.Device.C48_example",
    "Verif.Device.C48_example_unambiguous"
   ],
   "note": "false for modules of the wrong identity and unknown APIs (negation proved for all such cases)"
  },
  {
   "property": "C49",
   "status": "partial",
   "theorems": [
    "Verif.Alarm.C49_high_accepted_partial",
    "Verif.Alarm.C49_low_refused",
    "Verif.Alarm.C49_busy_aborts",
    "Verif.Alarm.C49_examples"
   ],
   "note": "Holds for high priority with no own frame outstanding; false for low priority and while an own frame is unacknowledged (witnesses; the second is even a crash of the device, C155)."
  },
  {
   "property": "C50",
   "status": "partial",
   "theorems": [
    "Verif.Device.C50_refused_connect_partial",
    "Verif.Device.C50_refused_connect_leaks",
    "Verif.Device.C50_example"
   ],
   "note": "connection table restored; ownership and alarm endpoints are not (negation proved)"
  },
  {
   "property": "C51",
   "status": "partial",
   "theorems": [
    "Verif.Ppm.C51_no_drift_partial",
    "Verif.Ppm.C51_interval",
    "Verif.Ppm.C51_stops_silently",
    "Verif.Ppm.C51_silent_forever"
   ],
   "note": "Exact schedule as long as transmissions succeed; a failed transmission ends sending silently (witness)."
  },
  {
   "property": "C52",
   "status": "partial",
   "theorems": [
    "Verif.Dcp.C52_terminates_partial",
    "Verif.Dcp.C52_inside_partial",
    "Verif.Dcp.C52_set_partial",
    "Verif.Dcp.C52_get_partial",
    "Verif.Dcp.C52_fails_outside",
    "Verif.Dcp.C52_fails_control",
    "Verif.Dcp.C52_fails_dropped",
    "Verif.Dcp.C52_fails_truncated",
    "Verif.Dcp.C52_example"
   ],
   "note": "Termination for all frames of up to 65000 bytes (with 20 readable bytes behind the frame); reads stay within two bytes behind the data; answers block by block for all Set requests up to 184 blocks and all Get requests whose answer fits. Failures as listed."
  },
  {
   "property": "C53",
   "status": "proved",
   "theorems": [
    "Verif.Layout.C53_table_never_overrun"
   ],
   "note": "Assumes the expected configuration is within its own limits (see C33)."
  },
  {
   "property": "C54",
   "status": "partial",
   "theorems": [
    "Verif.Ppm.C54_frame_content_partial",
    "Verif.Ppm.C54_gapfree",
    "Verif.Ppm.C54_gap_not_sent"
   ],
   "note": "Proved for fields within in_length, which is all fields of gap-free layouts; false for layouts with gaps (witness)."
  },
  {
   "property": "C55",
   "status": "partial",
   "theorems": [
    "Verif.Alarm.C55_spaced_partial",
    "Verif.Alarm.C55_stale_timer",
    "Verif.Alarm.C55_example"
   ],
   "note": "False because the timer of an acknowledged alarm keeps running (witness); holds when no timer runs at the start of each alarm."
  },
  {
   "property": "C56",
   "status": "partial",
   "theorems": [
    "Verif.Alarm.C56_acknowledged_delivered_partial",
    "Verif.Alarm.C56_acknowledged_not_delivered"
   ],
   "note": "False after a local failure to send the acknowledgement (witness); holds otherwise."
  },
  {
   "property": "C57",
   "status": "partial",
   "theorems": [
    "Verif.Alarm.C57_no_abort_partial",
    "Verif.Alarm.C57_alarm_after_ack_aborts"
   ],
   "note": "False while an own frame is unacknowledged (witness; it is even a crash of the device, C155); holds otherwise."
  },
  {
   "property": "C58",
   "status": "partial",
   "theorems": [
    "Verif.LogBook.C58_read_out_partial",
    "Verif.LogBook.C58_count_mismatch",
    "Verif.LogBook.C58_count_always_wrong_after_wrap"
   ],
   "note": "Termination, bounds and order proved; after wrapping the announced count is one too high."
  },
  {
   "property": "C59",
   "status": "partial",
   "theorems": [
    "Verif.Device.C59_end_frees_resources_partial",
    "Verif.Device.C59_endpoint_leak",
    "Verif.Device.C59_example"
   ],
   "note": "alarm endpoint is not freed for device access connections (negation proved)"
  },
  {
   "property": "C60",
   "status": "partial",
   "theorems": [
    "Verif.Device.C60_report_readable_partial",
    "Verif.Device.C60_missing_module_misread",
    "Verif.Device.C60_example"
   ],
   "note": "false for reports with a missing module (negation proved)"
  },
  {
   "property": "C61",
   "status": "proved",
   "theorems": [
    "Verif.Diag.C61_summary_flags_exact"
   ],
   "note": "All histories."
  },
  {
   "property": "C62",
   "status": "partial",
   "theorems": [
    "Verif.Startup.C62_no_crash_partial",
    "Verif.Startup.C62_fails_response",
    "Verif.Startup.C62_fails_read"
   ],
   "note": "Holds for peers that answer only on device-opened sessions and read application records only with a known UUID; one read packet or two other packets crash the device otherwise."
  },
  {
   "property": "C63",
   "status": "partial",
   "theorems": [
    "Verif.Startup.C63_linked_partial",
    "Verif.Startup.C63_no_dangling_partial",
    "Verif.Startup.C63_fails",
    "Verif.Startup.C63_steals_session"
   ],
   "note": "No dangling reference to a gone connection in any run; the connection keeps its session in orderly runs only."
  },
  {
   "property": "C64",
   "status": "partial",
   "theorems": [
    "Verif.Startup.C64_read_partial",
    "Verif.Startup.C64_fails"
   ],
   "note": "A read executed for a connection is executed for the right one; explicit reads with an unknown UUID are executed for none."
  },
  {
   "property": "C65",
   "status": "partial",
   "theorems": [
    "Verif.Wire.C65_expected_modules_partial",
    "Verif.Wire.C65_wrong_api"
   ],
   "note": "Proved for blocks whose modules name one API; refuted for two new APIs in one block."
  },
  {
   "property": "C66",
   "status": "partial",
   "theorems": [
    "Verif.Wire.C66_connect_request_partial",
    "Verif.Wire.C66_vlan_id"
   ],
   "note": "Proved without VLAN IDs above 2047 and blocks with several APIs; refuted for VLAN ID 2048."
  },
  {
   "property": "C67",
   "status": "proved",
   "theorems": [
    "Verif.Wire.C67_accepted_request"
   ],
   "note": "All byte strings."
  },
  {
   "property": "C68",
   "status": "partial",
   "theorems": [
    "Verif.Wire.C68_padding_partial",
    "Verif.Wire.C68_endless"
   ],
   "note": "Proved with room for the padding; refuted for a full buffer."
  },
  {
   "property": "C69",
   "status": "partial",
   "theorems": [
    "Verif.Wire.C69_peer_names_partial",
    "Verif.Wire.C69_station_name_overflow"
   ],
   "note": "Refuted for station names of 241 to 255 bytes."
  },
  {
   "property": "C70",
   "status": "partial",
   "theorems": [
    "Verif.Write.C70_inside_partial",
    "Verif.Write.C70_fails_wrap",
    "Verif.Write.C70_fails_short"
   ],
   "note": "Proved for records whose passed length does not exceed the request; two families of requests show that larger lengths are passed on."
  },
  {
   "property": "C71",
   "status": "partial",
   "theorems": [
    "Verif.Write.C71_in_order_partial",
    "Verif.Write.C71_fails_adjust",
    "Verif.Write.C71_fails_names"
   ],
   "note": "Proved for well-formed requests for existing connections and APIs; a block InterfaceAdjust repeats the preceding write, and a record for an unknown connection is answered with the names of the preceding one."
  },
  {
   "property": "C72",
   "status": "partial",
   "theorems": [
    "Verif.Write.C72_reported_partial",
    "Verif.Write.C72_accepted",
    "Verif.Write.C72_fails_args",
    "Verif.Write.C72_fails_marked",
    "Verif.Write.C72_fails_silent"
   ],
   "note": "A response without error and with a result block means that the record was accepted; the converse fails (argument length checked after the write; requests with missing fragments are carried out), and a block that is too long is answered without error."
  },
  {
   "property": "C73",
   "status": "partial",
   "theorems": [
    "Verif.Write.C73_ends_partial",
    "Verif.Write.C73_fails_endless"
   ],
   "note": "Proved if records longer than the request are refused; otherwise a request with length 2^32-64 is processed for ever."
  },
  {
   "property": "C74",
   "status": "partial",
   "theorems": [
    "Verif.Plug.C74_complete_partial",
    "Verif.Plug.C74_only",
    "Verif.Plug.C74_inside_partial",
    "Verif.Plug.C74_fails_index"
   ],
   "note": "Proved except for slots with a module of the wrong identity; there the array of submodules is indexed by the module, possibly behind its end."
  },
  {
   "property": "C75",
   "status": "partial",
   "theorems": [
    "Verif.Dcp.C75_answer_partial",
    "Verif.Dcp.C40_example",
    "Verif.Dcp.C75_one_at_a_time"
   ],
   "note": "Proved for the filters of C40_answers_partial. The second byte of the role is the low byte of another variable (1 instead of 0 on a little-endian machine with Hello enabled)."
  },
  {
   "property": "C76",
   "status": "partial",
   "theorems": [
    "Verif.Dcp.C76_name",
    "Verif.Dcp.C76_ip_partial",
    "Verif.Dcp.C76_fails",
    "Verif.Dcp.C76_example"
   ],
   "note": "Names: for all texts. Addresses: refused ones are reported all the same if there is a connection (C76_fails)."
  },
  {
   "property": "C77",
   "status": "partial",
   "theorems": [
    "Verif.Lldp.C77_any_frame",
    "Verif.Lldp.C77_lengths_partial",
    "Verif.Lldp.C77_fails_length"
   ],
   "note": "Termination and array bounds for all frames of up to 64000 bytes. Lengths: for frames in which a name that is too long does not follow a good one of the same kind (C77_fails_length) and whose management address is consistent."
  },
  {
   "property": "C78",
   "status": "proved",
   "theorems": [
    "Verif.Lldp.C78_understood"
   ],
   "note": "For all names of up to 240 bytes without zeros, both modes of the station name, with port names of up to 13 characters (the device always makes names of 8)."
  },
  {
   "property": "C79",
   "status": "partial",
   "theorems": [
    "Verif.Lldp.C79_structure",
    "Verif.Lldp.C79_fields_partial",
    "Verif.Lldp.C79_cut_partial",
    "Verif.Lldp.C79_fails_management"
   ],
   "note": "Refinement to a table of what each field says, for all frames without inconsistent management address or organisation field below four bytes; C79_fails_management: such an address swallows the field behind it."
  },
  {
   "property": "C80",
   "status": "partial",
   "theorems": [
    "Verif.Lldp.C80_last_frame_partial",
    "Verif.Lldp.C80_time",
    "Verif.Lldp.C80_forgotten_partial",
    "Verif.Lldp.C80_kept",
    "Verif.Lldp.C80_fails_long"
   ],
   "note": "Refinement over all histories. A time to live above 60 seconds is not watched, nor is any if no timer is free (C80_fails_long)."
  },
  {
   "property": "C81",
   "status": "partial",
   "theorems": [
    "Verif.Lldp.C81_alias_partial",
    "Verif.Lldp.C81_fails_mac",
    "Verif.Lldp.C81_heard"
   ],
   "note": "Equivalence for neighbours that are not in legacy mode without a station name (C81_fails_mac)."
  },
  {
   "property": "C82",
   "status": "partial",
   "theorems": [
    "Verif.Pdport.C82_judged_partial",
    "Verif.Pdport.C82_no_false_alarm_partial",
    "Verif.Pdport.C82_fails_prefix",
    "Verif.Pdport.C82_fails_stale"
   ],
   "note": "For all histories in which timers can be started and diagnoses added. Missing: names are compared up to the shorter one only, so a neighbour with a longer port name or a shorter station name is accepted (C82_fails_prefix); diagnoses for names stay when the neighbour is gone (C82_fails_stale)."
  },
  {
   "property": "C83",
   "status": "partial",
   "theorems": [
    "Verif.Pdport.C83_check_partial",
    "Verif.Pdport.C83_adjust_partial",
    "Verif.Pdport.C83_interface_partial",
    "Verif.Pdport.C83_check_accepted",
    "Verif.Pdport.C83_adjust_accepted",
    "Verif.Pdport.C83_refused",
    "Verif.Pdport.C83_fails_all",
    "Verif.Pdport.C83_fails_slot",
    "Verif.Pdport.C83_fails_length",
    "Verif.Pdport.C83_fails_interface"
   ],
   "note": "Write then read for all contents, ports and answer buffers with room. Missing: reading the checks of all ports never ends (C83_fails_all); the slot is not looked at (C83_fails_slot); a length in the answer is too large by two (C83_fails_length); an interface record that is cut off is accepted (C83_fails_interface)."
  },
  {
   "property": "C84",
   "status": "partial",
   "theorems": [
    "Verif.Pdport.C84_follows_partial",
    "Verif.Pdport.C84_when",
    "Verif.Pdport.C84_silent",
    "Verif.Pdport.C84_fails_reset",
    "Verif.Pdport.C84_fails_timer"
   ],
   "note": "Invariant over all histories with working timers and without resets. Missing: a port that was silenced stays silent after a reset that removes the adjustment (C84_fails_reset); one timer that cannot be started ends sending for ever (C84_fails_timer)."
  },
  {
   "property": "C85",
   "status": "partial",
   "theorems": [
    "Verif.Pdport.C85_remembered_partial",
    "Verif.Pdport.C85_survives",
    "Verif.Pdport.C85_fails_interface",
    "Verif.Pdport.C85_fails_ports"
   ],
   "note": "Refinement to a memory with current and stored settings, for all histories. Missing: the naming mode of the interface is not stored (C85_fails_interface); more than four ports (C85_fails_ports)."
  },
  {
   "property": "C86",
   "status": "proved",
   "theorems": [
    "Verif.Pdport.C86_each_once",
    "Verif.Pdport.C86_loops",
    "Verif.Pdport.C86_in_turn",
    "Verif.Pdport.C86_subslots",
    "Verif.Pdport.C86_list"
   ],
   "note": "For any number of ports; the subslots for up to 0x7000 ports, the list for up to 16."
  },
  {
   "property": "C87",
   "status": "partial",
   "theorems": [
    "Verif.DiagRead.C87_diagnosis_read_partial",
    "Verif.DiagRead.C87_reports_unique",
    "Verif.DiagRead.C87_indices",
    "Verif.DiagRead.C87_each_is_reported",
    "Verif.DiagRead.C87_not_reported",
    "Verif.DiagRead.C87_not_reported_example",
    "Verif.DiagRead.C87_qualified_not_in_severity_lists",
    "Verif.DiagRead.C87_full_buffer_cuts",
    "Verif.DiagRead.C87_example"
   ],
   "note": "For all histories, tables, scopes and buffers with room. Missing: identifier 0 and manufacturer diagnoses without data are never reported (C87_not_reported), qualified severities are not in the fault and maintenance lists, and an answer that does not fit is cut without notice (C87_full_buffer_cuts). The expected configuration of the connection is assumed to name no submodule twice."
  },
  {
   "property": "C88",
   "status": "proved",
   "theorems": [
    "Verif.Ident.C88_real_identification",
    "Verif.Ident.C88_connection",
    "Verif.Ident.C88_apis",
    "Verif.Ident.C88_readable",
    "Verif.Ident.C88_example"
   ],
   "note": "For all histories of calls and table sizes, in terms of the view of the tables that C20 is about. The expected configuration of a connection is assumed to name no place twice."
  },
  {
   "property": "C89",
   "status": "partial",
   "theorems": [
    "Verif.Ident.C89_expected_identification_partial",
    "Verif.Ident.C89_fails_without_connection",
    "Verif.Ident.C89_example"
   ],
   "note": "On a connection, for all expected configurations that name no place twice. Missing: a read without connection uses a null pointer (C89_fails_without_connection)."
  },
  {
   "property": "C90",
   "status": "partial",
   "theorems": [
    "Verif.Ident.C90_filter_partial",
    "Verif.Ident.C90_only_dap"
   ],
   "note": "The first submodule of the DAP is listed. Missing: no other submodule is ever listed; if that submodule is not plugged there are two blocks without contents."
  },
  {
   "property": "C91",
   "status": "proved",
   "theorems": [
    "Verif.Read.C91_read_answer",
    "Verif.Read.C91_unknown_index",
    "Verif.Read.C91_request_understood"
   ],
   "note": "For every function that builds a record as described by Makes (C87 to C90 show this for diagnosis and identification records)."
  },
  {
   "property": "C92",
   "status": "partial",
   "theorems": [
    "Verif.Read.C92_application_record_partial",
    "Verif.Read.C92_no_callback",
    "Verif.Read.C92_maximum_too_large",
    "Verif.Read.C92_failure_reported_as_success",
    "Verif.Read.C92_no_connection"
   ],
   "note": "Proved for reads over a connection and data that fit. Missing, and shown to fail: the last 64 bytes of the maximum, callbacks that fail without setting an error, reads without a connection (null pointer)."
  },
  {
   "property": "C93",
   "status": "partial",
   "theorems": [
    "Verif.Read.C93_refused_without_reason",
    "Verif.Read.C93_reason_kept_partial"
   ],
   "note": "The reason is kept in the session but nothing is appended to the response."
  },
  {
   "property": "C94",
   "status": "proved",
   "theorems": [
    "Verif.Records.C94_physical_record",
    "Verif.Records.C94_no_record"
   ],
   "note": "Up to 0x7000 ports. The state of ports and interface is given as values."
  },
  {
   "property": "C95",
   "status": "partial",
   "theorems": [
    "Verif.Records.C95_every_read_ends_false",
    "Verif.Records.C95_interface_never_ends_iff",
    "Verif.Records.C95_connections_never_end",
    "Verif.Records.C95_device_never_ends",
    "Verif.Records.C95_reads_end_partial"
   ],
   "note": "The claim is false: one request without a connection hangs the device. Proved for responses that begin and end at multiples of four bytes (except for the record of all ports together), and with room in C94 and C96."
  },
  {
   "property": "C96",
   "status": "proved",
   "theorems": [
    "Verif.Records.C96_connections_of_device",
    "Verif.Records.C96_record_determines_connections",
    "Verif.Records.C96_own_connection"
   ],
   "note": "Connections whose AR UUID or object UUID begins with four zero bytes are not listed; see findings."
  },
  {
   "property": "C97",
   "status": "proved",
   "theorems": [
    "Verif.Records.C97_input_data",
    "Verif.Records.C97_output_data"
   ],
   "note": "The data are given as values. The substitute value in the output record always repeats the current data; see findings."
  },
  {
   "property": "C98",
   "status": "partial",
   "theorems": [
    "Verif.Epm.C98_enumeration",
    "Verif.Epm.C98_answered",
    "Verif.Epm.C98_next",
    "Verif.Epm.C98_timeout",
    "Verif.Epm.C98_timer",
    "Verif.Epm.C98_other_request_skips_false",
    "Verif.Epm.C98_takes_session_false"
   ],
   "note": "Proved for clients that only ask for the next of all endpoints. The code violates the claim for clients that also send other requests, and for connections whose activity is used for a lookup."
  },
  {
   "property": "C99",
   "status": "partial",
   "theorems": [
    "Verif.Epm.C99_answer",
    "Verif.Epm.C99_device_address",
    "Verif.Epm.C99_big_endian_false",
    "Verif.Epm.C99_handle"
   ],
   "note": "Exact bytes of every answer; on big-endian processors port and IP address are reversed, so the claim holds only for little-endian ones."
  },
  {
   "property": "C100",
   "status": "proved",
   "theorems": [
    "Verif.Epm.C100_annotation",
    "Verif.Epm.C100_readable"
   ],
   "note": "Product names of at most 25 and order numbers of at most 20 characters, as the configuration allows."
  },
  {
   "property": "C101",
   "status": "partial",
   "theorems": [
    "Verif.Rpc.C101_kept_iff",
    "Verif.Rpc.C101_exhaustion_false"
   ],
   "note": "Exact condition for a datagram of a new activity to keep a session; the claim fails for stray fragments, unknown types and unknown interfaces, and the table can be exhausted for ever."
  },
  {
   "property": "C102",
   "status": "partial",
   "theorems": [
    "Verif.ConnRsp.C102_answer_partial",
    "Verif.ConnRsp.C102_frame_ids",
    "Verif.ConnRsp.C102_answer_determines",
    "Verif.ConnRsp.C102_no_endpoint_accepted_false"
   ],
   "note": "Exact bytes of the answer, values and readability proved. The code accepts a connection also if no alarm endpoint is free (reference 0), so that part of the claim is false."
  },
  {
   "property": "C103",
   "status": "partial",
   "theorems": [
    "Verif.ConnRsp.C103_refused_partial",
    "Verif.ConnRsp.C103_checks_with_zeros",
    "Verif.ConnRsp.C103_application_with_blocks",
    "Verif.ConnRsp.C103_refused_without_blocks_false"
   ],
   "note": "True for requests refused before CMDEV and for failures of the start (except a missing timer, for which no answer is sent, see C104); the code violates the claim for every request refused by the checks of CMDEV or by the application."
  },
  {
   "property": "C104",
   "status": "partial",
   "theorems": [
    "Verif.ConnRsp.C104_answered_partial",
    "Verif.ConnRsp.C104_sent_partial",
    "Verif.ConnRsp.C104_never_ends_iff",
    "Verif.ConnRsp.C104_every_connect_answered_false",
    "Verif.ConnRsp.C104_fails_no_timer",
    "Verif.ConnRsp.C104_lost_only",
    "Verif.ConnRsp.Demo.lost"
   ],
   "note": "Proved except in two cases in which the code violates the claim: advanced start-up mode with too little room (exactly characterised without vendor blocks, with a family of witnesses), and an accepted request when no timer is left, whose answer is lost with the session (exactly characterised)."
  },
  {
   "property": "C105",
   "status": "partial",
   "theorems": [
    "Verif.AlarmPdu.C105_alarm_says_what_was_asked_partial",
    "Verif.AlarmPdu.C105_small_identifications",
    "Verif.AlarmPdu.C105_accepted_iff",
    "Verif.AlarmPdu.C105_submodule_ident_wrong",
    "Verif.AlarmPdu.C105_identifier_zero_lost"
   ],
   "note": "Exact bytes of the frame for all kinds of alarms. The code violates the claim for submodule identifications of 65536 and more (only 16 bits are kept), for every alarm; and for manufacturer diagnoses with identifier 0."
  },
  {
   "property": "C106",
   "status": "proved",
   "theorems": [
    "Verif.AlarmPdu.C106_summary_describes_diagnoses",
    "Verif.AlarmPdu.C106_summary_unique"
   ],
   "note": "For all histories of the diagnosis store (area Diag); the summary is determined by the specification."
  },
  {
   "property": "C107",
   "status": "partial",
   "theorems": [
    "Verif.AlarmPdu.C107_alarm_frames_fit_partial",
    "Verif.AlarmPdu.C107_controller_limit_exceeded",
    "Verif.AlarmPdu.C107_short_alarms_refused"
   ],
   "note": "Frames fit and length fields are right. The code compares the payload, not the contents, with the limit of the controller, and for standard diagnoses the size of an internal structure: both directions of the last part are false."
  },
  {
   "property": "C108",
   "status": "partial",
   "theorems": [
    "Verif.AlarmPdu.C108_status_only_for_acknowledgements_partial",
    "Verif.AlarmPdu.C108_status_wrong",
    "Verif.AlarmPdu.C108_status_lost"
   ],
   "note": "The code reads the status from the wrong place: for every acknowledgement the application is told the alarm type and half of the API number."
  },
  {
   "property": "C109",
   "status": "partial",
   "theorems": [
    "Verif.AlarmPdu.C109_received_alarm_told_partial",
    "Verif.AlarmPdu.C109_without_identifier_wrong",
    "Verif.AlarmPdu.C109_length_not_checked"
   ],
   "note": "Proved for notifications with identifier and right length field; the code violates the claim for notifications without identifier in padded frames, and does not check the length field."
  },
  {
   "property": "C110",
   "status": "proved",
   "theorems": [
    "Verif.AlarmPdu.C110_frame_goes_to_named_connection",
    "Verif.AlarmPdu.C110_short_frames_ignored"
   ],
   "note": "For all tables and frames."
  },
  {
   "property": "C111",
   "status": "proved",
   "theorems": [
    "Verif.AlarmPdu.C111_acknowledgement_names_alarm",
    "Verif.AlarmPdu.C111_answer_repeats_notification",
    "Verif.AlarmPdu.C111_sequence_numbers"
   ],
   "note": "Exact bytes of the frame, and round trip with received notifications."
  },
  {
   "property": "C112",
   "status": "partial",
   "theorems": [
    "Verif.AlarmPdu.C112_only_named_endpoint_partial",
    "Verif.AlarmPdu.C112_sender_not_checked"
   ],
   "note": "The code checks the reference only, neither the address nor the reference of the sender: parametric counterexample with an error unit, which ends the connection."
  },
  {
   "property": "C113",
   "status": "proved",
   "theorems": [
    "Verif.Control.C113_release",
    "Verif.Control.C113_release_safe"
   ],
   "note": "For all byte sequences; exact bytes of the answer."
  },
  {
   "property": "C114",
   "status": "partial",
   "theorems": [
    "Verif.Control.C114_violation_key_length",
    "Verif.Control.C114_violation_code",
    "Verif.Control.C113_release"
   ],
   "note": "The code violates the claim: the length is compared with the length of the device's own answer, the session key is not looked at, and unknown blocks are answered with the code of connect requests. What is checked is in C113_release."
  },
  {
   "property": "C115",
   "status": "proved",
   "theorems": [
    "Verif.Control.C115_dcontrol",
    "Verif.Control.C115_one_block",
    "Verif.Control.C115_dcontrol_safe"
   ],
   "note": "For all byte sequences. If there are several blocks one of them is taken. A request with a PrmBegin block (0x0118) is treated as parameter end. The answer can be missing, see C119."
  },
  {
   "property": "C116",
   "status": "partial",
   "theorems": [
    "Verif.Control.C116_repetition_partial",
    "Verif.Control.C116_violation"
   ],
   "note": "Repetitions are answered the same, byte by byte. On a new session the sequence number 0xFFFFFFFF is always taken for a repetition: the request is answered positively though nothing is done."
  },
  {
   "property": "C117",
   "status": "proved",
   "theorems": [
    "Verif.Control.C117_ready_request"
   ],
   "note": "Exact bytes of the buffer, for all differences that fit it."
  },
  {
   "property": "C118",
   "status": "partial",
   "theorems": [
    "Verif.Control.C118_confirmation_partial",
    "Verif.Control.C118_violation"
   ],
   "note": "Length, type and command are checked; the connection and session key in the response are not compared (parametric counterexample)."
  },
  {
   "property": "C119",
   "status": "partial",
   "theorems": [
    "Verif.Control.C119_violation",
    "Verif.Control.C115_dcontrol"
   ],
   "note": "C115_dcontrol: answered unless the call ends the session. If the call aborts the connection over whose session the request came, the session is cleared before the answer is sent."
  },
  {
   "property": "C120",
   "status": "partial",
   "theorems": [
    "Verif.Diag.C120_two_tables_partial",
    "Verif.Diag.C120_told_stays",
    "Verif.Diag.C120_error_type_zero_mixes"
   ],
   "note": "Refinement to two maps for all histories in which no standard diagnosis is added with the reserved error type 0; with error type 0 the tables mix (counterexample)."
  },
  {
   "property": "C121",
   "status": "proved",
   "theorems": [
    "Verif.Snmp.C121_history",
    "Verif.Snmp.C121_answer",
    "Verif.Snmp.C121_name_stays",
    "Verif.Snmp.C121_contact_stays",
    "Verif.Snmp.C121_location_stays",
    "Verif.Snmp.C121_reset"
   ],
   "note": "Simulation with a history of what was told; restarts with failing files included. Calls of one function are not interrupted by others."
  },
  {
   "property": "C122",
   "status": "partial",
   "theorems": [
    "Verif.Snmp.C122_agree_partial",
    "Verif.Snmp.C122_fails_reset",
    "Verif.Snmp.C122_fails_refused",
    "Verif.Snmp.C122_fails_restart"
   ],
   "note": "Proved for histories without three cases in which the code violates the claim: reset of the application data only, an I&M 1 write that is refused because of its length, and a restart before the I&M file was written."
  },
  {
   "property": "C123",
   "status": "partial",
   "theorems": [
    "Verif.Snmp.C123_bits",
    "Verif.Snmp.C123_link_partial",
    "Verif.Snmp.C123_fails_order",
    "Verif.Snmp.C123_fails_frame"
   ],
   "note": "The encoding loses nothing, but each capability is shown under the number 15 - k instead of k: the constants have the order of the LLDP field."
  },
  {
   "property": "C124",
   "status": "proved",
   "theorems": [
    "Verif.Snmp.C124_neighbour",
    "Verif.Snmp.C124_own"
   ],
   "note": "Over all histories (area Lldp). The lengths of the names are those that the parser stored (see C77)."
  },
  {
   "property": "C125",
   "status": "proved",
   "theorems": [
    "Verif.Snmp.C125_description",
    "Verif.Snmp.C125_chassis",
    "Verif.Snmp.C125_annotation",
    "Verif.Snmp.C125_distinct"
   ],
   "note": "For names that fit the configuration and contain no zero. snprintf is modelled for the four conversions used."
  },
  {
   "property": "C126",
   "status": "partial",
   "theorems": [
    "Verif.Dcp.C126_hello_partial",
    "Verif.Dcp.C126_fails_info",
    "Verif.Dcp.C126_fails_role",
    "Verif.Dcp.C126_fails_endian"
   ],
   "note": "The complete frame for all names and addresses; the code says that the address is not set, leaves out the role, and on a big-endian machine says initiative 0."
  },
  {
   "property": "C127",
   "status": "proved",
   "theorems": [
    "Verif.Dcp.C127_at_most",
    "Verif.Dcp.C127_says",
    "Verif.Dcp.C127_stops",
    "Verif.Dcp.C127_goes_on"
   ],
   "note": "Time of a timer run is the current_time given to pf_scheduler_tick; the interval is the one after pf_scheduler_sanitize_delay (area Scheduler). A timer or buffer that cannot be had is part of at_most, says and stops."
  },
  {
   "property": "C128",
   "status": "partial",
   "theorems": [
    "Verif.Ppm.C128_status_partial",
    "Verif.Ppm.C128_call",
    "Verif.Ppm.C128_fails_before",
    "Verif.Ppm.C128_example"
   ],
   "note": "Every frame says what was told since its connection was made; a state told before the connection is made is lost."
  },
  {
   "property": "C129",
   "status": "partial",
   "theorems": [
    "Verif.Sock.C129_sockets_partial",
    "Verif.Sock.C129_fails_epm",
    "Verif.Sock.C129_fails_orphan",
    "Verif.Sock.C129_example"
   ],
   "note": "All histories except those with the two faults in the code: an endpoint mapper request with the activity UUID of an own request, and a fragmented answer in a session without connection that is not acknowledged."
  },
  {
   "property": "C130",
   "status": "partial",
   "theorems": [
    "Verif.Sock.C130_ready_partial",
    "Verif.Sock.C130_fails_answer",
    "Verif.Sock.C130_fails_open",
    "Verif.Sock.C130_fails_send",
    "Verif.Sock.C130_fails_cross",
    "Verif.Sock.C130_example"
   ],
   "note": "Holds while packets with the UUID of the request end the session, sending works, and packets of other sessions do not come on its socket; the code gives up silently otherwise."
  },
  {
   "property": "C131",
   "status": "proved",
   "theorems": [
    "Verif.Sock.C131_uuids",
    "Verif.Sock.C131_example"
   ],
   "note": "Session numbers start again after a restart; then UUIDs differ only by the time stamp."
  },
  {
   "property": "C132",
   "status": "proved",
   "theorems": [
    "Verif.Lan.C132_write",
    "Verif.Lan.C132_read",
    "Verif.Lan.C132_round_trip",
    "Verif.Lan.C132_is_memcpy"
   ],
   "note": ""
  },
  {
   "property": "C133",
   "status": "partial",
   "theorems": [
    "Verif.Lan.C133_apart",
    "Verif.Lan.C133_returned_partial",
    "Verif.Lan.C133_safe",
    "Verif.Lan.C133_open_partial",
    "Verif.Lan.C133_no_frame_ends_process",
    "Verif.Lan.C133_no_number_not_refused",
    "Verif.Lan.C133_failed_start_leaks",
    "Verif.Lan.C133_leak_exhausts"
   ],
   "note": "Sharing is excluded for all histories. Return of read lists holds if no start fails; the code leaks them otherwise, ends the process when frames run out, and goes on with number 0xFFFF when numbers run out."
  },
  {
   "property": "C134",
   "status": "partial",
   "theorems": [
    "Verif.Lan.C134_own_entry_partial",
    "Verif.Lan.C134_disjoint",
    "Verif.Lan.C134_inside",
    "Verif.Lan.C134_outside",
    "Verif.Lan.C134_two_apis"
   ],
   "note": "Holds for slots and subslots inside the tables of the driver and one API; the code ends the process or writes outside the table otherwise, and maps only one of two APIs."
  },
  {
   "property": "C135",
   "status": "partial",
   "theorems": [
    "Verif.Lan.Interval.C135_send_partial",
    "Verif.Lan.Interval.C135_receive",
    "Verif.Lan.Interval.C135_send_overflows",
    "Verif.Lan.Interval.C135_overflow_accepted"
   ],
   "note": "Receiving for all accepted parameters; sending up to a product of 2147 only, beyond the code overflows a signed integer."
  },
  {
   "property": "C136",
   "status": "partial",
   "theorems": [
    "Verif.Lan.Watch.C136_aborts_iff",
    "Verif.Lan.Watch.C136_silence_partial",
    "Verif.Lan.Watch.C136_alive",
    "Verif.Lan.Watch.C136_once",
    "Verif.Lan.Watch.C136_starts",
    "Verif.Lan.Watch.C136_silence_after_stop",
    "Verif.Lan.Watch.C136_counter_wrap",
    "Verif.Lan.Watch.C136_left_over_timers"
   ],
   "note": "When exactly the code aborts is proved for all histories. It does not abort when the last known status says stopped or problem, and old timers make a new connection expire early."
  },
  {
   "property": "C137",
   "status": "partial",
   "theorems": [
    "Verif.Lan.Values.C137_data_partial",
    "Verif.Lan.Values.C137_status",
    "Verif.Lan.Values.C137_first_values",
    "Verif.Lan.Values.C137_iocs_not_sent",
    "Verif.Lan.Values.C137_iops_refused",
    "Verif.Lan.Values.C137_read_back",
    "Verif.Lan.Values.C137_iocs_always_good"
   ],
   "note": "Data, IOPS (outside the device access point, SRAM) and data status; the code does not send changes of the consumer status, and reading back is wrong."
  },
  {
   "property": "C138",
   "status": "partial",
   "theorems": [
    "Verif.Lan.Values.C138_kept_partial",
    "Verif.Lan.Values.C138_one_table",
    "Verif.Lan.Values.C138_slot_outside"
   ],
   "note": "One table is used for inputs and outputs of all APIs, without a check of the slot."
  },
  {
   "property": "C139",
   "status": "proved",
   "theorems": [
    "Verif.Conc.C139_frame",
    "Verif.Conc.C139_read",
    "Verif.Conc.C139_order",
    "Verif.Conc.C139_setData",
    "Verif.Conc.C139_copy",
    "Verif.Conc.C139_no_deadlock"
   ],
   "note": ""
  },
  {
   "property": "C140",
   "status": "partial",
   "theorems": [
    "Verif.Conc.Recv.C140_read_partial",
    "Verif.Conc.Recv.C140_no_deadlock_partial",
    "Verif.Conc.Recv.C140_tagged"
   ],
   "note": "Proved for frames without VLAN tag. For tagged frames the code violates it: the position of the data is stored after the lock is released."
  },
  {
   "property": "C141",
   "status": "partial",
   "theorems": [
    "Verif.Conc.Recv.C141_close_partial",
    "Verif.Conc.Recv.C141_ends_partial",
    "Verif.Conc.Recv.C141_destroyed_lock",
    "Verif.Conc.Recv.C141_double_free",
    "Verif.Conc.Recv.C141_leak"
   ],
   "note": "Proved if no frame is being received when closing begins. Otherwise the code violates it: closing does not take the lock."
  },
  {
   "property": "C142",
   "status": "partial",
   "theorems": [
    "Verif.Device.C142_accepted_partial",
    "Verif.Device.C142_unknown_api_accepted",
    "Verif.Device.C142_example"
   ],
   "note": "Proved for the expected APIs that the device has or can create. The code violates it for others: an API that cannot be created because the table is full is passed over and the connection is accepted."
  },
  {
   "property": "C143",
   "status": "proved",
   "theorems": [
    "Verif.Shared.C143_others_untouched",
    "Verif.Shared.C143_frame_content",
    "Verif.Shared.C143_set_accepted",
    "Verif.Shared.C143_output_data",
    "Verif.Shared.C143_one_controller",
    "Verif.Shared.C143_example",
    "Verif.Shared.C143_stale_owner_blocks"
   ],
   "note": "Control means the owner stored in the plugged submodule. Frame content for fields within the transmitted part, see C54. C143_stale_owner_blocks shows a consequence of the stale owner of C19 for the application."
  },
  {
   "property": "C144",
   "status": "proved",
   "theorems": [
    "Verif.Rx.C144_dispatch",
    "Verif.Rx.C144_example"
   ],
   "note": "The table of handlers has PF_ETH_MAX_MAP entries; the number of CRs of all connections together is below the number of frame IDs of an RT class."
  },
  {
   "property": "C145",
   "status": "partial",
   "theorems": [
    "Verif.Rx.C145_dispatch_partial",
    "Verif.Rx.C145_example_good",
    "Verif.Rx.C145_identify_lost",
    "Verif.Rx.C145_shared_id",
    "Verif.Rx.C145_endpoint_leak",
    "Verif.Rx.C145_failed_start"
   ],
   "note": "Proved for histories in which the frame IDs of running connections are distinct and not those of DCP or alarms, each IO connection finds a free alarm endpoint and no start fails. The device does not enforce these: counterexamples are proved."
  },
  {
   "property": "C146",
   "status": "proved",
   "theorems": [
    "Verif.Startup.C146_ends",
    "Verif.Startup.C146_cancel_other",
    "Verif.Startup.C146_example"
   ],
   "note": "For connections reported to the application; one that was refused without error code is not (C24)."
  },
  {
   "property": "C147",
   "status": "proved",
   "theorems": [
    "Verif.Startup.C147_uuids_differ",
    "Verif.Startup.C146_example"
   ],
   "note": ""
  },
  {
   "property": "C148",
   "status": "proved",
   "theorems": [
    "Verif.Startup.C148_factory_reset",
    "Verif.Startup.C148_abort_active",
    "Verif.Startup.C148_number",
    "Verif.Startup.C148_example"
   ],
   "note": "A device access connection refused without error code (see C24) was never reported; pnet_factory_reset leaves its entry in use, the DCP requests free it."
  },
  {
   "property": "C149",
   "status": "partial",
   "theorems": [
    "Verif.Store.C149_removed_partial",
    "Verif.Store.C149_more_ports",
    "Verif.Store.C149_example"
   ],
   "note": "Proved for up to four physical ports. A stack built for more than four ports stops at an assertion (no file name for port 5)."
  },
  {
   "property": "C150",
   "status": "proved",
   "theorems": [
    "Verif.Init.C150_valid_iff",
    "Verif.Init.C150_init",
    "Verif.Init.C150_refused",
    "Verif.Init.C150_fails_null_name",
    "Verif.Init.C150_example"
   ],
   "note": "The name of the main interface must not be a NULL pointer: it is not checked (C150_fails_null_name)."
  },
  {
   "property": "C151",
   "status": "partial",
   "theorems": [
    "Verif.Init.C151_partial",
    "Verif.Init.C151_fails",
    "Verif.Init.C151_example"
   ],
   "note": "False: if the main interface is opened and a later interface, a MAC address or SNMP fails, the memory is freed while the main interface keeps it as callback argument (C151_fails). Holds if the configuration is refused or the main interface cannot be opened."
  },
  {
   "property": "C152",
   "status": "partial",
   "theorems": [
    "Verif.Res.C152_returned_partial",
    "Verif.Res.C152_all_ended_partial",
    "Verif.Res.C152_one_timer_partial",
    "Verif.Res.C152_fails_leak",
    "Verif.Res.C152_fails_two_timers",
    "Verif.Res.C152_example"
   ],
   "note": "Proved as long as no start fails. A start that fails for want of memory or timers leaks what it took before (C152_fails_leak, C152_fails_two_timers)."
  },
  {
   "property": "C153",
   "status": "partial",
   "theorems": [
    "Verif.Budget.C153_enough_partial",
    "Verif.Budget.C153_owners_partial",
    "Verif.Budget.C153_sizes",
    "Verif.Budget.C153_fails_sizes",
    "Verif.Budget.C153_fails_alarms",
    "Verif.Budget.C153_fails_aborts"
   ],
   "note": "Proved for limits with 8*PNET_MAX_AR <= PNET_MAX_AR*PNET_MAX_CR + 2 as long as no timer is left behind, and exactly for these (C153_sizes). For other limits the table is too small (C153_fails_sizes); with any limits acknowledged alarms (C153_fails_alarms) and start-ups that end after the end of parameterisation (C153_fails_aborts) leave timers running until the table is full."
  },
  {
   "property": "C154",
   "status": "partial",
   "theorems": [
    "Verif.Check.C154_refusal_names_fault_partial",
    "Verif.Check.C154_answer_names_fault_partial",
    "Verif.Check.C154_error_is_true",
    "Verif.Check.C154_faultless_accepted",
    "Verif.Check.C154_accepted_meets_conditions",
    "Verif.Check.C154_defined",
    "Verif.Check.C154_example_accepted",
    "Verif.Check.C154_example_refused",
    "Verif.Check.C154_fails_no_ar_block",
    "Verif.Check.C154_empty_request_read",
    "Verif.Check.C154_fails_unknown_status",
    "Verif.Check.C154_fails_unknown_status_example",
    "Verif.Check.C154_fails_positive_answer",
    "Verif.Check.C154_fails_connection_kept"
   ],
   "note": "Proved for all requests with an AR block in which every consumer status is that of an expected submodule. The two other kinds of request are refused without an error (C154_fails_no_ar_block, C154_fails_unknown_status): the controller gets a positive answer (C154_fails_positive_answer), and the device keeps a connection that no release ends (C154_fails_connection_kept). The IOCR and alarm conditions of an accepted request hold with the exceptions of C16 and C17."
  },
  {
   "property": "C155",
   "status": "partial",
   "theorems": [
    "Verif.Alarm.C155_survives_partial",
    "Verif.Alarm.C155_crash_iff",
    "Verif.Alarm.C155_fails_acknowledge",
    "Verif.Alarm.C155_fails_send",
    "Verif.Alarm.C155_fails_answer",
    "Verif.Alarm.C155_fails",
    "Verif.Alarm.C155_example"
   ],
   "note": "Proved: no null pointer is used if no frame is handed to the transport while another one of the same priority is unacknowledged, and otherwise (on a connection that is up) one always is (C155_crash_iff, exact). Three families of runs that crash: two of them with nobody misbehaving, one that the controller can cause."
  },
  {
   "property": "C156",
   "status": "partial",
   "theorems": [
    "Verif.Reason.C156_application_partial",
    "Verif.Reason.C156_controller_partial",
    "Verif.Reason.C156_same_code",
    "Verif.Reason.C156_complete",
    "Verif.Reason.C156_silent",
    "Verif.Reason.C156_fails_never_named",
    "Verif.Reason.C156_fails_no_timer",
    "Verif.Reason.C156_fails_alarm_class",
    "Verif.Reason.C156_fails_left_over",
    "Verif.Reason.C156_fails",
    "Verif.Reason.C156_example"
   ],
   "note": "Proved for every run: right codes for releases, time-outs, lost outputs, ports, DCP requests and most errors of the machines; the controller is always told the same code. False for an abort by the application or by a new connect request (never named, codes of older events are told instead), for missing timers (controller) and unacknowledged alarms (application)."
  },
  {
   "property": "C157",
   "status": "partial",
   "theorems": [
    "Verif.Write.C157_bytes_partial",
    "Verif.Write.C157_stays",
    "Verif.Write.C157_tells",
    "Verif.Write.C157_multiple_partial",
    "Verif.Write.C157_single_partial",
    "Verif.Write.C157_fails_parse",
    "Verif.Write.C157_fails_room"
   ],
   "note": "Proved for every request whose first block can be read and that finds enough room: exact bytes, which determine status and results; never outside the buffer. False for a block that is too short for a write request (lengths of the request, no block, no error) and for too little room (everything written, no error, blocks missing)."
  },
  {
   "property": "C158",
   "status": "partial",
   "theorems": [
    "Verif.Alarm.C158_fresh_partial",
    "Verif.Alarm.C158_until",
    "Verif.Alarm.C158_fails_abort",
    "Verif.Alarm.C158_fails_early",
    "Verif.Alarm.demo_apart"
   ],
   "note": "Proved for every history of the entry: as long as old timers expire only while no alarm of their priority waits, the connection has the same states and events as the first one of the entry; all old timers are due at the latest one (largest) retransmission time after the start. False otherwise: old timers repeat an alarm of the new connection too early, or use up its retransmissions and abort it."
  },
  {
   "property": "C159",
   "status": "partial",
   "theorems": [
    "Verif.Startup.C159_undisturbed_partial",
    "Verif.Startup.C159_fails",
    "Verif.Startup.C159_fails_end_aborts",
    "Verif.Startup.C159_begin",
    "Verif.Startup.C159_never_told",
    "Verif.Startup.C159_example",
    "Verif.Control.C159_begin_refused",
    "Verif.Control.C159_only_end",
    "Verif.Control.C159_begin_example"
   ],
   "note": "False: the RPC layer refuses every parameter begin (all messages of one block; whatever the bytes, only parameter end reaches a connection), so the application is never told it (all runs); a parameter end with a new sequence number aborts every connection in data exchange (all runs), also after a parameter begin if that were let through. Holds: a refused request changes nothing for any connection."
  },
  {
   "property": "C160",
   "status": "partial",
   "theorems": [
    "Verif.LogBook.C160_record_partial",
    "Verif.LogBook.C160_early_partial",
    "Verif.LogBook.C160_answer",
    "Verif.LogBook.C160_fails",
    "Verif.LogBook.C160_fails_time_of_reading",
    "Verif.LogBook.C160_fails_same_time",
    "Verif.LogBook.C160_fails_order",
    "Verif.LogBook.C160_example",
    "Verif.LogBook.C160_answer_example"
   ],
   "note": "Proved for every history: the exact bytes of the record (and of the answer to the read request), with times modulo 2^32 microseconds; all entries with exact times as long as the device runs for less than 71.6 minutes and the capacity is not reached. False: the time of reading is always 0; after 71.6 minutes later entries are told with earlier (or the same) times; the oldest entry is left out once the capacity is reached (C58)."
  },
  {
   "property": "C161",
   "status": "partial",
   "theorems": [
    "Verif.Startup.C161_connect_told",
    "Verif.Startup.C161_connect_silent",
    "Verif.Startup.C161_connect_decides",
    "Verif.Startup.C161_release_partial",
    "Verif.Startup.C161_dcontrol_partial",
    "Verif.Startup.C161_default",
    "Verif.Startup.C161_fails",
    "Verif.Startup.C161_fails_release",
    "Verif.Startup.C161_fails_dcontrol",
    "Verif.Startup.C161_example"
   ],
   "note": "Proved: connect (asked exactly if the checks pass and there is room; decides), release of every connection that is up and not for device access, the 'parameter end' that ends start-up, missing call-backs. False: the release of a connection for device access, and any DControl request between 'parameter end' and data exchange, are answered without error but the application is not asked and nothing is logged."
  },
  {
   "property": "C162",
   "status": "partial",
   "theorems": [
    "Verif.Startup.C162_exact",
    "Verif.Startup.C162_partial",
    "Verif.Startup.C162_ends",
    "Verif.Startup.C162_not_polled",
    "Verif.Startup.C162_fails",
    "Verif.Startup.C162_fails_half",
    "Verif.Startup.C162_fails_old",
    "Verif.Startup.C162_example",
    "Verif.Startup.C162_ending"
   ],
   "note": "Proved exactly, for every run and history of links, what decides. False: half duplex links with 1000 Mbit/s and over fibre are accepted, and the links are those of the last look of the background worker."
  },
  {
   "property": "C163",
   "status": "partial",
   "theorems": [
    "Verif.Startup.C163_told_partial",
    "Verif.Startup.C163_only_after",
    "Verif.Startup.C163_once",
    "Verif.Startup.C163_as_often",
    "Verif.Startup.C163_at_most_once",
    "Verif.Startup.C163_fails",
    "Verif.Startup.C163_fails_plug",
    "Verif.Startup.C163_fails_status",
    "Verif.Startup.C163_orderly_open",
    "Verif.Startup.C163_example",
    "Verif.Startup.C163_once_example"
   ],
   "note": "Proved for every run of any length: at most one call per STARTUP of the connection, never before application-ready is called, nor after DATA or ABORT; with an orderly controller and application also: exactly as often as confirmed. False: a confirmation for a plugged submodule is not told, and a negative response with a done block is told as 'no error'."
  },
  {
   "property": "C164",
   "status": "partial",
   "theorems": [
    "Verif.Device.C164_same",
    "Verif.Device.C164_order",
    "Verif.Device.C164_asked",
    "Verif.Device.C164_data_partial",
    "Verif.Device.C164_fails",
    "Verif.Device.C164_fails_no_io",
    "Verif.Device.C164_fails_refused",
    "Verif.Device.C164_example"
   ],
   "note": "Proved for all requests, tables and applications: order, arguments, and who is asked for. False: a submodule without data is told as 'input', and after a submodule is refused the remaining ones of its module are still asked for."
  }
 ]
}