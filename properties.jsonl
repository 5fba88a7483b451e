{"id": "C01", "title": "Timers fire exactly once, never early, in time order", "statement": "Starting from an initialised scheduler, for every history of add / remove / tick calls whose pending expiry times stay inside half the 32-bit clock range: a tick at time t runs exactly the callbacks of the timers that were added, were not removed, have not fired and whose expiry time is at or before t; it runs them in order of expiry time; no timer runs twice and none is lost.", "quantifier": "all finite histories of scheduler calls, all delays, all clock values including wrap-around of the 32-bit microsecond clock, any positive timer capacity", "why_tests_cant": "Unit tests fix a handful of add/remove orders and never wrap the 32-bit clock; the claim is about every interleaving and every clock value.", "anchors": ["src/common/pf_scheduler.c: pf_scheduler_add, pf_scheduler_remove, pf_scheduler_tick, pf_scheduler_unlink, pf_scheduler_link_after, pf_scheduler_link_before"]}
{"id": "C02", "title": "Timer slots are never leaked or shared", "statement": "After every history of scheduler calls, each of the timer slots is either free or holds exactly one running timer; an add fails if and only if as many timers as the capacity are running; a timer whose handle is reported as running is pending.", "quantifier": "all histories of scheduler calls, any positive capacity", "why_tests_cant": "A leak or a doubly linked slot only shows after particular sequences of insertions and removals at the head, middle and tail of the list.", "anchors": ["src/common/pf_scheduler.c: pf_scheduler_init, pf_scheduler_add, pf_scheduler_remove, pf_scheduler_tick"]}
{"id": "C03", "title": "A requested delay is rounded to a tick grid without drifting by more than one period", "statement": "The delay actually used for a timer is half a stack tick less than a whole number of ticks (at least one tick) and, for delays longer than one and a half tick, differs from the requested delay by at most one tick; delays above the documented maximum are replaced by zero requested delay.", "quantifier": "all requested delays and all tick periods", "why_tests_cant": "The rounding is integer arithmetic over two 32-bit quantities; tests sample a few pairs.", "anchors": ["src/common/pf_scheduler.c: pf_scheduler_sanitize_delay"]}
{"id": "C04", "title": "Cyclic I/O objects accepted at connect never share bytes of the frame", "statement": "If the device accepts the I/O layout of a connect request then every data, provider status and consumer status field of every submodule lies inside the negotiated frame payload and no two of them overlap.", "quantifier": "all IOCR layouts a controller can send (any number of submodules, offsets and lengths)", "why_tests_cant": "Layouts are chosen by the remote controller; tests contain a few well-formed ones.", "anchors": ["src/device/pf_cmdev.c: pf_cmdev_check_no_straddle, pf_cmdev_check_iocr_overlap, pf_cmdev_check_iocr_apis, pf_cmdev_iocr_setup_desc"]}
{"id": "C05", "title": "Writing one submodule's input data changes nothing else in the sent frame", "statement": "A successful pnet_input_set_data_and_iops or pnet_output_set_iocs changes only the bytes of that submodule's own field in the next cyclic frame, a later read returns exactly the bytes written, and a call with a wrong length returns an error and changes nothing.", "quantifier": "all accepted layouts, all submodules, all data, all histories of set and get calls", "why_tests_cant": "Isolation between submodules must hold for every pair of submodules in every layout and every order of calls.", "anchors": ["src/common/pf_ppm.c: pf_ppm_set_data_and_iops, pf_ppm_set_iocs, pf_ppm_get_data_and_iops, pf_ppm_get_iocs", "src/common/pf_ppm_driver_sw.c: pf_ppm_drv_sw_write_data_and_iops"]}
{"id": "C06", "title": "Sent cycle counters advance by the update interval", "statement": "Consecutive cyclic frames carry cycle counters that are multiples of the update interval (in units of 31.25 us) and the predicted next counter differs from the current by exactly one interval modulo 65536 for every interval that the connect checks accept.", "quantifier": "all current times, all send clock factors and reduction ratios accepted at connect", "why_tests_cant": "The counter arithmetic truncates to 16 bits; the interesting cases are at wrap-around.", "anchors": ["src/common/pf_ppm.c: pf_ppm_calculate_cyclecounter, pf_ppm_calculate_next_cyclecounter"]}
{"id": "C07", "title": "Outdated or duplicated cyclic frames are rejected", "statement": "After the device has consumed a frame with cycle counter c, a frame with counter c2 is accepted only if c2 is ahead of c by 1 to 61440 modulo 65536; repeated frames and frames at most 4095 behind are never delivered to the application.", "quantifier": "all 65536 x 65536 counter pairs and all frame histories", "why_tests_cant": "Exhaustive over counters and over the history of earlier frames.", "anchors": ["src/common/pf_cpm.c: pf_cpm_check_cycle", "src/common/pf_cpm_driver_sw.c: pf_cpm_c_data_ind"]}
{"id": "C08", "title": "Consumer watchdog expires exactly after the data hold time", "statement": "With a consumer running, the connection is reported lost if and only if the data hold factor's number of complete supervision intervals elapses without an accepted valid frame; it is never reported while an accepted frame arrives at least once per hold time, and it is reported exactly once.", "quantifier": "all interleavings of frame arrivals and supervision ticks, all data hold factors", "why_tests_cant": "It quantifies over schedules of timer ticks and frame arrivals.", "anchors": ["src/common/pf_cpm_driver_sw.c: pf_cpm_control_interval_expired, pf_cpm_c_data_ind"]}
{"id": "C09", "title": "Application reads the most recent valid output data", "statement": "pnet_output_get_data_and_iops returns the data of the last accepted cyclic frame, and reports 'new' if and only if a frame was accepted since the previous read of that connection's output data.", "quantifier": "all interleavings of frame arrivals, data reads and consumer status reads", "why_tests_cant": "The triple use of buffers with swap on read makes correctness depend on the interleaving.", "anchors": ["src/common/pf_cpm_driver_sw.c: pf_cpm_put_buf, pf_cpm_get_buf, pf_cpm_drv_sw_get_data_and_iops, pf_cpm_drv_sw_get_iocs"]}
{"id": "C10", "title": "Foreign or malformed cyclic frames never reach the application", "statement": "A frame whose length, source MAC address, transfer status or cycle counter is wrong changes neither the data delivered to the application nor the watchdog nor the connection state.", "quantifier": "all frames and all consumer states", "why_tests_cant": "Any byte sequence may arrive on the wire at any time.", "anchors": ["src/common/pf_cpm_driver_sw.c: pf_cpm_c_data_ind", "src/common/pf_cpm.c: pf_cpm_check_src_addr"]}
{"id": "C11", "title": "Alarm send queue is a bounded FIFO", "statement": "Alarms accepted for sending on a connection and priority leave the queue exactly once, in the order in which they were accepted; an alarm is refused if and only if the queue holds the configured maximum.", "quantifier": "all histories of post / fetch / reset, any positive queue capacity", "why_tests_cant": "Ring-index arithmetic errors show only after particular wrap-around histories.", "anchors": ["src/common/pf_alarm.c: pf_alarm_send_queue_post, pf_alarm_send_queue_fetch, pf_alarm_receive_queue_post, pf_alarm_receive_queue_fetch"]}
{"id": "C12", "title": "A received alarm is delivered to the application at most once and in order", "statement": "For every sequence of incoming alarm frames (including retransmissions and frames with arbitrary sequence numbers) on an open alarm endpoint, a frame is delivered only if it carries the next expected number; a retransmission of the last delivered alarm is acknowledged again but not delivered; anything else is answered with a NACK.", "quantifier": "all finite sequences of received alarm frames, including wrap of the 15-bit sequence number", "why_tests_cant": "Loss, duplication and counter wrap give an unbounded set of histories.", "anchors": ["src/common/pf_alarm.c: pf_alarm_apmr_a_data_ind"]}
{"id": "C13", "title": "Alarm transfer over a lossy link is exactly-once", "statement": "Connecting the alarm sender state machine to the alarm receiver state machine over links that may lose and duplicate frames (but keep their order), the sequence of delivered alarms is always a prefix of the sequence of sent alarms, lagging by at most one, and every alarm confirmed to the sender was delivered.", "quantifier": "all executions of sender and receiver with arbitrary loss, duplication and timeout schedule", "why_tests_cant": "A distributed-protocol safety property over all schedules.", "anchors": ["src/common/pf_alarm.c: pf_alarm_apms_a_data_ind, pf_alarm_apms_timeout, pf_alarm_apms_apms_a_data_req, pf_alarm_apmr_a_data_ind"]}
{"id": "C14", "title": "Bounded alarm retransmission, then abort", "statement": "An alarm is put on the wire at most 1 + RTARetries times; if it is never acknowledged the connection is aborted; after an acknowledgement it is not sent again.", "quantifier": "all schedules of timeouts and acknowledgements, all retry counts", "why_tests_cant": "Depends on the interleaving of timer expiries with acknowledgements.", "anchors": ["src/common/pf_alarm.c: pf_alarm_apms_timeout, pf_alarm_apms_apms_a_data_req"]}
{"id": "C15", "title": "AR parameters are accepted exactly when they satisfy the documented limits", "statement": "The AR block of a connect request passes if and only if every listed condition holds (supported AR type, non-zero UUID, unicast initiator MAC, initiator object UUID pattern, activity timeout 1..1000, printable non-empty station name, no unsupported properties), and a refusal reports the field index of the first violated condition.", "quantifier": "all AR blocks", "why_tests_cant": "The block is attacker-controlled; tests cover single wrong fields.", "anchors": ["src/device/pf_cmdev.c: pf_cmdev_check_ar_param, pf_cmdev_check_visible_string, pf_cmdev_check_cm_initiator_object_uuid"]}
{"id": "C16", "title": "IOCR parameters that pass the connect check are within the documented limits", "statement": "If the device accepts an IOCR then its send clock factor is a power of two up to 128, reduction ratio, phase, data hold factor, watchdog time, C_SDU length, frame id and VLAN fields are inside the ranges the standard and the code comments document for that RT class.", "quantifier": "all IOCR blocks", "why_tests_cant": "32-bit products of three attacker-chosen numbers; the overflow cases are never exercised by tests.", "anchors": ["src/device/pf_cmdev.c: pf_cmdev_check_iocr_param"]}
{"id": "C17", "title": "Alarm CR parameters are accepted exactly when inside the documented limits", "statement": "The alarm CR block passes if and only if RTA timeout factor is 1..100, retries 3..15, max alarm length 200..1432, VLAN ids 0 and priorities 6 and 5, type and LT field as documented; a refusal reports the first violated field.", "quantifier": "all alarm CR blocks", "why_tests_cant": "Input space too large to enumerate by tests.", "anchors": ["src/device/pf_cmdev.c: pf_cmdev_check_alarm_cr"]}
{"id": "C18", "title": "Automatically assigned frame IDs are valid and unique", "statement": "When the controller lets the device choose the frame id for an output CR, the chosen id lies in the range of the RT class and is not used by any other CR of any active connection; the smallest such id is chosen, and the field is left unassigned only if no id of the range is free.", "quantifier": "all sets of active connections and CRs, all RT classes", "why_tests_cant": "Uniqueness ranges over every combination of concurrently established connections.", "anchors": ["src/device/pf_cmdev.c: pf_cmdev_verify_free_frame_id, pf_cmdev_fix_frame_id"]}
{"id": "C19", "title": "A submodule is controlled by at most one live connection", "statement": "At every moment each plugged submodule that is owned is owned by a connection that is currently established or being established; ownership is never taken from a live connection; after a connection ends, none of its submodules stays owned by it.", "quantifier": "all histories of connect attempts (successful and failed), plugs, pulls and aborts over any number of connections", "why_tests_cant": "Ownership leaks appear only after particular sequences of failed and successful connects.", "anchors": ["src/device/pf_cmdev.c: pf_cmdev_exp_submodule_configure, pf_device_clear, pf_cmdev_plug_submodule", "src/device/pf_cmrpc.c: pf_cmrpc_rm_connect_ind"]}
{"id": "C20", "title": "Plug and pull behave like a map of slots", "statement": "After any history of plug/pull module and submodule calls the set of plugged modules and submodules is exactly what the history of successful calls says: plugging makes it present with the given identity, pulling makes it absent, other slots are unaffected, a plug of a different identity into an occupied slot is refused, no slot number appears twice.", "quantifier": "all histories of plug and pull calls on all slots and subslots, any table capacities", "why_tests_cant": "Table lookups with in-use flags and slot re-use make results history dependent.", "anchors": ["src/device/pf_cmdev.c: pf_cmdev_plug_module, pf_cmdev_plug_submodule, pf_cmdev_pull_module, pf_cmdev_pull_submodule, pf_cmdev_new_slot, pf_cmdev_new_subslot"]}
{"id": "C21", "title": "Diagnosis store behaves like a map and does not leak entries", "statement": "After any history of diagnosis add, update and remove calls each subslot reports exactly the entries that were added (or updated) and not removed, one per channel/type key; each of the configured number of diagnosis items is either free or used by exactly one entry; adding fails only if the store is full.", "quantifier": "all histories of diagnosis calls on all subslots, any positive capacity", "why_tests_cant": "Shared pool with index-linked lists; leaks or cross-links need specific histories.", "anchors": ["src/device/pf_diag.c: pf_diag_add, pf_diag_update, pf_diag_remove, pf_diag_find_entry", "src/device/pf_cmdev.c: pf_cmdev_new_diag, pf_cmdev_free_diag"]}
{"id": "C22", "title": "Pulling a submodule releases its diagnosis entries", "statement": "When a submodule is pulled, its diagnosis entries disappear and their storage becomes available again.", "quantifier": "all states with diagnoses on the pulled submodule", "why_tests_cant": "Resource leak visible only after the pool has been exhausted by repeated plug/diag/pull cycles.", "anchors": ["src/device/pf_cmdev.c: pf_cmdev_pull_submodule", "src/device/pf_diag.c: pf_diag_add"]}
{"id": "C23", "title": "The station problem indicator reflects all diagnoses of the connection", "statement": "The problem indicator bit sent in the cyclic frames of a connection is set if and only if some submodule owned by that connection has a diagnosis of severity fault.", "quantifier": "all histories of diagnosis calls over any number of submodules", "why_tests_cant": "Needs at least two submodules with independent diagnosis histories.", "anchors": ["src/device/pf_diag.c: pf_diag_update_station_problem_indicator", "src/common/pf_ppm.c: pf_ppm_set_problem_indicator"]}
{"id": "C24", "title": "Connection start-up follows the PROFINET sequence", "statement": "For every history of controller requests and application calls on one connection, the application sees state events in the order STARTUP, PRMEND, APPLRDY, DATA with each at most once, an ABORT ends the sequence, and DATA is only reported after the application called application-ready and the controller confirmed it.", "quantifier": "all interleavings of release, dcontrol, ccontrol confirmation, application ready, cyclic state and abort events", "why_tests_cant": "A trace property over unbounded event sequences of a product of state machines.", "anchors": ["src/device/pf_cmdev.c: pf_cmdev_state_ind, pf_cmdev_rm_dcontrol_ind, pf_cmdev_rm_ccontrol_cnf, pf_cmdev_cm_ccontrol_req, pf_cmdev_cmio_info_ind, pf_cmdev_rm_release_ind"]}
{"id": "C25", "title": "Start-up supervision aborts a stalled connection", "statement": "While a connection is in start-up and neither a record read/write nor another start-up step restarts the activity supervision before its timeout, the connection is aborted; once data exchange is reached or the connection is aborted the supervision never aborts it.", "quantifier": "all event histories of the start-up supervision", "why_tests_cant": "Depends on order of timer expiry and events.", "anchors": ["src/device/pf_cmsm.c: pf_cmsm_timeout, pf_cmsm_cmdev_state_ind, pf_cmsm_rm_read_ind, pf_cmsm_rm_write_ind"]}
{"id": "C26", "title": "Record writes reach the application only from the owning connection in an allowed phase", "statement": "A record write is forwarded to the application only if the connection is in the start-up (before PrmEnd) or data phase and, for submodule records, the addressed submodule is owned by that very connection; otherwise it is answered negatively and nothing changes.", "quantifier": "all connection states, all histories, all write requests", "why_tests_cant": "Access control must hold in all states, not the few tested.", "anchors": ["src/device/pf_cmwrr.c: pf_cmwrr_write, pf_cmwrr_rm_write_ind, pf_cmwrr_cmdev_state_ind"]}
{"id": "C27", "title": "A retransmitted DControl request is not executed twice", "statement": "If a DControl request with the same RPC sequence number as the previous one is received again on a session, the stored result is returned and the application callback is not called again.", "quantifier": "all sequences of DControl requests with arbitrary sequence numbers", "why_tests_cant": "Requires sequences of requests and covers every sequence number including the initial value.", "anchors": ["src/device/pf_cmrpc.c: pf_cmrpc_rm_dcontrol_ind, pf_session_allocate"]}
{"id": "C28", "title": "Fragmented RPC requests are reassembled exactly", "statement": "If the fragments of a request arrive in order, the request that is processed is the concatenation of the fragment bodies, and the request is never longer than the session buffer; a request with a missing, repeated or reordered fragment is not processed as if it were complete.", "quantifier": "all fragment sequences of any number and length", "why_tests_cant": "Unbounded number of fragmentations and orders.", "anchors": ["src/device/pf_cmrpc.c: pf_cmrpc_dce_packet"]}
{"id": "C29", "title": "Fragmented RPC responses contain exactly the response bytes", "statement": "For every response length, the bodies of the transmitted fragments, in order, concatenate to the response body, each fragment fits in a UDP payload, fragment numbers count from 0, and exactly the final one is marked as last.", "quantifier": "all response lengths up to the session buffer size, all payload size limits", "why_tests_cant": "Exact-multiple boundary lengths are easily missed by tests.", "anchors": ["src/device/pf_cmrpc.c: pf_cmrpc_dce_packet, pf_cmrpc_send_with_timeout"]}
{"id": "C30", "title": "Active connections have distinct UUIDs and identifiers", "statement": "After any history of connect requests, releases and aborts, two different established connections never have the same AR UUID nor the same AREP, and looking up a connection by its AREP or UUID yields that connection.", "quantifier": "all histories of connects (including duplicates of an existing UUID), releases and aborts", "why_tests_cant": "Needs arbitrary histories of allocation and release.", "anchors": ["src/device/pf_cmrpc.c: pf_ar_allocate, pf_ar_release, pf_ar_find_by_uuid, pf_ar_find_by_arep, pf_cmrpc_rm_connect_ind"]}
{"id": "C31", "title": "Parsing never reads outside the received buffer and errors are sticky", "statement": "Every block parsing routine, on every byte buffer and start position, reads only inside the buffer, never moves the position backwards or past the end, and once a parse error occurred it stays an error and the position no longer moves.", "quantifier": "all byte buffers of any length and content, both endiannesses, all parsers built from the primitives", "why_tests_cant": "Input is arbitrary network data.", "anchors": ["src/device/pf_block_reader.c: pf_get_byte, pf_get_uint16, pf_get_uint32, pf_get_mem, pf_get_uuid, pf_get_dce_rpc_header, pf_get_alarm_fixed, pf_get_read_request, pf_get_write_request"]}
{"id": "C32", "title": "Encoding and decoding of protocol fields are inverse", "statement": "Every 16/32-bit integer, UUID, bit field and block header written to a response buffer with enough room is read back unchanged, in both byte orders; a write never touches bytes outside its field nor beyond the buffer size.", "quantifier": "all values, all positions, all buffer contents, both byte orders", "why_tests_cant": "Ranges over all values and buffer positions.", "anchors": ["src/device/pf_block_writer.c: pf_put_byte, pf_put_uint16, pf_put_uint32, pf_put_uuid, pf_put_mem, pf_put_bits", "src/device/pf_block_reader.c: pf_get_uint16, pf_get_uint32, pf_get_uuid, pf_get_bits"]}
{"id": "C33", "title": "Expected-submodule parsing stays within its tables", "statement": "Whatever connect request arrives, the number of expected APIs, modules and submodules stored never exceeds the table sizes.", "quantifier": "all ExpectedSubmodule blocks", "why_tests_cant": "Memory safety under attacker-controlled counts.", "anchors": ["src/device/pf_block_reader.c: pf_get_exp_api_module, pf_get_exp_submodule"]}
{"id": "C34", "title": "Accepted IP settings are well-formed", "statement": "The device accepts an IP suite over DCP only if the netmask is a contiguous prefix mask, the address is a usable host address inside it (or everything is zero), and the gateway is zero or in the same subnet.", "quantifier": "all 2^96 address / netmask / gateway triples", "why_tests_cant": "Bit-twiddling validity checks over the full 32-bit space.", "anchors": ["src/device/pf_cmina.c: pf_cmina_is_ipsuite_valid, pf_cmina_is_ipaddress_valid, pf_cmina_is_netmask_valid, pf_cmina_is_gateway_valid"]}
{"id": "C35", "title": "Accepted station names are well-formed", "statement": "A station name is accepted if and only if it satisfies the documented rules: total length at most 240, labels of 1 to 63 characters from [a-z0-9-] separated by dots, no label starts or ends with a hyphen, not an IPv4-like name, and does not look like a port name.", "quantifier": "all byte strings of all lengths", "why_tests_cant": "The rule set is checked by a hand-written one-pass scanner; tests try a dozen names.", "anchors": ["src/device/pf_cmina.c: pf_cmina_is_stationname_valid"]}
{"id": "C36", "title": "A refused DCP Set changes nothing", "statement": "If a DCP Set request for IP, name, or reset is answered negatively, the device's IP settings, station name and stored values are unchanged.", "quantifier": "all device states and all Set requests", "why_tests_cant": "Requires comparing full state before and after for every branch.", "anchors": ["src/device/pf_cmina.c: pf_cmina_dcp_set_ind"]}
{"id": "C37", "title": "Temporary settings do not survive, permanent settings do", "statement": "After a successful permanent DCP Set of name or IP, the values used after restart are the values set; after a temporary Set the value currently used changes but a restart does not use it.", "quantifier": "all histories of DCP Sets followed by a restart", "why_tests_cant": "History and restart quantification.", "anchors": ["src/device/pf_cmina.c: pf_cmina_dcp_set_ind, pf_cmina_set_default_cfg, pf_cmina_save_ase"]}
{"id": "C38", "title": "DCP Set is exclusive to one station at a time", "statement": "For the exclusivity period after a station's accepted DCP Set or Get, Set and Get requests of every other station are not executed; requests of the same station are; after the period without requests any station may take over.", "quantifier": "all histories of requests from any set of stations and timer expiries", "why_tests_cant": "Multi-station interleavings.", "anchors": ["src/common/pf_dcp.c: pf_dcp_check_sam, pf_dcp_restart_sam_timeout, pf_dcp_clear_sam, pf_dcp_get_set"]}
{"id": "C39", "title": "Identify responses are spread below the requested delay bound", "statement": "For a multicast Identify request with response delay factor f in 2..6400 the response is delayed by a multiple of 10 ms strictly less than f * 10 ms, determined by the device's MAC address; for other factors no delay.", "quantifier": "all MAC addresses and all factors", "why_tests_cant": "Arithmetic over all inputs.", "anchors": ["src/common/pf_dcp.c: pf_dcp_calculate_response_delay"]}
{"id": "C40", "title": "Identify answers exactly the matching requests", "statement": "The device answers an Identify request if and only if the request is Identify-All, or it contains a name or alias filter first and every filter block in it matches the device.", "quantifier": "all filter lists of any length", "why_tests_cant": "Lists of filters of unbounded length.", "anchors": ["src/common/pf_dcp.c: pf_dcp_identify_req"]}
{"id": "C41", "title": "Signal LED flashes three times and ends off", "statement": "Each accepted Signal request produces exactly three on/off flashes at half-second steps and leaves the LED off; requests during flashing do not prolong or restart it.", "quantifier": "all interleavings of signal requests and timer expiries", "why_tests_cant": "Interleavings of requests with an ongoing sequence.", "anchors": ["src/common/pf_dcp.c: pf_dcp_control_signal_led, pf_dcp_trigger_signal_led"]}
{"id": "C42", "title": "Non-volatile files round-trip and corrupted files are refused", "statement": "Data saved is read back unchanged; a file with wrong magic, version or that is too short is reported as an error; saving unchanged data does not write the file.", "quantifier": "all data, all prior file contents, all histories of saves", "why_tests_cant": "All contents of the medium including corrupted ones.", "anchors": ["src/common/pf_file.c: pf_file_load, pf_file_save, pf_file_save_if_modified"]}
{"id": "C43", "title": "Settings changed before or during a background save are eventually saved", "statement": "If a setting is changed and a save job is requested, then when the background worker becomes idle the file contains the last value, whatever the interleaving of the changing thread and the worker.", "quantifier": "all interleavings of requests, setting changes and worker steps", "why_tests_cant": "Race between threads.", "anchors": ["src/common/pf_bg_worker.c: pf_bg_worker_start_job, bg_worker_task", "src/device/pf_cmina.c: pf_cmina_save_ase"]}
{"id": "C44", "title": "Log book holds exactly the newest entries", "statement": "After any number of log entries the log book contains exactly the most recent ones up to its capacity, in order, and the wrap flag is set if and only if capacity was reached.", "quantifier": "all histories of log entries, any positive capacity", "why_tests_cant": "Ring buffer wrap histories.", "anchors": ["src/device/pf_fspm.c: pf_fspm_create_log_book_entry"]}
{"id": "C45", "title": "I&M records: refused writes change nothing, accepted writes are returned by the next read", "statement": "Writing an I&M record with wrong length, unsupported index or I&M0 is refused and leaves all I&M data unchanged; an accepted write is returned by the next read and leaves the other records unchanged.", "quantifier": "all indices, lengths and data, all histories of reads and writes", "why_tests_cant": "All lengths, all indices.", "anchors": ["src/device/pf_fspm.c: pf_fspm_cm_write_ind, pf_fspm_cm_read_ind", "src/device/pf_block_reader.c: pf_get_im_1"]}
{"id": "C46", "title": "Ethernet frames are dispatched to the handler registered for their frame ID", "statement": "After any history of handler registrations and removals, an incoming PROFINET frame is given to the handler registered for its frame id and to no other; frames for unregistered ids are left to the operating system.", "quantifier": "all histories of add/remove, all frames", "why_tests_cant": "Table with re-use and first-match semantics; history dependent.", "anchors": ["src/common/pf_eth.c: pf_eth_frame_id_map_add, pf_eth_frame_id_map_remove, pf_eth_recv"]}
{"id": "C48", "title": "Module difference reported to the controller is complete", "statement": "The module difference block of a connect response mentions a submodule if and only if the plugged hardware differs from what the controller expected there or the submodule is owned by another connection.", "quantifier": "all expected configurations and all plugged configurations", "why_tests_cant": "All pairs of configurations.", "anchors": ["src/device/pf_cmdev.c: pf_cmdev_generate_module_diff, pf_cmdev_generate_submodule_diff"]}
{"id": "C49", "title": "Every received alarm can be acknowledged", "statement": "After the application was given an alarm, its acknowledgement call for that alarm is accepted and sent to the controller with the alarm's priority.", "quantifier": "both priorities, all alarm states", "why_tests_cant": "Depends on alarm priority and endpoint state combination.", "anchors": ["src/common/pf_alarm.c: pf_alarm_alpmr_alarm_ack, pf_alarm_alpmr_apmr_a_data_ind"]}
{"id": "C50", "title": "A refused connect leaves the device as it was", "statement": "If a connect request is refused, connection slots, submodule ownership and alarm endpoints are as before the request, so that any later connect is judged as if the refused one had never happened.", "quantifier": "all device states and all connect requests", "why_tests_cant": "Requires full-state comparison on every failure path.", "anchors": ["src/device/pf_cmrpc.c: pf_cmrpc_rm_connect_ind", "src/device/pf_cmdev.c: pf_cmdev_rm_connect_ind, pf_cmdev_cm_connect_rsp_neg, pf_cmdev_exp_submodule_configure", "src/common/pf_alarm.c: pf_alarm_allocate_endpoint"]}
{"id": "C51", "title": "Cyclic sending continues as long as the connection is up", "statement": "While a provider is running and the timer service accepts timers, one frame is sent per control interval and the next is always scheduled; the interval does not accumulate drift.", "quantifier": "all sequences of send results and scheduler timings", "why_tests_cant": "Long-run and error-path property.", "anchors": ["src/common/pf_ppm_driver_sw.c: pf_ppm_drv_sw_send"]}
{"id": "C52", "title": "DCP Get/Set requests are answered block by block without reading outside the frame", "statement": "Processing a DCP Get or Set request terminates, looks only at bytes inside the frame's announced DCP data, and produces for each requested option exactly one response block.", "quantifier": "all DCP frames", "why_tests_cant": "Arbitrary network input with 16-bit length arithmetic.", "anchors": ["src/common/pf_dcp.c: pf_dcp_get_set, pf_dcp_set_req, pf_dcp_get_req, pf_dcp_put_block"]}
{"id": "C53", "title": "The table of cyclic I/O objects is never overrun", "statement": "Whatever the IOCR blocks of a connect request contain, setting up the cyclic I/O objects never stores more objects than the table has room for, as long as the expected configuration itself is within its table limits.", "quantifier": "all connect requests (IOCR blocks and expected submodules of any size and content)", "why_tests_cant": "Depends on arbitrary network input and on duplicates between request lists.", "anchors": ["src/device/pf_cmdev.c: pf_cmdev_iocr_setup_desc, pf_cmdev_iocr_setup_data_iops, pf_cmdev_iocr_setup_iocs"]}
{"id": "C54", "title": "Input data set by the application is what the next cyclic frame carries", "statement": "Every cyclic frame sent carries, at the negotiated offset of each submodule, the most recent data, provider status and consumer status the application has set for it.", "quantifier": "all accepted frame layouts and all histories of set calls and send cycles", "why_tests_cant": "Ranges over all layouts a controller may negotiate, including ones with gaps.", "anchors": ["src/common/pf_ppm.c: pf_ppm_finish_buffer", "src/common/pf_ppm.c: pf_ppm_set_data_and_iops", "src/device/pf_cmdev.c: pf_cmdev_iocr_setup_data_iops"]}
{"id": "C55", "title": "Alarm retransmissions keep the negotiated distance", "statement": "Two transmissions of alarm frames of one priority, the later of which is a retransmission, are at least the negotiated RTA timeout apart.", "quantifier": "all histories of alarms sent, acknowledgements received, timers and local failures", "why_tests_cant": "Depends on the interleaving of acknowledgements, new alarms and timers left over from earlier alarms.", "anchors": ["src/common/pf_alarm.c: pf_alarm_apms_timeout, pf_alarm_apms_apms_a_data_req, pf_alarm_apms_a_data_ind"]}
{"id": "C56", "title": "An acknowledged alarm was handed to the application", "statement": "Whenever the device sends a transport acknowledgement for a well-formed alarm notification of the controller, that alarm has been handed to the application (or the connection is aborted).", "quantifier": "all histories of received frames and of local send failures", "why_tests_cant": "The violation needs a local send failure between reception and acknowledgement, followed by a repetition.", "anchors": ["src/common/pf_alarm.c: pf_alarm_apmr_a_data_ind, pf_alarm_apmr_send_ack, pf_alarm_alpmr_apmr_a_data_ind"]}
{"id": "C57", "title": "Sending an alarm does not abort a healthy connection", "statement": "Handing an alarm to the stack never aborts the connection by itself, whatever alarm traffic is under way.", "quantifier": "all histories of alarm traffic in both directions", "why_tests_cant": "Depends on the interleaving of the application's alarms with the acknowledgements of received alarms.", "anchors": ["src/common/pf_alarm.c: pf_alarm_almpi_periodic, pf_alarm_send_internal, pf_alarm_apms_apms_a_data_req, pf_alarm_alpmi_apms_a_data_cnf"]}
{"id": "C58", "title": "Log book read-out matches the log book", "statement": "Reading the log book record returns as many entries as it announces, and these are the entries held, oldest first; the read-out terminates for every state of the log book.", "quantifier": "all histories of log entries, any positive capacity", "why_tests_cant": "Depends on wrap position; tests read a log book with a few entries.", "anchors": ["src/device/pf_block_writer.c: pf_put_log_book_data", "src/device/pf_fspm.c: pf_fspm_create_log_book_entry"]}
{"id": "C59", "title": "Ending a connection returns its resources", "statement": "When a connection ends, its place in the connection table, its position in the order of connections and its alarm endpoint become free again, and the other connections are as before; so a device that has served any number of connections can serve as many again as after start.", "quantifier": "all histories of connects, application calls and ends of connections", "why_tests_cant": "A leak shows only after as many connections as there are resources, in particular sequences.", "anchors": ["src/device/pf_cmrpc.c: pf_ar_release, pf_cmrpc_cmdev_state_ind", "src/device/pf_cmsu.c: pf_cmsu_cmdev_state_ind", "src/common/pf_alarm.c: pf_alarm_free_endpoint"]}
{"id": "C60", "title": "A controller can read the module difference block", "statement": "Reading the module difference block of a connect response by the format of the standard yields exactly the API, module and submodule entries the device put in.", "quantifier": "all module differences of any size", "why_tests_cant": "Arbitrary nesting and sizes; an offset error shows only for particular combinations of entries.", "anchors": ["src/device/pf_block_writer.c: pf_put_ar_diff, pf_put_api_diff, pf_put_module_diff, pf_put_submodule_diff"]}
{"id": "C61", "title": "Submodule summary flags describe exactly the present diagnoses", "statement": "After any history of diagnosis calls, plugging, pulling and ownership changes, the summary of each plugged submodule (reported in module differences and alarms) says 'fault', 'maintenance demanded', 'maintenance required' exactly if one of the diagnoses present at the submodule has that severity.", "quantifier": "all histories, all capacities", "why_tests_cant": "Summary is recomputed on some paths only; stale flags need specific histories.", "anchors": ["src/device/pf_diag.c: pf_diag_update_subslot_summary, pf_diag_add, pf_diag_update, pf_diag_remove"]}
{"id": "C62", "title": "Malformed or unexpected RPC packets do not crash the device", "statement": "No sequence of RPC packets (requests, responses, cancels, record reads and writes) and application calls during start-up and operation makes the stack fail an assertion or use a null connection pointer.", "quantifier": "all sequences of packets and calls, all numbers of connections", "why_tests_cant": "The packets that crash are unusual ones in unusual order; tests only send what a well-behaved controller sends.", "anchors": ["src/device/pf_cmrpc.c: pf_cmrpc_dce_packet, pf_cmrpc_rm_ccontrol_cnf, pf_cmrpc_rm_read_ind", "src/device/pf_fspm.c: pf_fspm_cm_read_ind"]}
{"id": "C63", "title": "A connection keeps its RPC session", "statement": "As long as a connection exists, the RPC session it was made on exists and belongs to this connection, and no session refers to a connection that is gone.", "quantifier": "all sequences of packets and calls", "why_tests_cant": "Dangling links need particular interleavings of sessions and connections and stay silent until the slot is reused.", "anchors": ["src/device/pf_cmrpc.c: pf_session_release, pf_ar_release, pf_cmrpc_rm_dcontrol_ind, pf_cmrpc_rm_read_ind, pf_cmrpc_cmdev_state_ind"]}
{"id": "C64", "title": "Explicit record reads are executed only for an existing connection", "statement": "A record read that is not an implicit read is executed only if its AR UUID is that of an existing connection, and then for that connection.", "quantifier": "all states, all UUIDs and indices", "why_tests_cant": "Tests read over the connection they made; an unknown UUID in combination with each record is not tried.", "anchors": ["src/device/pf_cmrpc.c: pf_cmrpc_rm_read_ind"]}
{"id": "C65", "title": "Expected modules are stored under the API they name", "statement": "After reading an ExpectedSubmodule block, each of its modules is stored under the API number given with it, in order, and modules stored before are unchanged.", "quantifier": "all blocks of any number of modules and APIs, all earlier tables", "why_tests_cant": "Lists of modules of unbounded length with arbitrary API numbers.", "anchors": ["src/device/pf_block_reader.c: pf_get_exp_api_module"]}
{"id": "C66", "title": "A connect request is stored as sent", "statement": "For every well-formed connect request within the table sizes, in both byte orders, interpreting it succeeds and every field of every block is stored with the value that was sent.", "quantifier": "all connect requests: all field values, any number and order of blocks", "why_tests_cant": "The space of requests is unbounded; each bit field can be mis-masked.", "anchors": ["src/device/pf_cmrpc.c: pf_cmrpc_rm_connect_interpret_ind", "src/device/pf_block_reader.c: pf_get_ar_param, pf_get_iocr_param, pf_get_alarm_cr_request, pf_get_exp_api_module"]}
{"id": "C67", "title": "An accepted connect request was read completely and fits the tables", "statement": "If interpreting a connect request succeeds, the request was read to its last byte without a parse error, its length is the announced one, it contained at most one AR block, and all IO connections, APIs, modules and submodules stored are within the table sizes.", "quantifier": "all byte strings", "why_tests_cant": "Quantifies over arbitrary network input.", "anchors": ["src/device/pf_cmrpc.c: pf_cmrpc_rm_connect_interpret_ind"]}
{"id": "C68", "title": "Writing a response terminates at every fill level", "statement": "Writing a block into a response buffer ends, whatever the fill level of the buffer.", "quantifier": "all buffer sizes, positions and names", "why_tests_cant": "An endless loop at particular fill levels only.", "anchors": ["src/device/pf_block_writer.c: pf_put_padding_align, pf_put_ar_server_result"]}
{"id": "C69", "title": "Peer names of a port check are stored inside their fields", "statement": "Whatever CheckPeers record arrives, port and station names are written inside the fields reserved for them.", "quantifier": "all byte strings", "why_tests_cant": "Memory safety under lengths chosen by the sender.", "anchors": ["src/device/pf_block_reader.c: get_check_peer, pf_get_port_data_check_check_peers"]}
{"id": "C70", "title": "Record data lies inside the request", "statement": "Every record that is handed to pnet_write_ind or to another function that takes a record lies inside the write request that was received, with the length given to that function.", "quantifier": "for all byte sequences received as a write request, all stated record lengths, all device states and all answers of the application", "why_tests_cant": "the stated length is a 32-bit number that meets 16-bit and 32-bit arithmetic; tests use consistent lengths", "anchors": ["src/device/pf_cmrpc.c:3159-3336", "src/device/pf_cmwrr.c:173-381"]}
{"id": "C71", "title": "Multiple write is carried out in order", "statement": "The records of a multiple write are handed over in the order of the request, each once and with exactly its own bytes, up to the first failure; the response has one result block per write that was looked at, with the names and the status of that write.", "quantifier": "for all numbers of records, all lengths and paddings, all mixes of record indexes, all answers", "why_tests_cant": "depends on the number, the alignment and the order of records; a test fixes them", "anchors": ["src/device/pf_cmrpc.c:3355-3608"]}
{"id": "C72", "title": "Write response says what happened", "statement": "A write response without error means that the record was accepted; a response with an error means that the record was not written.", "quantifier": "for all write requests, all argument lengths, all states of the session (also with missing fragments)", "why_tests_cant": "the order of checks and effects matters for faulty requests only", "anchors": ["src/device/pf_cmrpc.c:3355-3608"]}
{"id": "C73", "title": "Processing of a write request ends", "statement": "Processing of every write request, single or multiple, comes to an end.", "quantifier": "for all byte sequences received as a write request and all answers of the application", "why_tests_cant": "non-termination cannot be observed by a test, and needs a particular 32-bit length", "anchors": ["src/device/pf_cmrpc.c:3468-3504", "src/device/pf_cmwrr.c:280"]}
{"id": "C47", "title": "Released submodules are handled one at a time, in order", "statement": "Submodules that another controller has released are offered to a connection one at a time, in the order of release: alarm to the controller, callback of the application, application ready. None is lost unless the queue is full, in which case there is a message.", "quantifier": "all histories of releases, PrmEnd requests, confirmations of the application and of the controller, all queue sizes", "why_tests_cant": "Queue and state machine interleavings.", "anchors": ["src/device/pf_plugsm.c: pf_plugsm_released_alarm_req, pf_plugsm_prmend_ind, pf_plugsm_application_ready_req, pf_plugsm_application_ready_cnf"]}
{"id": "C74", "title": "Report about a released submodule is right", "statement": "The module difference sent with application ready for a released submodule mentions this submodule exactly if it differs from what is expected, is owned by another connection or has a diagnosis, mentions nothing else, and is computed without looking outside the arrays.", "quantifier": "all plugged configurations, expected configurations, places and owners", "why_tests_cant": "depends on the position of the module in the expected configuration and on what is plugged at that moment", "anchors": ["src/device/pf_cmdev.c:4414-4587"]}
{"id": "C75", "title": "An Identify answer carries the device's current settings", "statement": "The answer to an Identify request is one frame to the sender, delayed as the request asks, with the transaction number of the request and the address, vendor, station name, identity, role and options of the device as they are then, and the alias name that was asked for; it always fits into a frame.", "quantifier": "all requests that are answered, all settings", "why_tests_cant": "Depends on the combination of settings and filters of unbounded length.", "anchors": ["src/common/pf_dcp.c: pf_dcp_identify_req, pf_dcp_get_req, pf_dcp_put_block"]}
{"id": "C76", "title": "What DCP Set has set is what DCP Get reports", "statement": "After a Set of station name or IP address that is answered with success, Get reports exactly the bytes that were set; after one that is answered with an error, Get reports the value from before.", "quantifier": "all values, all reachable devices", "why_tests_cant": "All byte strings as values.", "anchors": ["src/common/pf_dcp.c: pf_dcp_get_set", " src/device/pf_cmina.c: pf_cmina_dcp_set_ind, pf_cmina_dcp_get_req"]}
{"id": "C77", "title": "No LLDP frame can break the reader", "statement": "Reading any frame from a neighbour ends, never reads outside the frame or writes outside the arrays for names and addresses, and every length stored with a valid name is the length of a name inside its array.", "quantifier": "all byte strings as frames", "why_tests_cant": "All byte strings; every combination of field types and lengths.", "anchors": ["src/common/pf_lldp.c: pf_lldp_parse_packet and the readers of the fields"]}
{"id": "C78", "title": "A neighbour understands what the device sends", "statement": "A frame that the device sends is accepted by a neighbour with the same software, which then reports the station name (or the address as text if there is none), port name, addresses and link state of the sender.", "quantifier": "all names, addresses, link states, both name modes", "why_tests_cant": "Names of any length and content; sender and receiver are different devices.", "anchors": ["src/common/pf_lldp.c: pf_lldp_construct_frame, pf_lldp_parse_packet, pf_lldp_get_peer_station_name, pf_lldp_get_peer_port_name"]}
{"id": "C79", "title": "What is known of a neighbour is what its frame says", "statement": "After a frame is accepted, each item known of the neighbour is the value of the field that carries it, fields being found by the length each announces; unknown fields are skipped, a frame with a field of wrong length or a frame that is cut off is refused as a whole.", "quantifier": "all frames", "why_tests_cant": "All sequences of fields.", "anchors": ["src/common/pf_lldp.c: pf_lldp_parse_packet"]}
{"id": "C80", "title": "A neighbour is forgotten when its time is over", "statement": "Over every history, what is reported of the neighbour on a port is what its last accepted frame said; it is forgotten when the time to live of that frame is over or the link goes down, and not before.", "quantifier": "all histories of frames, timer runs and link changes", "why_tests_cant": "Unbounded histories and times.", "anchors": ["src/common/pf_lldp.c: pf_lldp_update_peer, pf_lldp_restart_peer_timeout, pf_lldp_receive_timeout, pf_lldp_invalidate_peer_info", " src/device/pf_pdport.c: pf_pdport_handle_link_down"]}
{"id": "C81", "title": "The device is found by the alias that its neighbours give it", "statement": "A name is an alias of the device exactly if on one of its ports a neighbour is heard with a port name P and a station name S such that the name is P.S.", "quantifier": "all neighbours on any number of ports, all names", "why_tests_cant": "All names and numbers of ports.", "anchors": ["src/common/pf_lldp.c: pf_lldp_generate_alias_name, pf_lldp_is_alias_matching"]}
{"id": "C82", "title": "Wrong neighbours are reported, right ones are not", "statement": "For a port for which the controller has named the wanted neighbour, there is a diagnosis 'no peer' exactly if no neighbour is heard (once the time for the first frame is over), and diagnoses for the port name and the station name exactly if the names of the neighbour are not the wanted ones; without a wanted neighbour there are none.", "quantifier": "all histories of frames, link changes, timers, record writes, connects, DCP requests, resets, restarts; any number of ports", "why_tests_cant": "Unbounded histories in which the check is set before or after the neighbour is heard; names of all lengths.", "anchors": ["src/device/pf_pdport.c: pf_pdport_run_peer_check, pf_pdport_check_no_peer_detected, pf_pdport_check_peer_port_name, pf_pdport_check_peer_station_name, pf_pdport_periodic, pf_pdport_reset_all"]}
{"id": "C83", "title": "Port records are read back as they were written", "statement": "A check, adjustment or interface record that is written for a port is accepted, is read back with the same contents, and does not change other ports; a record that is not understood is refused and changes nothing.", "quantifier": "all records, names, flags, ports, answer buffers", "why_tests_cant": "All contents and lengths of names.", "anchors": ["src/device/pf_pdport.c: pf_pdport_write_req, pf_pdport_write_data_check, pf_pdport_write_data_adj, pf_pdport_write_interface_adj, pf_pdport_read_ind", " src/device/pf_block_writer.c: pf_put_pdport_data_check, pf_put_pdport_data_adj, pf_put_pd_interface_adj"]}
{"id": "C84", "title": "LLDP frames are sent unless the controller forbids it", "statement": "A port sends an LLDP frame about every five seconds if its adjustment does not forbid it, and none while it does.", "quantifier": "all histories, any number of ports", "why_tests_cant": "Unbounded histories of adjustments, connects, DCP requests, resets, restarts.", "anchors": ["src/device/pf_pdport.c: pf_pdport_write_data_adj, pf_pdport_lldp_restart_transmission, pf_pdport_ar_connect_ind, pf_pdport_load", " src/common/pf_lldp.c: pf_lldp_send_enable, pf_lldp_send_disable, pf_lldp_trigger_sending, pf_lldp_tx_restart"]}
{"id": "C85", "title": "Port settings survive a restart", "statement": "At any time the check and the adjustment of a port are those last written, or none after a connect request or a factory reset; after a restart they are those stored by the last run of the background job.", "quantifier": "all histories, any number of restarts", "why_tests_cant": "Unbounded histories with restarts between a write and the background job.", "anchors": ["src/device/pf_pdport.c: pf_pdport_load, pf_pdport_save, pf_pdport_save_all, pf_pdport_reset_all, pf_pdport_get_filename", " src/common/pf_bg_worker.c"]}
{"id": "C86", "title": "Every port is served", "statement": "Every loop over the ports of the device visits each port once, in order, and ends; the supervision of the links visits them in turn for ever; the subslot of a port and the port of a subslot belong to each other; the list of ports names each once.", "quantifier": "any number of ports, any number of calls", "why_tests_cant": "Any number of ports (tests are built for one number).", "anchors": ["src/device/pf_port.c: pf_port_init_iterator_over_ports, pf_port_get_next, pf_port_get_next_repeat_cyclic, pf_port_loc_port_num_to_dap_subslot, pf_port_dap_subslot_to_local_port, pf_port_get_list_of_ports"]}
{"id": "C87", "title": "The diagnosis records list exactly the active diagnoses", "statement": "A read of a diagnosis record (submodule, slot, API, connection, whole device) ends; its answer has for every plugged submodule in the scope that was asked for, for every identifier, one block with its place and exactly the active diagnoses of the wanted severity, in order, with all their fields; submodules outside the scope and those that are not the expected ones of the connection are left out; nothing else in the answer buffer changes.", "quantifier": "all histories of diagnosis calls, all device tables, connections, indices, buffers", "why_tests_cant": "Unbounded histories that fill the chains; all scopes and severities; any number of slots, submodules, diagnoses.", "anchors": ["src/device/pf_block_writer.c: pf_put_diagnosis_device, pf_put_diagnosis_api, pf_put_diagnosis_ar, pf_put_diagnosis_slot, pf_put_diagnosis_subslot, pf_put_diag_list, pf_put_diag_item", "src/device/pf_cmrdr.c: pf_cmrdr_rm_read_ind"]}
{"id": "C88", "title": "Real identification names exactly what is plugged", "statement": "A read of the real identification of a submodule, a slot, an API or a connection gives a record with exactly the plugged modules and submodules in that scope, each once with its identity, and an empty answer if what was asked for does not exist; the API list has exactly the known APIs; the contents can be recovered from the bytes.", "quantifier": "all histories of plug and pull calls, all table sizes, all expected configurations without duplicates, all buffers", "why_tests_cant": "Unbounded histories and table sizes; nested counts that are filled in later.", "anchors": ["src/device/pf_block_writer.c: pf_put_real_ident_data, pf_put_real_device_data, pf_put_api_data, pf_put_slot_data, pf_put_subslot_data", "src/device/pf_cmrdr.c: pf_cmrdr_rm_read_ind"]}
{"id": "C89", "title": "Expected identification names exactly what the connection expects", "statement": "A read of the expected identification of a submodule, a slot or a connection gives a record with exactly the modules and submodules that the connection expects there, and an empty list if nothing is expected.", "quantifier": "all expected configurations, scopes, buffers; with and without connection", "why_tests_cant": "All configurations; reads without a connection.", "anchors": ["src/device/pf_block_writer.c: pf_put_exp_ident_data, pf_put_exp_api_data, pf_put_exp_module_data, pf_put_exp_submodule_data"]}
{"id": "C90", "title": "I&M0 filter data names the submodules with I&M data", "statement": "The I&M0 filter data lists every submodule that has I&M data of its own, and names the submodule that stands for the device.", "quantifier": "all histories of plug and pull calls", "why_tests_cant": "All configurations.", "anchors": ["src/device/pf_block_writer.c: pf_put_im_0_filter_data"]}
{"id": "C91", "title": "The answer to a read carries the record and the names from the request", "statement": "A read request that is carried out is answered with its status, the lengths of the blocks, a block that repeats sequence number, connection, API, slot, subslot and index from the request and gives the length of the record, and then exactly the record; an unknown index is answered with the status invalid index and no record; the response buffer is never left, whatever its size; a message is taken as a read request exactly if it is one.", "quantifier": "all requests, records, buffers and positions, explicit and implicit reads", "why_tests_cant": "All request contents and buffer sizes; lengths patched after the fact.", "anchors": ["src/device/pf_cmrpc.c: pf_cmrpc_rm_read_ind", "src/device/pf_cmrdr.c: pf_cmrdr_rm_read_ind", "src/device/pf_block_writer.c: pf_put_read_result"]}
{"id": "C92", "title": "Records of the application", "statement": "For a read of a record with a user index the application callback is called exactly once, with the connection, place, index and sequence number of the request and the maximum length; what it returns up to this length is delivered unchanged; if it fails the controller gets its error; without a callback the answer is feature not supported.", "quantifier": "all requests, callbacks, data, buffers", "why_tests_cant": "All callbacks and lengths, in particular the longest data.", "anchors": ["include/pnet_api.h: pnet_read_ind", "src/device/pf_fspm.c: pf_fspm_cm_read_ind", "src/device/pf_cmrdr.c: pf_cmrdr_rm_read_ind"]}
{"id": "C93", "title": "A refused read is answered with the reason", "statement": "A read request that is not carried out (malformed, nil UUID in an explicit read, UUID of a connection in an implicit read, unknown API) is answered with a status that names the reason.", "quantifier": "all messages and states", "why_tests_cant": "All malformed and refused requests.", "anchors": ["src/device/pf_cmrpc.c: pf_cmrpc_rm_read_ind"]}
{"id": "C94", "title": "Records of the physical device", "statement": "Reading PDPortDataReal, PDPortStatistic, PDInterfaceDataReal or PDRealData with room in the response returns exactly the state of the port or interface that is named by slot and subslot (names, neighbour, addresses, type, link state, medium, statistics), and PDRealData all of them in order; a read that names no such port or interface is answered with invalid index.", "quantifier": "all interfaces, ports, requests, responses with room", "why_tests_cant": "All port numbers, names of any length (padding), neighbours present or not.", "anchors": ["src/device/pf_pdport.c: pf_pdport_read_ind", "src/device/pf_block_writer.c: pf_put_pdport_data_real, pf_put_pdinterface_data_real, pf_put_pd_multiblock_port_and_statistics"]}
{"id": "C95", "title": "Every read request ends", "statement": "Whatever maximum response size the requester states, a read request is answered (possibly with a truncated record or an error): the device does not hang.", "quantifier": "all requests, response sizes, states", "why_tests_cant": "The response size comes from the network; hangs only for certain sizes modulo four.", "anchors": ["src/device/pf_cmrpc.c: pf_cmrpc_dce_packet", "src/device/pf_block_writer.c: pf_put_padding_align"]}
{"id": "C96", "title": "The list of connections", "statement": "Reading ARData for the device returns every connection in use, in order, each with its identifiers, properties, names, communication relations and APIs, so that different sets of connections give different records; reading it for an API over a connection returns that connection with that API.", "quantifier": "all lists of connections, requests, responses with room", "why_tests_cant": "Injectivity over all connections; padding depends on name lengths.", "anchors": ["src/device/pf_block_writer.c: pf_put_ar_data, pf_put_one_ar", "src/device/pf_cmrdr.c: pf_cmrdr_rm_read_ind"]}
{"id": "C97", "title": "Reading the cyclic data of a subslot", "statement": "Reading RecordInputDataObject or RecordOutputDataObject of a subslot returns consumer status, provider status and data as the device currently has them, with their lengths, and invalid index if it has none of them; the response buffer is never left.", "quantifier": "all data, statuses, requests, buffers", "why_tests_cant": "All lengths and response sizes.", "anchors": ["src/device/pf_cmrdr.c: pf_cmrdr_rm_read_ind", "src/device/pf_block_writer.c: pf_put_input_data, pf_put_output_data"]}
{"id": "C98", "title": "Endpoint enumeration", "statement": "A client that repeatedly asks the endpoint mapper for the next endpoint is told the endpoint of the mapper, then that of the device, then that there are no more, whatever other clients and connections do in between; every request is answered unless all sessions are in use by others; after the last answer, or five seconds after the last request, the session is free.", "quantifier": "all tables of sessions, histories of events, requests, devices", "why_tests_cant": "Interleavings of any number of clients; the position is kept per activity in a session table.", "anchors": ["src/device/pf_cmrpc_epm.c: pf_cmrdr_inquiry_read_all_reg_ind, pf_cmrpc_lookup_request", "src/device/pf_cmrpc.c: pf_cmrpc_dce_packet, pf_session_allocate, pf_session_release"]}
{"id": "C99", "title": "Endpoints on the wire", "statement": "The answer of the endpoint mapper names the interface, its version, the transfer syntax, UDP with the port on which the device listens, and the IP address of the device, in the encoding of the protocol, on every processor.", "quantifier": "all devices, addresses, times, output buffers with room", "why_tests_cant": "Byte order depends on the host processor; tests run on one.", "anchors": ["src/device/pf_cmrpc_epm.c: pf_cmrdr_add_epmv4_entry, pf_cmrdr_add_pnio_entry", "src/device/pf_block_writer.c: pf_put_lookup_response_data"]}
{"id": "C100", "title": "The annotation of an endpoint", "statement": "The annotation in an endpoint has 64 bytes: the product name, the order number, the hardware revision and the software revision in fixed columns, so that a tool can read them back.", "quantifier": "all product names, order numbers and revisions", "why_tests_cant": "All lengths and values (the columns must not move).", "anchors": ["src/device/pf_cmrpc_epm.c: pf_cmrdr_add_epmv4_entry, pf_cmrdr_add_pnio_entry"]}
{"id": "C101", "title": "Sessions do not leak", "statement": "A datagram of a new activity takes a session of the device only as long as an exchange or a connection needs it; datagrams that concern nothing the device knows (stray fragments, unknown message types, unknown interfaces) leave all sessions available, so that later clients are served.", "quantifier": "all datagrams, histories, table sizes", "why_tests_cant": "A leak shows only after as many stray datagrams as there are sessions, and then for ever.", "anchors": ["src/device/pf_cmrpc.c: pf_cmrpc_dce_packet, pf_session_allocate, pf_session_release"]}
{"id": "C102", "title": "The answer to a connect describes the connection", "statement": "The answer to an accepted connect request tells the controller the values the device will use: the address of the device, for each CR its type, reference and the frame ID in use, the alarm endpoint that was reserved for the connection, and (if any) the module difference and the station name; the values can be read back from the answer.", "quantifier": "all devices, connection tables, connect requests, output buffers with room", "why_tests_cant": "All combinations of CRs, tables of other connections, module differences and start-up modes.", "anchors": ["src/device/pf_cmdev.c: pf_cmdev_rm_connect_ind", "src/device/pf_cmrpc.c: pf_cmrpc_rm_connect_rsp", "src/common/pf_alarm.c: pf_alarm_allocate_endpoint"]}
{"id": "C103", "title": "A refused connect is answered with the error only", "statement": "The answer to a connect request that is refused (by the stack or by the application) contains the error status and no blocks that describe a connection.", "quantifier": "all refusals, devices, requests", "why_tests_cant": "Refusals arise at many places; the return code decides whether blocks are sent.", "anchors": ["src/device/pf_cmdev.c: pf_cmdev_cm_connect_rsp_neg", "src/device/pf_cmrpc.c: pf_cmrpc_rm_connect_ind, pf_cmrpc_rm_connect_rsp"]}
{"id": "C105", "title": "An alarm says what was asked for", "statement": "If an alarm is accepted (process alarm of the application; diagnosis added, changed or removed; submodule pulled, plugged, plugged wrong or released), the frame that is sent has the priority, type, place, identification of module and submodule, and the data it was asked for with.", "quantifier": "all alarm kinds, devices, payloads, connections, diagnosis states", "why_tests_cant": "All payloads, identification numbers and diagnosis states; the bytes are produced by layers of writers that are tested for single examples.", "anchors": ["include/pnet_api.h: pnet_alarm_send_process_alarm, pnet_diag_add, pnet_plug_submodule", "src/common/pf_alarm.c: pf_alarm_send_alarm, pf_alarm_send_internal, pf_alarm_apms_a_data_req", "src/device/pf_block_writer.c: pf_put_alarm_block"]}
{"id": "C106", "title": "Alarms summarise the diagnoses of the submodule", "statement": "The alarm specifier and the maintenance status in each alarm describe exactly the diagnoses the submodule has when the alarm is sent: whether there are channel and manufacturer diagnoses, whether any of them is a fault (for the submodule, for the connection), required and demanded maintenance, and the qualifier bits.", "quantifier": "all histories of diagnoses, plugs, pulls and connections; all places and connections", "why_tests_cant": "All histories; the summary is computed over a linked list with severities and bit masks.", "anchors": ["src/common/pf_alarm.c: pf_alarm_get_diag_summary, pf_alarm_add_diag_item_to_summary"]}
{"id": "C107", "title": "Alarms keep the agreed size", "statement": "The contents of each alarm frame fit the frame buffer, the length field is right, and an alarm is sent exactly if its contents keep the maximum alarm length agreed with the controller.", "quantifier": "all alarms, limits of the controller, configurations", "why_tests_cant": "All lengths and limits; the checks use other lengths than those that are sent.", "anchors": ["src/common/pf_alarm.c: pf_alarm_send_alarm, pf_alarm_send_diagnosis"]}
{"id": "C108", "title": "The application gets the status of the acknowledgement", "statement": "When the controller acknowledges an alarm, the application is told the status in the acknowledgement (callback pnet_alarm_cnf).", "quantifier": "all acknowledgements, positions in the frame, paddings", "why_tests_cant": "All status values; tests look at the callback but not at the value.", "anchors": ["include/pnet_api.h: pnet_alarm_cnf", "src/common/pf_alarm.c: pf_alarm_apmr_a_data_ind, pf_alarm_alpmi_apmr_a_data_ind"]}
{"id": "C109", "title": "The application gets the alarms of the controller as sent", "statement": "For each alarm notification of the controller the application is told its type, place, sequence number, specifier, identifier, and exactly the data in the frame (callback pnet_alarm_ind).", "quantifier": "all notifications, with or without data, all frames", "why_tests_cant": "All contents, paddings and length fields.", "anchors": ["include/pnet_api.h: pnet_alarm_ind", "src/common/pf_alarm.c: pf_alarm_apmr_periodic, pf_alarm_apmr_a_data_ind, pf_alarm_alpmr_apmr_a_data_ind"]}
{"id": "C110", "title": "Alarm frames go to the connection they name", "statement": "A received alarm frame is queued for the connection whose active alarm endpoint it names, with the priority of its frame ID, and for no other; frames that name none are queued for nobody; the table of endpoints is never left.", "quantifier": "all tables of endpoints, all frames", "why_tests_cant": "All 65536 references and tables.", "anchors": ["src/common/pf_alarm.c: pf_alarm_apmr_frame_handler"]}
{"id": "C111", "title": "Acknowledgements name the alarm they belong to", "statement": "The acknowledgement the application sends for an alarm names the type, place, sequence number and specifier of this alarm and the given status; sequence numbers of notifications run modulo 2048.", "quantifier": "all alarm connections, alarms, statuses", "why_tests_cant": "All field values; the round trip from notification to acknowledgement.", "anchors": ["include/pnet_api.h: pnet_alarm_send_ack", "src/common/pf_alarm.c: pf_alarm_alpmr_alarm_ack, pf_alarm_send_internal", "src/device/pf_block_writer.c: pf_put_alarm_block"]}
{"id": "C112", "title": "Alarm frames are taken only from the controller", "statement": "An alarm frame has an effect on a connection only if it was sent by the controller of this connection.", "quantifier": "all frames, tables of endpoints", "why_tests_cant": "All senders and references.", "anchors": ["src/common/pf_alarm.c: pf_alarm_apmr_frame_handler, pf_alarm_apmr_periodic"]}
{"id": "C113", "title": "A release request releases the connection it names", "statement": "A release request is carried out exactly if it is one release block with the command 'release' that names an existing connection. Then this connection is released and no other, and the answer repeats the block with the command 'done' and the status of the release. Any other request changes nothing and is answered with an error. The answer never leaves the buffer.", "quantifier": "all messages of any length and content, all tables of connections, all positions in the answer buffer", "why_tests_cant": "All byte sequences; the answer is written twice with lengths patched in between, and the message is parsed by a loop over blocks.", "anchors": ["src/device/pf_cmrpc.c: pf_cmrpc_rm_release_ind, pf_cmrpc_rm_release_interpret_req, pf_cmrpc_rm_release_rsp"]}
{"id": "C114", "title": "A release request must match its announcement", "statement": "A release request is carried out only if its length is the announced one and its session key is that of the connection; errors in it are answered with the error code of release requests.", "quantifier": "all messages, announced lengths, session keys", "why_tests_cant": "All lengths and keys; wrong requests are rarely tested.", "anchors": ["src/device/pf_cmrpc.c: pf_cmrpc_rm_release_ind, pf_cmrpc_rm_release_interpret_req"]}
{"id": "C115", "title": "The end of parameterisation is told to the connection named", "statement": "A DControl request with a new sequence number leads to exactly one call, for the connection it names, if it has the announced length and a block with the command 'parameter end'; the answer has the status of this call and, without error, repeats the block with the command 'done'. Any other request leads to no call and is answered with an error. The answer never leaves the buffer.", "quantifier": "all messages of any length and content, connections, sequence numbers, results of the call", "why_tests_cant": "All byte sequences and all results of the state machines below.", "anchors": ["src/device/pf_cmrpc.c: pf_cmrpc_rm_dcontrol_ind, pf_cmrpc_rm_dcontrol_interpret_req, pf_cmrpc_rm_dcontrol_rsp"]}
{"id": "C116", "title": "Repeated DControl requests are answered but not carried out again", "statement": "A DControl request is taken for a repetition exactly if the same request was received before on the session; a repetition leads to no call and gets the same answer, byte by byte.", "quantifier": "all messages, sessions, sequence numbers, changes of the connections in between", "why_tests_cant": "All sequence numbers, including the one used as mark for none.", "anchors": ["src/device/pf_cmrpc.c: pf_cmrpc_rm_dcontrol_ind, pf_session_allocate"]}
{"id": "C117", "title": "The application ready request says what is ready", "statement": "The application ready request the device sends names the connection, its session key, the command 'application ready', for a plugged submodule the alarm it belongs to, and the module difference, with right lengths in all headers; if it does not fit one datagram the first one is a fragment of the largest size.", "quantifier": "all connections, module differences, datagram sizes, buffer sizes", "why_tests_cant": "All differences of any size and all lengths; headers are patched after the contents are written.", "anchors": ["include/pnet_api.h: pnet_application_ready", "src/device/pf_cmrpc.c: pf_cmrpc_rm_ccontrol_req"]}
{"id": "C118", "title": "Only a confirmation for the connection confirms application ready", "statement": "The application ready request of a connection is confirmed exactly if the response has the announced length and a block with the command 'done' that names this connection and its session key.", "quantifier": "all responses, connections, session keys", "why_tests_cant": "All byte sequences; tests send matching responses.", "anchors": ["src/device/pf_cmrpc.c: pf_cmrpc_rm_ccontrol_cnf, pf_cmrpc_rm_ccontrol_interpret_cnf"]}
{"id": "C119", "title": "Every DControl request is answered", "statement": "A DControl request is answered, positively or with an error, whatever the state machines decide.", "quantifier": "all requests, results of the state machines", "why_tests_cant": "The answer is sent through the session, whose life depends on the decision.", "anchors": ["src/device/pf_cmrpc.c: pf_cmrpc_rm_dcontrol_ind, pf_cmrpc_cmdev_state_ind, pf_session_release"]}
{"id": "C120", "title": "Standard and manufacturer diagnoses are two independent tables", "statement": "For each submodule, pnet_diag_std_add, _update and _remove work on one table (by channel and error types), and pnet_diag_usi_add, _update and _remove on another one (by identifier): after any history of calls, plugs and pulls the device has exactly the diagnoses the application told it, with the values it told, in the configured format, and no call about one diagnosis touches another one.", "quantifier": "all histories of calls, plugs and pulls; all places, channels, values, both formats", "why_tests_cant": "All histories; both kinds of calls share one linked list and one search function with different comparisons.", "anchors": ["include/pnet_api.h: pnet_diag_std_add, pnet_diag_std_update, pnet_diag_std_remove, pnet_diag_usi_add, pnet_diag_usi_update, pnet_diag_usi_remove", "src/device/pf_diag.c: pf_diag_std_add, pf_diag_usi_add, pf_diag_find_entry"]}
{"id": "C121", "title": "SNMP answers with what was set last", "statement": "The system name, contact and location that SNMP reads are those that were set last by SNMP (for the location: or by a write of I&M record 1), or empty after a factory reset or if never set; they survive restarts if the file could be written, and each set call that returns 0 has this effect.", "quantifier": "all histories of SNMP sets, I&M writes, resets and restarts; all texts; all failures of files", "why_tests_cant": "All histories including restarts with failing files; two variables store one location.", "anchors": ["src/common/pf_snmp.h: pf_snmp_set_system_name, pf_snmp_get_system_name, pf_snmp_set_system_contact, pf_snmp_get_system_contact, pf_snmp_set_system_location, pf_snmp_get_system_location", "src/common/pf_snmp.c: pf_snmp_data_clear, pf_snmp_data_init, pf_snmp_fspm_im_location_ind"]}
{"id": "C122", "title": "Location by SNMP and by I&M agree", "statement": "The location in I&M record 1 is always the first 22 characters, filled with blanks, of the location that SNMP reads.", "quantifier": "all histories of SNMP sets, I&M writes, resets and restarts", "why_tests_cant": "All histories; the two values are kept in different files and changed by different requests.", "anchors": ["src/common/pf_snmp.c: pf_snmp_set_system_location, pf_snmp_fspm_im_location_ind, pf_snmp_get_system_location", "src/device/pf_fspm.c: pf_fspm_cm_write_ind", "src/device/pf_cmina.c: pf_cmina_set_default_cfg"]}
{"id": "C123", "title": "Link status in SNMP has the meaning of the MIB", "statement": "SNMP is told exactly the autonegotiation support, autonegotiation enabled, MAU type and advertised capabilities; each capability under its number in RFC 4836 (ifMauAutoNegCapAdvertisedBits).", "quantifier": "all link states, all capabilities", "why_tests_cant": "All sets of capabilities; tests compare with the present encoding.", "anchors": ["src/common/pf_snmp.h: pf_snmp_get_link_status, pf_snmp_get_peer_link_status", "src/common/pf_snmp.c: pf_snmp_encode_link_status", "include/pnal.h: PNAL_ETH_AUTONEG_CAP_*"]}
{"id": "C124", "title": "SNMP is told the neighbour as it announced itself", "statement": "After every history of LLDP frames and timeouts, SNMP is told about the neighbour exactly what the last valid frame of this neighbour says (names, address, interface, delays, link), and nothing when no neighbour is known; no array is written outside.", "quantifier": "all histories of received LLDP frames and time", "why_tests_cant": "All frames and histories; conversions between the wire, the store and SNMP.", "anchors": ["src/common/pf_snmp.h: pf_snmp_get_peer_chassis_id, pf_snmp_get_peer_port_id, pf_snmp_get_peer_port_description, pf_snmp_get_peer_management_address, pf_snmp_get_peer_management_port_index, pf_snmp_get_peer_signal_delays, pf_snmp_get_peer_link_status"]}
{"id": "C125", "title": "The device identifies itself with one text", "statement": "The system description has 80 characters with product name, order number, serial number, hardware and software revision in fixed columns; the chassis id of LLDP (standard mode) is the same text; the annotation of the endpoint mapper is the same without the serial number; two devices have the same text only if they have the same identity.", "quantifier": "all names that fit the configuration, all revisions", "why_tests_cant": "All names and revisions; formatted output with minimum widths, arrays of fixed size.", "anchors": ["src/common/pf_lldp.c: pf_lldp_get_system_description, pf_lldp_get_chassis_id", "src/common/pf_snmp.h: pf_snmp_get_system_description", "src/device/pf_block_writer.c: pf_put_rpc_epm_annotation"]}
{"id": "C126", "title": "Hello messages say who the device is", "statement": "A DCP Hello message that the device sends goes to the Hello multicast address and contains the station name, the IP parameters with the information that they are set, device identity, OEM identity, device role and initiative, as an Identify response of the same device would say them.", "quantifier": "all station names, addresses, identities; both byte orders of the machine", "why_tests_cant": "All names and addresses, block padding and lengths; tests compare one frame.", "anchors": ["src/common/pf_dcp.c: pf_dcp_hello_req, pf_dcp_hello_ind", "src/device/pf_cmina.c: pf_cmina_dcp_get_req"]}
{"id": "C127", "title": "Hello messages after a start", "statement": "After a start with a name, an address and send_hello in the configuration the device sends Hello messages until there were three, at least the interval apart; fewer only if a DCP Set request for name, address or reset came before, after which none is sent; a device without name or address or without send_hello sends none; every message says the name and address of that time.", "quantifier": "all histories of DCP requests, connections, timer runs, failing buffers and timers between two starts", "why_tests_cant": "All interleavings of requests and timer runs; the time of the runs is arbitrary.", "anchors": ["src/device/pf_cmina.c: pf_cmina_init, pf_cmina_send_hello, pf_cmina_dcp_set_ind", "src/common/pf_dcp.c: pf_dcp_hello_req"]}
{"id": "C128", "title": "The state that the application tells is in the cyclic frames of every connection", "statement": "What the application last told with pnet_set_primary_state, pnet_set_redundancy_state and pnet_set_provider_state is the data status of the cyclic frames of every connection: state, redundancy and provider bits each follow the last call of their kind, other bits do not change; a connection for which nothing was told shows primary, stopped.", "quantifier": "all histories of calls, connections made and ended, all numbers of connections", "why_tests_cant": "All orders of calls and connections; tests set each state once with one connection.", "anchors": ["include/pnet_api.h: pnet_set_primary_state, pnet_set_redundancy_state, pnet_set_provider_state", "src/common/pf_ppm.c: pf_ppm_set_data_status_state, pf_ppm_set_data_status_redundancy, pf_ppm_set_data_status_provider, pf_ppm_init_cr_config"]}
{"id": "C129", "title": "UDP sockets are used in order", "statement": "The device uses only sockets that are open, never closes its two server sockets, and every other open socket belongs to exactly one session that the device began, so that at most as many sockets as sessions are open; whatever requests, answers, timeouts and aborts come in what order, and no NULL pointer is used on the way.", "quantifier": "all histories of application ready requests, packets of any kind for any session on any socket, timeouts, aborts; all results of opening and sending; all numbers of sessions and resends", "why_tests_cant": "All interleavings of packets and timeouts of many sessions; leaks and double closing show only after long runs.", "anchors": ["src/device/pf_cmrpc.c: pf_session_allocate, pf_session_release, pf_cmrpc_periodic, pf_cmrpc_dce_packet, pf_cmrpc_send_with_timeout, pf_cmrpc_rm_ccontrol_req"]}
{"id": "C130", "title": "An application ready request is repeated until it is answered or given up", "statement": "After pnet_application_ready has returned 0 the request has been sent, and is sent again each time the timeout passes until the controller confirms it or the connection is aborted; after the last repetition the connection is aborted.", "quantifier": "all histories; all numbers of resends", "why_tests_cant": "All orders of timeouts, answers and other sessions; tests see one answer at once.", "anchors": ["include/pnet_api.h: pnet_application_ready", "src/device/pf_cmrpc.c: pf_cmrpc_rm_ccontrol_req, pf_cmrpc_send_with_timeout, pf_cmrpc_dce_packet, pf_cmrpc_periodic"]}
{"id": "C131", "title": "Activity UUIDs are unique", "statement": "No two of up to 2^32 sessions after each other get the same activity UUID from the device, devices with different MAC addresses never make up the same one, and all are of version 1 and variant 1.", "quantifier": "all times, session numbers and MAC addresses", "why_tests_cant": "The number of values; tests compare one UUID.", "anchors": ["src/device/pf_cmrpc_helpers.c: pf_generate_uuid", "src/device/pf_cmrpc.c: pf_session_allocate"]}
{"id": "C132", "title": "Access to the shared SRAM is exact", "statement": "With the LAN9662 driver, writing bytes to any address of the SRAM changes exactly those bytes, and reading gives exactly the bytes at the address, although the hardware is accessed in words; accesses beyond the end are refused.", "quantifier": "all memory contents, addresses, lengths and byte orders of the machine", "why_tests_cant": "All alignments and lengths with all neighbouring contents; needs the hardware.", "anchors": ["src/drivers/lan9662/src/pf_sram_uio.c: pf_sram_write, pf_sram_read, reg_read, reg_write"]}
{"id": "C133", "title": "Hardware resources are never shared and never lost", "statement": "With the LAN9662 driver, no two frames of connections share a rule, VLAN entry, protocol entry, action list or SRAM frame; a closed connection gives back all it took; as long as fewer connections are open than there are resources a new one gets all it needs; and a connection that cannot get them is refused.", "quantifier": "all histories of opening, starting (with any failures of the hardware) and closing connections; all limits", "why_tests_cant": "Leaks show after many connections; needs the hardware and injected failures.", "anchors": ["src/drivers/lan9662/src/pf_lan9662_mera.c: pf_mera_ppm_alloc, pf_mera_cpm_alloc, pf_mera_ppm_free, pf_mera_cpm_free, pf_mera_ppm_start, pf_mera_ppm_stop", "src/drivers/lan9662/src/pf_sram_uio.c: pf_sram_frame_alloc, pf_sram_frame_free"]}
{"id": "C134", "title": "Every submodule has its own area in the SRAM", "statement": "With the LAN9662 driver, the data of each subslot of each open connection has an area of its own in the SRAM, inside the part set aside, that overlaps no other.", "quantifier": "all histories and all io data objects of accepted connections", "why_tests_cant": "All combinations of slots, subslots, offsets and connections.", "anchors": ["src/drivers/lan9662/src/pf_lan9662_mera.c: get_rte_object, pf_mera_ppm_config, pf_mera_cpm_config"]}
{"id": "C135", "title": "The hardware works with the requested cycle time", "statement": "With the LAN9662 driver, frames are sent every send clock factor times reduction ratio times 31.25 us, and received frames are supervised with that time and the requested data hold factor.", "quantifier": "all parameters of accepted connections", "why_tests_cant": "All pairs of factors; overflow shows for few.", "anchors": ["src/drivers/lan9662/src/pf_lan9662_mera.c: pf_mera_ppm_alloc, pf_mera_cpm_activate_rte_dht", "src/common/pf_cpm.c: pf_cpm_activate_req"]}
{"id": "C136", "title": "Loss of received frames is noticed in time", "statement": "With the LAN9662 driver, a connection whose frames stay away is aborted after as many intervals as the data hold factor says, not before, once, and never while frames come; data exchange starts with the first frame whose provider is in operation.", "quantifier": "all histories of counters, data status and events of the hardware, all data hold factors", "why_tests_cant": "All sequences of arriving and missing frames; needs the hardware.", "anchors": ["src/drivers/lan9662/src/pf_cpm_driver_lan9662.c: pf_cpm_drv_lan9662_ci_timeout, pf_cpm_drv_lan9662_close_req", "src/drivers/lan9662/src/pf_lan9662_mera.c: pf_mera_cpm_read_rx_count, pf_mera_poll_cpm_events"]}
{"id": "C137", "title": "Values set by the application reach the hardware", "statement": "With the LAN9662 driver, data, provider status, consumer status and data status set by the application are what the hardware sends from then on, nothing else changes, and reading gives what was set (or received).", "quantifier": "all values, objects and answers of the hardware", "why_tests_cant": "All values at all places, before and after the start.", "anchors": ["src/drivers/lan9662/src/pf_ppm_driver_lan9662.c: pf_ppm_drv_lan9662_write_data_and_iops, pf_ppm_drv_lan9662_write_iocs, pf_ppm_drv_lan9662_write_data_status", "src/drivers/lan9662/src/pf_lan9662_mera.c: pf_mera_ppm_read_data_and_iops, pf_mera_cpm_read_iocs"]}
{"id": "C138", "title": "Settings for the hardware are kept as made", "statement": "With the LAN9662 driver, the setting made with pnet_mera_input_set_rte_config or pnet_mera_output_set_rte_config for a subslot holds for the inputs or outputs of that subslot until it is made anew, and no other setting changes.", "quantifier": "all settings, APIs, slots and subslots", "why_tests_cant": "All orders of settings.", "anchors": ["src/drivers/lan9662/include/pnet_lan9662_api.h: pnet_mera_input_set_rte_config", "src/drivers/lan9662/src/pf_lan9662_mera.c: pnet_mera_input_set_rte_config, pnet_mera_output_set_rte_config"]}
{"id": "C139", "title": "A cyclic frame shows the inputs of one moment", "statement": "However many threads set input data and consumer status while the stack sends, every frame carries for each submodule the complete value of the last call that had finished, with data and provider status of the same call; no value is ever sent half written; and no call waits for ever.", "quantifier": "all numbers of threads, calls, values, layouts and interleavings of single byte accesses", "why_tests_cant": "Torn values depend on the timing of threads; tests see few interleavings.", "anchors": ["src/common/pf_ppm_driver_sw.c: pf_ppm_driver_sw_write_data_and_iops, pf_ppm_driver_sw_write_iocs, pf_ppm_driver_sw_read_data_and_iops, pf_ppm_finish_buffer"]}
{"id": "C140", "title": "Outputs can be read while frames arrive", "statement": "While frames arrive, pnet_output_get_data_and_iops gives data and status of one frame only, the newest received before the call or a newer one, never an older one than the call before; the flag says truly whether it is another frame; memory of frames is never used after it is freed, and is freed once.", "quantifier": "all interleavings of the receiving thread with an application thread, all sequences of frames and reads", "why_tests_cant": "Depends on the timing of threads; tests see few interleavings.", "anchors": ["src/common/pf_cpm_driver_sw.c: pf_cpm_put_buf, pf_cpm_get_buf, pf_cpm_c_data_ind, pf_cpm_driver_sw_get_data_and_iops, pf_cpm_driver_sw_get_iocs"]}
{"id": "C141", "title": "A connection can be closed while frames arrive", "statement": "Closing a connection while frames arrive in the receiving thread touches no freed memory and no destroyed lock, and every received frame is freed exactly once.", "quantifier": "all interleavings of the receiving thread with the closing of the connection, after all histories", "why_tests_cant": "Depends on the timing of threads; the window is a few instructions.", "anchors": ["src/common/pf_cpm_driver_sw.c: pf_cpm_driver_sw_close_req, pf_cpm_put_buf", "src/common/pf_cpm.c: pf_cpm_close_req"]}
{"id": "C142", "title": "An accepted connection finds all it expects", "statement": "If a connect request is accepted, then a new connection exists with the requested name, and every submodule that the controller expects is plugged and controlled, by the new connection unless another one controls it; slot, subslot and ident numbers are allowed ones and none is listed twice.", "quantifier": "all histories of the device, all connect requests, all that the application plugs in callbacks", "why_tests_cant": "Depends on combinations of the request, the plugged configuration and what callbacks plug; numbers range over 16 bits.", "anchors": ["src/device/pf_cmdev.c: pf_cmdev_exp_apis_configure, pf_cmdev_exp_modules_configure, pf_cmdev_exp_submodule_configure", "src/device/pf_cmrpc.c: pf_cmrpc_rm_connect_ind"]}
{"id": "C143", "title": "Data calls act on the connection that controls the submodule", "statement": "While several controllers are connected, input data, provider status and consumer status given by the application for a submodule appear in the frames of exactly the connection that controls the submodule at the time of the call; output data is read from the last frame delivered on that connection. All other connections stay as they are. If no connection controls the submodule the call is refused. A new connection starts with zeros, whatever an earlier connection in the same table entry sent or received.", "quantifier": "all histories of plugging, pulling, connects, ends of connections, data calls, transmissions and receptions; any number of connections and submodules", "why_tests_cant": "Depends on who owned which submodule when each call was made, over arbitrary interleavings of several controllers and re-used table entries.", "anchors": ["src/common/pf_ppm.c: pf_ppm_get_ar_iocr_desc, pf_ppm_set_data_and_iops", "src/common/pf_cpm.c: pf_cpm_get_ar_iocr_desc, pf_cpm_get_data_and_iops", "src/device/pf_cmrpc.c: pf_ar_allocate, pf_ar_release"]}
{"id": "C144", "title": "With device-chosen frame IDs every frame reaches the connection it is meant for", "statement": "If the controllers leave the choice of the output frame IDs to the device, then after any history of IO connections starting and ending every incoming PROFINET frame is given to the output CR of the running connection that has its frame ID, DCP frames to DCP, and alarm frames to the alarm handler while any connection runs; all other frames are left to the operating system. In particular a connection that ends takes nothing away from the others and leaves nothing behind, and the table of handlers never overflows.", "quantifier": "all histories of connects and ends in any order, any number of connections, CRs and RT classes up to the configured limits; all frames with any VLAN tags", "why_tests_cant": "The handler table is shared by DCP, all connections and alarms, entries are re-used, and frame IDs are chosen depending on all other connections; a test covers a few orders.", "anchors": ["src/common/pf_eth.c: pf_eth_frame_id_map_add, pf_eth_frame_id_map_remove, pf_eth_recv", "src/common/pf_cpm_driver_sw.c: pf_cpm_driver_sw_activate_req, pf_cpm_driver_sw_close_req", "src/common/pf_alarm.c: pf_alarm_apmx_activate, pf_alarm_apmx_close, pf_alarm_allocate_endpoint", "src/common/pf_dcp.c: pf_dcp_init", "src/device/pf_cmsu.c: pf_cmsu_start_req, pf_cmsu_cmdev_state_ind", "src/device/pf_cmdev.c: pf_cmdev_fix_frame_id"]}
{"id": "C145", "title": "Every frame reaches the connection it is meant for, whatever the controllers ask for", "statement": "After any history of connections (IO connections with device-chosen or given frame IDs, connections for device access, refused connections, failed starts) every incoming PROFINET frame is given to the owner of its frame ID, as in C144.", "quantifier": "all histories of connects and ends, all frame IDs asked for by controllers", "why_tests_cant": "Requires reasoning about all combinations of connections and their frame IDs.", "anchors": ["src/common/pf_eth.c: pf_eth_frame_id_map_add, pf_eth_frame_id_map_remove", "src/device/pf_cmdev.c: pf_cmdev_check_iocr_param, pf_cmdev_fix_frame_id", "src/device/pf_cmsu.c: pf_cmsu_start_req"]}
{"id": "C146", "title": "Every request to end a connection ends it, and only it", "statement": "A connection that the application was told STARTUP of is ended by each of: pnet_ar_abort, a release request with its UUID on any session, a CANCEL, FAULT or REJECT packet on a session of the connection, and a connect request with the UUID of the connection. The application is told ABORT exactly once, the connection's entry is free, no session refers to it, its submodules are given up, the session of the request is free, and no other connection is changed. A CANCEL, FAULT or REJECT packet on an unknown session changes nothing, on a session without connection it only frees the session.", "quantifier": "all histories of packets, timers and API calls (orderly or not), all states of all connections, all such requests", "why_tests_cant": "The state reached before the request depends on the whole history; each of the requests takes a different path through the state machines of CMDEV and the session table.", "anchors": ["src/device/pf_cmrpc.c: pf_cmrpc_dce_packet, pf_cmrpc_rm_release_ind, pf_cmrpc_rm_connect_ind, pf_cmrpc_cmdev_state_ind, pf_ar_find_by_uuid", "src/device/pf_cmdev.c: pf_cmdev_cm_abort, pf_cmdev_rm_release_ind, pf_cmdev_state_ind", "src/device/pnet_api.c: pnet_ar_abort"]}
{"id": "C147", "title": "Connections have different UUIDs", "statement": "At any time no two connections in use have the same AR UUID, so a request that names a UUID concerns one connection only.", "quantifier": "all histories of packets, timers and API calls", "why_tests_cant": "Depends on all orders of connects, refusals, aborts and releases.", "anchors": ["src/device/pf_cmrpc.c: pf_cmrpc_rm_connect_ind, pf_ar_find_by_uuid, pf_ar_allocate"]}
{"id": "C148", "title": "A factory reset or change of identity ends all connections", "statement": "pnet_factory_reset, and a DCP request that changes the station name, removes the IP address or resets the device, ends every connection the application was told STARTUP of: ABORT is reported exactly once for each, nothing else is reported, their entries are free, and no session or submodule belongs to one of them. The number pf_cmina_abort_active_ars returns is the number of connections there were, and pf_cmina_nbr_of_active_ars is 0 afterwards.", "quantifier": "all histories of packets, timers and API calls (orderly or not), any number of connections in any states", "why_tests_cant": "Each connection can be in any of the states reached by its own history; tests reset a device with one connection in data exchange.", "anchors": ["src/device/pnet_api.c: pnet_factory_reset", "src/device/pf_cmina.c: pf_cmina_abort_active_ars, pf_cmina_nbr_of_active_ars", "src/device/pf_cmdev.c: pf_cmdev_cm_abort, pf_cmdev_state_ind"]}
{"id": "C149", "title": "pnet_remove_data_files removes all saved data", "statement": "After pnet_remove_data_files with the directory used by the stack, none of the files in which the stack saves data exists (I&M data, IP and name, diagnoses, SNMP texts, port data of each port), so loading any of them fails and the configured values are used at the next start. No other file is changed.", "quantifier": "all contents of the file system, all directories, all path limits, with and without SNMP, any number of ports", "why_tests_cant": "A test sees the files that one history made; a forgotten file only shows after a history that saved it.", "anchors": ["src/device/pf_cmina.c: pf_cmina_remove_all_data_files", "src/common/pf_snmp.c: pf_snmp_remove_data_files", "src/device/pf_pdport.c: pf_pdport_remove_data_files, pf_pdport_get_filename", "src/common/pf_file.c: pf_file_clear"]}
{"id": "C150", "title": "pnet_init accepts exactly the documented configurations", "statement": "pnet_init returns a stack exactly if memory is available, the configuration is valid (not NULL, tick not 0, main interface named, 1 to PNET_MAX_PHYSICAL_PORTS ports, min_device_interval 1 to 0x1000, no I&M records supported other than 1 to 4) and all interfaces (and SNMP) can be started. With one port the main interface is opened for all frames; with several ports the main interface is opened for PROFINET frames and each port once for LLDP frames. For a refused configuration no interface is opened and the memory is returned.", "quantifier": "all configurations, all values of PNET_MAX_PHYSICAL_PORTS, all answers of the platform", "why_tests_cant": "Each field has a large range; the combinations of failing interfaces are many.", "anchors": ["src/device/pf_fspm.c: pf_fspm_validate_configuration, pf_fspm_init", "src/device/pnet_api.c: pnet_init, pnet_init_only", "src/common/pf_eth.c: pf_eth_init, pf_eth_init_netif"]}
{"id": "C151", "title": "After a failed pnet_init nothing refers to the stack", "statement": "If pnet_init returns NULL, the platform has no receive callback with the returned memory as argument.", "quantifier": "all configurations, all answers of the platform", "why_tests_cant": "Needs an interface that fails after another was opened, and a frame received afterwards.", "anchors": ["src/device/pnet_api.c: pnet_init", "src/common/pf_eth.c: pf_eth_init, pf_eth_init_netif"]}
{"id": "C152", "title": "A connection returns all its resources when it ends", "statement": "Whatever connections start, exchange data and end, in any order: the frame buffers and timers in use are exactly those of the running connections, each once; a connection that ends returns all its buffers, timers and counts; the locks of the process data exist while a running connection needs them, and when no connection is left nothing is left; no buffer is freed twice and no lock is used that does not exist; each output CR is supervised by exactly one timer.", "quantifier": "all histories of starts (with any number of CRs of any types), activations, frames, reads, writes, timer expiries and ends", "why_tests_cant": "A device runs for years with any number of reconnects; a leak of one buffer per connection shows only after thousands of them.", "anchors": ["src/device/pf_cmsu.c: pf_cmsu_start_req, pf_cmsu_cmdev_state_ind", "src/common/pf_ppm.c: pf_ppm_create, pf_ppm_activate_req, pf_ppm_close_req", "src/common/pf_cpm.c: pf_cpm_create, pf_cpm_activate_req, pf_cpm_close_req", "src/common/pf_cpm_driver_sw.c: pf_cpm_driver_sw_close_req, pf_cpm_put_buf, pf_cpm_get_buf, pf_cpm_control_interval_expired", "src/common/pf_ppm_driver_sw.c"]}
{"id": "C153", "title": "A timer is always available", "statement": "Whatever connections, sessions, alarms, ports and DCP requests are active at the same time within the configured limits, every timer that the stack wants to start is available: the table of timers is large enough for all of them.", "quantifier": "all limits, all histories of LLDP, DCP, endpoint mapper, connect, read, write, control and alarm events, timer expiries and ends of connections", "why_tests_cant": "The table is shared by all parts of the stack; it overflows only when many of them are active at once, or after a number of alarms within one retransmission time.", "anchors": ["src/pf_types.h: PF_MAX_TIMEOUTS", "src/common/pf_scheduler.c: pf_scheduler_add", "src/common/pf_alarm.c: pf_alarm_apms_apms_a_data_req, pf_alarm_apms_a_data_ind", "src/device/pf_cmio.c: pf_cmio_cmdev_state_ind", "src/device/pf_cmrpc.c: pf_cmrpc_send_with_timeout", "src/device/pf_cmsu.c"]}
{"id": "C154", "title": "A refused connect request is answered with an error that names what is wrong with it", "statement": "If the checks of a connect request refuse it, the answer carries an error, and what the two codes of the error name (block and field) is indeed wrong with the request; a request with nothing wrong is accepted, and an accepted request meets all conditions.", "quantifier": "all connect requests (AR, IOCR, alarm, expected submodule and AR RPC blocks with any number of APIs, modules, submodules and frame entries), all configurations of the device", "why_tests_cant": "Some 60 conditions in nested loops, some of which go on after an error and replace it; tests cover a handful of faults, one at a time.", "anchors": ["src/device/pf_cmdev.c: pf_cmdev_check_apdu, pf_cmdev_check_iocr_apis, pf_cmdev_exp_submodule_configure, pf_cmdev_iocr_setup_iocs, pf_cmdev_cm_connect_rsp_neg", "src/device/pf_cmrpc.c: pf_cmrpc_rm_connect_ind"]}
{"id": "C104", "title": "Every connect request is answered", "statement": "Whatever a connect request contains, including the maximum size of the response, building the answer ends and stays within the buffer, and the answer is sent.", "quantifier": "all connect requests, devices, maximum response sizes", "why_tests_cant": "All sizes of the response; non-termination cannot be observed by a test that passes.", "anchors": ["src/device/pf_cmrpc.c: pf_cmrpc_rm_connect_rsp, pf_cmrpc_cmdev_state_ind", "src/device/pf_block_writer.c: pf_put_ar_server_result, pf_put_padding_align", "src/device/pf_cpm.c: pf_cpm_activate_req"]}
{"id": "C155", "title": "Alarm traffic does not crash the device", "statement": "Whatever alarms and acknowledgements the application and the controller exchange, in whatever order and with whatever losses, the alarm machines never use a null pointer.", "quantifier": "all sequences of received alarm frames, alarms sent and acknowledged by the application, timer expiries, failing transmissions and timers, both priorities", "why_tests_cant": "The crash needs two frames that cross on the network; tests exchange alarms one after the other.", "anchors": ["src/common/pf_alarm.c: pf_alarm_apms_apms_a_data_req, pf_alarm_alpmi_apms_a_data_cnf, pf_alarm_alpmr_apms_a_data_cnf, pf_alarm_error_ind", "src/device/pf_cmrpc.c: pf_cmrpc_cmdev_state_ind, pf_ar_release"]}
{"id": "C156", "title": "The reason for the end of a connection is told", "statement": "When a connection ends, the class and code that the application gets (pnet_get_ar_error_codes in its callback), and the code in the error frame to the controller, are those documented for the cause: released, start-up timeout, outputs lost, alarm not acknowledged, aborted by the application, replaced by a new connection, and so on.", "quantifier": "all sequences of requests, calls of the application, timer expiries, errors of the machines and DCP requests that end connections, all connections, frames that can be sent or not", "why_tests_cant": "The codes are set in twenty places and read in one; codes can be left over from events long before. Tests end a connection right after its start, by one cause.", "anchors": ["src/device/pnet_api.c: pnet_get_ar_error_codes", "src/device/pf_cmdev.c: pf_cmdev_rm_release_ind, pf_cmdev_rm_dcontrol_ind", "src/device/pf_cmsu.c: pf_cmsu_alarm_error_ind, pf_cmsu_cpm_error_ind, pf_cmsu_ppm_error_ind", "src/device/pf_cmsm.c: pf_cmsm_timeout", "src/device/pf_cmina.c: pf_cmina_abort_active_ars", "src/common/pf_alarm.c: pf_alarm_close, pf_alarm_apmx_close", "include/pnet_api.h: PNET_ERROR_CODE_2_*"]}
{"id": "C157", "title": "The response to a write tells what was written", "statement": "The response to a write request is well-formed: status, length and one result block of 64 bytes for each write that was looked at, in the order of the request, each with the names and the status of its write; the announced length is that of the blocks; and the response stays inside the room that the controller has left for it.", "quantifier": "all requests (any bytes), all numbers and sizes of records, all answers of the application, all positions and sizes of the response buffer", "why_tests_cant": "The lengths are put first with the numbers of the request and replaced later, but not on every path; every put function silently stops at the end of the buffer. Tests write one or two records with a full-size buffer.", "anchors": ["src/device/pf_cmrpc.c: pf_cmrpc_rm_write_ind", "src/device/pf_block_writer.c: pf_put_write_result, pf_put_pnet_status"]}
{"id": "C158", "title": "Alarms of an earlier connection do not affect a new one", "statement": "When a connection has ended and the same entry of the table of connections is used for a new one, alarms of the new connection are sent, repeated and given up only according to its own negotiated parameters: timers started for alarms of earlier connections have no effect.", "quantifier": "all sequences of connections of an entry with any parameters, all sequences of alarms, frames, lost frames, missing buffers and timers, any time between them", "why_tests_cant": "A timer must be left over, expire after the new connection is made, and within the few milliseconds in which an alarm waits for its acknowledgement. Tests close a connection and end.", "anchors": ["src/common/pf_alarm.c: pf_alarm_apmx_close, pf_alarm_apmx_activate, pf_alarm_apms_timeout, pf_alarm_apms_apms_a_data_req, pf_alarm_apms_a_data_ind", "src/device/pf_cmrpc.c: pf_ar_release", "src/common/pf_scheduler.c: pf_scheduler_add, pf_scheduler_remove_if_running"]}
{"id": "C159", "title": "A running connection can be parameterised again", "statement": "In data exchange a controller can announce new parameters (DControl request parameter begin), write records and end this with parameter end. The application gets both in its DControl call-back, both are answered without error, and data exchange goes on.", "quantifier": "all histories of requests, answers, timers and application calls, any connection in data exchange, any request with a new sequence number, all bytes of the request", "why_tests_cant": "The controllers used in tests send parameters only during start-up, and the state machine for this (CMPBE) has many states that no test enters.", "anchors": ["src/device/pf_cmpbe.c: pf_cmpbe_rm_dcontrol_ind, pf_cmpbe_cmdev_state_ind", "src/device/pf_cmdev.c: pf_cmdev_rm_dcontrol_ind", "src/device/pf_cmrpc.c: pf_cmrpc_rm_dcontrol_ind, pf_cmrpc_rm_dcontrol_interpret_req", "include/pnet_api.h: PNET_CONTROL_COMMAND_PRM_BEGIN"]}
{"id": "C160", "title": "The log book record tells what happened when", "statement": "A controller that reads the log book (index 0xF830) gets the time of reading and the newest entries, each with the time at which it was made, the UUID of the connection, the status and the detail given to pnet_create_log_book_entry; so entries can be ordered by time and compared to the time of reading.", "quantifier": "all histories of log entries at any times (no bound), for existing and unknown connections, any capacity, any response buffer with room", "why_tests_cant": "The clock has 32 bits of microseconds and wraps after 71.6 minutes; tests end before that. The time of reading needs a comparison of two reads at different times.", "anchors": ["src/device/pf_fspm.c: pf_fspm_create_log_book_entry, pf_fspm_cm_read_ind", "src/device/pf_block_writer.c: pf_put_log_book_data, pf_put_time_timestamp", "src/device/pf_cmrdr.c: pf_cmrdr_rm_read_ind", "src/device/pnet_api.c: pnet_create_log_book_entry"]}
{"id": "C161", "title": "The application is asked on every connect, release and DControl request", "statement": "The connect, release and DControl call-backs are called once on every such request for the connection it names, and the request is noted in the log book with the status the application has set. A connection is opened exactly if the connect call-back agrees, ends whatever the release call-back returns, and is kept after 'parameter end' exactly if the DControl call-back agrees. A call-back that is not implemented counts as success.", "quantifier": "all histories of packets, timers and API calls, all applications (any answers, any of the call-backs missing), all connections, sessions and requests", "why_tests_cant": "Whether a call-back is called depends on the state of the device machine and on the kind of connection; tests try one request in each of a few states.", "anchors": ["include/pnet_api.h: pnet_connect_ind, pnet_release_ind, pnet_dcontrol_ind", "src/device/pf_fspm.c: pf_fspm_cm_connect_ind, pf_fspm_cm_release_ind, pf_fspm_cm_dcontrol_ind", "src/device/pf_cmdev.c: pf_cmdev_rm_connect_ind, pf_cmdev_rm_release_ind, pf_cmdev_rm_dcontrol_ind"]}
{"id": "C162", "title": "A connection needs a port with at least 100 Mbit/s, full duplex", "statement": "When the controller ends the parameterisation and the application agrees, the connection is kept exactly if at this moment some port of the device is up with at least 100 Mbit/s and full duplex.", "quantifier": "all runs that bring up a connection, all numbers of ports, all histories of links (kinds, up or down, failures to read them) and of times at which they are looked at", "why_tests_cant": "Tests run with one or two ports of one kind; the check compares type numbers whose order is not that of speed and duplex, on a status that was read earlier.", "anchors": ["src/device/pf_cmdev.c: pf_cmdev_check_pdev, pf_cmdev_rm_dcontrol_ind", "src/device/pf_pdport.c: pf_pdport_is_a_fast_port_in_use, pf_pdport_update_eth_status, pf_pdport_get_eth_status", "src/pnal.h: pnal_eth_mau_t"]}
{"id": "C163", "title": "The application is told the controller's confirmation of application ready", "statement": "The call-back for CControl confirmations is called exactly when the controller confirms an application ready request that is open: once for each confirmation, at most once per connection, for the right connection, and with the status the controller answered.", "quantifier": "all runs of any length over all connections and sessions, all responses", "why_tests_cant": "A test plays one start-up; that no repeated, late or stray response makes a second call, and that none is missed, depends on every history.", "anchors": ["src/device/pf_cmdev.c: pf_cmdev_rm_ccontrol_cnf", "src/device/pf_cmrpc.c: pf_cmrpc_rm_ccontrol_cnf", "src/device/pf_fspm.c: pf_fspm_ccontrol_cnf", "include/pnet_api.h: pnet_ccontrol_cnf"]}
{"id": "C164", "title": "The application is asked for the modules and submodules the controller wants", "statement": "When a controller connects, the application is asked (call-backs for expected modules and submodules) for exactly those modules and submodules of the request that are not plugged, in the order of the request, a module before its submodules, each once, with the right numbers, identities, direction and sizes of data; and not for a request that is refused already.", "quantifier": "all connect requests with any number of APIs, modules and submodules, all states of the tables, whatever the application plugs or pulls in the call-backs", "why_tests_cant": "The tables change in the call-backs while the loops run; tests use an application that plugs what it is asked for.", "anchors": ["src/device/pf_cmdev.c: pf_cmdev_exp_apis_configure, pf_cmdev_exp_modules_configure, pf_cmdev_exp_submodule_configure", "src/device/pf_fspm.c: pf_fspm_exp_module_ind, pf_fspm_exp_submodule_ind", "include/pnet_api.h: pnet_exp_module_ind, pnet_exp_submodule_ind, pnet_data_cfg_t"]}
