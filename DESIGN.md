# Formal model of p-net in Lean 4

## Trusted base
* Lean 4.33.0 kernel; axioms at most `propext`, `Classical.choice`, `Quot.sound` (no own axioms, no `sorry`, no `native_decide`, no `bv_decide`).
* The claim that the definitions in `Verif/*/Model*.lean` mirror the C code. Each definition cites file and lines in /repo and says where it simplifies.
* C semantics assumed: fixed-width unsigned wrap-around, two's complement conversion, left-to-right evaluation where the code relies on it.
* Each call into the stack is atomic unless a property says otherwise (C43 models threads).

## Layout
`lean/Verif/<Area>/Model.lean` (definitions), `Lemmas.lean` (helper lemmas), `Props.lean` (specification, property theorems, concrete instances).

## Plan per property
| id | what is modelled and how it is proved |
|---|---|
| C01 Timers fire exactly once, never early, in time order | Array + index-linked lists modelled literally (fixed `N` slots, `next`/`prev`, assertion failures and out-of-range writes are a separate `none` outcome). Refinement to a bag of pending timers with absolute (unbounded) expiry times; induction over histories. Environment assumption: nobody is later than 2^30 us with calling tick, tick period <= 2^29 us. |
| C02 Timer slots are never leaked or shared | Same model: invariant 'free list and busy list partition the slots' by induction; add fails iff N pending. |
| C03 A requested delay is rounded to a tick grid without drifting by more than one period | `sanitizeDelay` on 32-bit values, direct arithmetic. |
| C04 Cyclic I/O objects accepted at connect never share bytes of the frame | Model descriptor list built by iocr_setup_desc and the straddle/overlap checks; theorem over all accepted layouts. The code does not compare a submodule's own IOCS with its own data: negation witness plus `_partial` theorem. |
| C05 Writing one submodule's input data changes nothing else in the sent frame | Frame buffer as byte list with UB outcome on out-of-range; frame/round-trip theorem over histories of set calls, under the layout invariant of C04. |
| C06 Sent cycle counters advance by the update interval | 16/64-bit arithmetic of cycle counter; theorem for accepted intervals. |
| C07 Outdated or duplicated cyclic frames are rejected | checkCycle on BitVec 16; exact characterisation; consumer history theorem. First-frame window is part of the claim and fails for counters 61440..65535: documented. |
| C08 Consumer watchdog expires exactly after the data hold time | Consumer step machine {tick, frame}; invariant relating the counter to the number of ticks since the last accepted frame. |
| C09 Application reads the most recent valid output data | Buffer-swap model; refinement to 'last accepted payload' + 'new since last read' ghost; get_iocs clearing the flag is a negation witness, `_partial` for histories without get_iocs. |
| C10 Foreign or malformed cyclic frames never reach the application | Consumer step on arbitrary byte frames. |
| C11 Alarm send queue is a bounded FIFO | Ring (count, read, write index, slots) refines a bounded list; induction over histories. |
| C12 A received alarm is delivered to the application at most once and in order | APMR decision logic + history theorem against an independent spec (delivered sequence numbers are consecutive). |
| C13 Alarm transfer over a lossy link is exactly-once | Product of APMS and APMR with two lossy/duplicating FIFO channels; inductive invariant with unbounded ghost counters. |
| C14 Bounded alarm retransmission, then abort | APMS with a set of pending timers (the code may have several); transmissions per alarm bounded by invariant on resend counter. |
| C15 AR parameters are accepted exactly when they satisfy the documented limits | Chain of checks; iff theorem + first-error theorem against a table of (field index, condition). |
| C16 IOCR parameters that pass the connect check are within the documented limits | Chain of checks with 32-bit products; `_partial` for the accepted ranges; overflow witness for the watchdog limit and missing C_SDU check for RT class 2/3. |
| C17 Alarm CR parameters are accepted exactly when inside the documented limits | Chain of checks; iff theorem. |
| C18 Automatically assigned frame IDs are valid and unique | Search loop; range/unique/minimal theorem; induction over IOCRs processed. |
| C19 A submodule is controlled by at most one live connection | Table of submodules with owner; ops connect/fail/abort/plug/pull. The 'owner is live' invariant fails through failed connects: witness + `_partial`. |
| C20 Plug and pull behave like a map of slots | Slot tables (arrays with in_use) refine a finite map; induction over histories. |
| C21 Diagnosis store behaves like a map and does not leak entries | Diag pool with per-subslot index-linked lists refines map; partition invariant. |
| C22 Pulling a submodule releases its diagnosis entries | Witness that pull leaks (negation) — code violates the property. |
| C23 The station problem indicator reflects all diagnoses of the connection | Witness that the indicator is cleared while another submodule has a fault; `_partial` for single-submodule connections. |
| C24 Connection start-up follows the PROFINET sequence | CMDEV transition functions; trace automaton refinement. |
| C25 Start-up supervision aborts a stalled connection | CMSM step machine. |
| C26 Record writes reach the application only from the owning connection in an allowed phase | CMWRR step machine + ownership check. |
| C27 A retransmitted DControl request is not executed twice | DControl re-run logic; initial sequence number witness; `_partial` otherwise. |
| C28 Fragmented RPC requests are reassembled exactly | Reassembly model; concatenation theorem; witness for processing an out-of-order last fragment. |
| C29 Fragmented RPC responses contain exactly the response bytes | Send loop with in-place memmove buffer; concatenation theorem; witness for exact multiples without a last flag. |
| C30 Active connections have distinct UUIDs and identifiers | AR table alloc/release model with connect logic; invariant by induction; arep truncation witness for >65535 handles. |
| C31 Parsing never reads outside the received buffer and errors are sticky | Reader primitives as a state-passing parser; closure theorem for every parser built from them, instantiated on the real record parsers. |
| C32 Encoding and decoding of protocol fields are inverse | Writer primitives on byte buffers; round-trip theorems. |
| C33 Expected-submodule parsing stays within its tables | Parser with table bound; the code lacks the bound for submodules: witness + `_partial`. |
| C34 Accepted IP settings are well-formed | BitVec 32 checks; netmask iff contiguous prefix for all 32-bit values (proved by structure, not enumeration). |
| C35 Accepted station names are well-formed | One-pass scanner on byte lists vs label-splitting spec; negation witnesses for empty labels, `_partial` for the rules that are enforced. |
| C36 A refused DCP Set changes nothing | set_ind as state transformer; witness for case 'IP change with active AR'; `_partial` for other refusals. |
| C37 Temporary settings do not survive, permanent settings do | set_ind + restart model. |
| C38 DCP Set is exclusive to one station at a time | SAM step machine with timer. |
| C39 Identify responses are spread below the requested delay bound | Arithmetic. |
| C40 Identify answers exactly the matching requests | Filter loop model vs spec. |
| C41 Signal LED flashes three times and ends off | LED step machine; trace theorem. |
| C42 Non-volatile files round-trip and corrupted files are refused | File as byte list option; round trip and rejection. |
| C43 Settings changed before or during a background save are eventually saved | Two-thread small-step model, invariant over all interleavings. |
| C44 Log book holds exactly the newest entries | Ring buffer vs `List.take`. |
| C45 I&M records: refused writes change nothing, accepted writes are returned by the next read | I&M store step model; I&M1 short write corrupts data: witness + `_partial`. |
| C46 Ethernet frames are dispatched to the handler registered for their frame ID | Map table; duplicate registration semantics made explicit. |
| C47 Released submodules are handled one at a time, in order | Ring buffer refines a queue; history invariant over all operations; completion. |
| C48 Module difference reported to the controller is complete | Diff generation vs spec; witnesses for unreported differences. |
| C49 Every received alarm can be acknowledged | ack call model; witness for low priority; `_partial` for high priority. |
| C50 A refused connect leaves the device as it was | connect failure path; witness for ownership/alarm endpoint leak; `_partial` for AR slots. |
| C51 Cyclic sending continues as long as the connection is up | send callback model; witness: an Ethernet send failure stops cyclic sending silently; `_partial` while sends succeed. |
| C52 DCP Get/Set requests are answered block by block without reading outside the frame | Block loops on 16-bit positions; termination and in-bounds. |
| C53 The table of cyclic I/O objects is never overrun | Layout model, `none` = write past `data_desc`; definedness by an injection of descriptor keys into the expected configuration. |
| C54 Input data set by the application is what the next cyclic frame carries | Provider model with the layout of C04; false for layouts with gaps (`in_length` is a sum of lengths, not an extent): witness + `_partial`. |
| C55 Alarm retransmission distance | History with time; invariant on the running timers |
| C56 Acknowledged alarms are delivered | Step theorem over reachable states of the alarm model |
| C57 Sending an alarm does not abort | Step theorem over reachable states of the alarm model |
| C58 Log book read-out | Loop of the read-out on the ring buffer after any history; count and contents compared with the newest entries. |
| C59 end of connection returns resources | area Device: abort in any reachable state; explicit resulting tables |
| C60 module difference block readable | area Device: encoder against an independent reader; round trip by induction over the report |
| C61 Summary flags | Invariant over all histories of diagnosis calls, plugging, pulling and ownership changes: the three flags of each submodule equal the existential statement over its list. |
| C62 Malformed or unexpected RPC packets do not crash the device | Assertions and null pointers are `none` in the start-up model; totality of every run under stated conditions, witnesses otherwise. |
| C63 A connection keeps its RPC session | Invariant linking AR and session tables; witnesses where it breaks. |
| C64 Explicit record reads are executed only for an existing connection | Log entry of every executed read; partial theorem and witness. |
| C65 Expected modules are stored under the API they name | Reader against the encoding of a block and an abstract placement of modules; the code keeps the API of the first new module: witness + `_partial`. |
| C66 A connect request is stored as sent | Encoding of connect requests as specification; reader calculus (parser matches encoding), induction over the blocks. |
| C67 An accepted connect request was read completely and fits the tables | Inversion of the interpreter for every input; invariant over the blocks. |
| C68 Writing a response terminates at every fill level | Loop of the padding with an endless run as `none`; witness family + `_partial`. |
| C69 Peer names of a port check are stored inside their fields | Writes outside the field are `none`; witness family + `_partial`. |
| C70 Record data lies inside the request | Model the parser and the position arithmetic with wrap-around; invariant over the loop that every call lies inside; families of counterexamples. |
| C71 Multiple write in order | Encoder for lists of writes, induction over the list against a specification of what is offered and reported. |
| C72 Write response says what happened | Case analysis of the whole request; exact outcome for well-formed single writes; counterexample families. |
| C73 Processing of a write request ends | Measure (rest of the request) for the loop under the assumption on the application; endless loop by induction over the number of turns. |
| C74 Report about a released submodule is right | Reduce the report to the report at connect (C48) for a restricted expected configuration. |
| C75 An Identify answer carries the device's current settings | Frame bytes from the filter loop and the block writer. |
| C76 What DCP Set has set is what DCP Get reports | Composition of a Set frame and a Get frame. |
| C77 No LLDP frame can break the reader | Reader in the option monad, none for an access outside; a calculus of positions shows that it always moves forward. |
| C78 A neighbour understands what the device sends | Bytes of the frame, then C79. |
| C79 What is known of a neighbour is what its frame says | Refinement of the loop to a fold over the list of fields with a table for what each says. |
| C80 A neighbour is forgotten when its time is over | Simulation of the port by a record of the last frame and its end. |
| C81 The device is found by the alias that its neighbours give it | From C78 and the alias function. |
| C82 neighbour checks | invariant over all histories of one port, with the abstract judgement of the names; then for all ports through a projection of each step to one port |
| C83 port records | round trip: body of a record written, answer read, for all contents |
| C84 LLDP sending | invariant: a port has a time for the next frame exactly if its adjustment does not forbid it |
| C85 port settings over restarts | refinement of each port to a memory with current and stored settings |
| C86 loops over ports | induction over the calls of the iterator |
| C87 diagnosis records | each writer emits exactly the bytes of the specification (composition of emitting writers); induction over chains, slots and expected modules |
| C88 real identification | nested writers emit exactly the encoding of a tree; the tree describes the view of the tables, by the unique keys invariant |
| C89 expected identification | as C88, from the expected configuration |
| C90 I&M0 filter data | as C88 |
| C91 answers of the read service | writers with patches emit exactly the answer; the request is characterised by an inverse of the parser |
| C92 records of the application | as C91 with the callback as an arbitrary function; counterexample families |
| C93 refused reads | case analysis over the decision logic; counterexample family |
| C94 records of the physical device | writers with padding write exactly the specified bytes; the iteration over the ports visits each once |
| C95 every read ends | position calculus for truncated responses; exact condition for the endless padding loop; counterexample families |
| C96 list of connections | as C94; injectivity by peeling the encoding |
| C97 cyclic data records | as C91 with the two record builders |
| C98 endpoint enumeration | session table with unique activities; invariant relating the position of one activity to the number of its requests; induction over histories |
| C99 endpoints on the wire | writers write exactly the specified bytes, for both byte orders of the host |
| C100 annotation | decimal conversion with width; injectivity by columns |
| C101 sessions do not leak | effect of every kind of datagram on the number of used sessions; induction over stray datagrams, then over arbitrary later events |
| C102 answer to connect | writers write exactly the specified bytes; frame IDs by the invariant of C18; injectivity of the encoding by block types |
| C103 answer to refused connect | cases of refusal; parametric counterexamples |
| C104 connect is answered | exact condition for the padding loop to end |
| C105 contents of alarms | writers write exactly the specified bytes; meaning of each call by an inductive relation; parametric counterexamples |
| C106 summary of diagnoses | induction over the linked list with the invariant of area Diag; bit masks by kernel evaluation over bit positions |
| C107 sizes of alarms | lengths of the specified bytes; counterexamples for both directions |
| C108 status of acknowledgements | parser on the specified bytes; inversion of the parser |
| C109 received alarms | parser on the specified bytes, any prefix and padding |
| C110 dispatch of alarm frames | case analysis on the table |
| C111 acknowledgement frames | writers write exactly the specified bytes |
| C112 sender of alarm frames | parametric counterexample |
| C113 release requests | inversion of the parser loop; writers write exactly the specified bytes |
| C114 checks of release requests | parametric counterexamples |
| C115 parameter end | inversion of the parser loop; writers write exactly the specified bytes |
| C116 repetition | equality of both runs; parametric counterexample |
| C117 application ready request | writers write exactly the specified bytes; overwriting of the headers |
| C118 confirmation | inversion of the parser loop; parametric counterexample |
| C119 every request answered | parametric counterexample; positive side in C115 |
| C120 diagnosis calls of the application | translation of calls to steps of the store; induction over histories with C21 |
| C121 values set by SNMP | simulation of the variables and files by what was told last; induction over histories |
| C122 location in SNMP and I&M | invariant by induction over histories; counterexamples for three cases |
| C123 link status in SNMP | bit lemmas for all bit positions; parametric counterexample |
| C124 neighbour in SNMP | invariant of area Lldp, answers computed from the stored neighbour |
| C125 identification texts | columns of the formatted text by lengths; inversion of columns |
| C126 contents of Hello messages | frame equals a frame put together from blocks, for all settings; counterexamples for the three differences |
| C127 Hello messages after a start | invariant over histories: settled, count, due time, distances; second invariant for progress |
| C128 state told by the application | history of calls and connections; every connection shows the last call of each kind since it was made |
| C129 sockets in order | invariant over histories: owner of every open socket, server sockets, no use after close; counterexamples for two faults, one with a leak for ever |
| C130 application ready request is repeated | invariant: timer runs, socket kept, sends left + expiries so far; counterexamples |
| C131 unique UUIDs | injectivity bit by bit, induction over allocations |
| C132 exact SRAM access | refinement of the word loops to a byte memory |
| C133 hardware resources | invariant over histories with failures; counterexamples, a leak for every number of failures |
| C134 areas in the SRAM | invariant on addresses on top of C133; counterexamples |
| C135 cycle times | arithmetic over all accepted parameters (C16) |
| C136 supervision of received frames | refinement: abort iff the history has a run of missed intervals; families of counterexamples |
| C137 values of the application | effect of each call on frame memory and SRAM, with frame conditions |
| C138 settings for the hardware | effect on the table; counterexamples |
| C139 frames of one moment | every interleaving is equivalent to running the sections one after the other, in the order in which they end; then refinement to last values |
| C140 reading while receiving | invariant over interleavings: who owns which buffer, where the newest frame is; counterexample for tagged frames |
| C141 closing while receiving | invariant on top of C140 when the receiving thread rests; counterexamples otherwise |
| C142 acceptance | induction over the three loops with a positive result; ownership is kept by all later steps |
| C143 several connections | projection of the history of the whole device to each connection is a history of areas Ppm and Cpm, by induction; their theorems then apply per connection |
| C144 reception | the frame ID map (area Eth) together with all code that enters and removes handlers; invariant: the map holds exactly the owners of frame IDs, by induction over histories, with C18 for the choice of IDs and a pigeonhole argument for endpoints and table size |
| C145 reception, all requests | same invariant under a condition on the history; counterexamples for each part of the condition |
| C146 ending a connection | operations of area Startup; by the invariant of C24 the state of a reported connection is one in which each request leads to an abort |
| C147 UUIDs | invariant over all operations of area Startup: only a connect request that finds no connection with its UUID makes a new one |
| C148 ending all connections | the loops over all entries as folds; each step ends one connection (C146) and leaves the others, by induction over the entries |
| C149 removing data files | area Store: the sequence of pf_file_clear calls; a file of the list is missing afterwards, others are unchanged |
| C150 accepted configurations | decision logic of pf_fspm_validate_configuration; trace of what the platform sees during pnet_init; induction over the ports |
| C151 failed start | as C150; negation proved for every valid configuration |
| C152 resources | area Res: counters, locks, buffers, timers as lists; invariant: they are a permutation of those held by the CRs of running connections; induction over histories |
| C153 timers suffice | area Budget: all timer handles of the stack with what starts and stops them; invariant: each handle has at most one timer; counting argument; families of runs for the converse |
| C154 errors of refused connect requests | area Check: pf_cmdev_check_apdu with all error codes, on top of Connect (blocks) and Layout (objects); specification: a list of conditions, each with its pair of codes; induction over the loops, most of which keep or replace an error |
| C155 null pointers in the alarm machines | the alarm model once more, each operation with the pointer from the transport to the alarm machines, which an abort clears; proof that both models agree up to a crash, and that the crash happens exactly in the histories named |
| C156 codes told at the end of a connection | area Reason: the operations of area Startup with err_cls and err_code of each connection, and a report of what is told at each abort; the documented pairs in a separate table (Spec); invariant over all runs |
| C157 bytes of the write response | area Write (Reply): pf_put_write_result and the response buffer in pf_cmrpc_rm_write_ind on top of writeInd; byte layout in a separate specification, shown to determine the contents; linked to C71 and C72 |
| C158 alarm timers of an earlier connection | area Alarm (Reuse.lean): one entry used for one connection after the other, with the timers left over by pf_alarm_apmx_close; equality of the run with that of a fresh connection; families of counterexamples |
| C159 parameters while data is exchanged | areas Startup (Reparam.lean) and Control (Begin.lean): invariant over all runs for the state of CMPBE in data exchange; the effect of parameter begin and parameter end there; the refusal of parameter begin from the bytes of the request |
| C160 log book record | area LogBook (Record.lean): contents of the entries, time stamps, bytes of the record, answer to the read request; counterexample families for the time of reading and for the clock |
| C161 call-backs on requests | area Startup (Told.lean): the call-backs and log book notes of pf_fspm.c on top of the start-up model; for all runs; negation for connections for device access and for DControl requests after 'parameter end' |
| C162 a fast port | area Startup (Ports.lean): loops over the ports, status of the links over all histories, the check at the end of parameterisation on top of C161; negation for half duplex links and for old status |
| C163 confirmation told | area Startup (Confirmed.lean): calls of the confirmation call-back on top of the start-up machine; counted over runs against a specification that looks at the log only; at most one call per STARTUP in every run (Once.lean); negation for plugged submodules and negative responses |
| C164 expected modules asked for | area Device (Asked.lean): the loops of the configuration with a list of what they come across, shown to have the outcome of the model in Conn.lean; compared with the list of all that the request wants; negation for submodules without data and after a refusal |

## Modelled and not modelled, per area
| area (lean/Verif/…) | modelled | not modelled |
|---|---|---|
| AlarmQueue | ring queue functions of src/common/pf_alarm.c | mutex (calls are atomic) |
| Scheduler | all of src/common/pf_scheduler.c: index-linked lists, handles, add/remove/restart/tick, delay sanitising | mutex; the gap inside pf_scheduler_add between taking and queueing a slot (no lock is held by callers of the stack API across threads); log output |
| Cpm | receive path of pf_cpm.c and pf_cpm_driver_sw.c: cycle check, source check, data status, watchdog, buffer swap, application reads | frame id registration (see Eth), creation/activation errors, malloc failure |
| Layout | setup and check of the I/O objects in a connect request in pf_cmdev.c | error codes |
| Ppm | all of pf_ppm.c and pf_ppm_driver_sw.c except log output: creation, activation, closing, send callback, application set/get calls, data status | mutex (calls atomic), error codes, hardware offload driver, failing buffer allocation; transmission and re-arming results are environment inputs |
| Connect | pf_cmdev_check_ar_param, _check_iocr_param, _check_alarm_cr with the bit-field parts of the block reader; pf_cmdev_fix_frame_id, _verify_free_frame_id | pf_cmdev_check_ar_rpc, the count checks of pf_cmdev_check_apdu, valid flags, log messages |
| Alarm | pf_alarm.c: APMS, APMR, ALPMI, ALPMR of both priorities of one connection (activation, close, send, receive, timeout, acknowledge); composition of two endpoints over lossy links; use of an entry for one connection after the other (Reuse) | Encoding of the frames (pf_alarm_apms_a_data_req is reduced to its header fields), the receive queue (see AlarmQueue), UDP transport (a ToDo in the code), the scheduler (see Scheduler; here a timer is a deadline) |
| Validate | pf_cmina_is_netmask_valid, _ipaddress_valid, _gateway_valid, _ipsuite_valid, _stationname_valid (src/device/pf_cmina.c), on 32-bit vectors and byte lists | NULL name pointer; locale-dependent isdigit/islower (C locale) |
| Store | pf_file.c (all functions; path strings as byte lists); pf_bg_worker.c with pf_cmina_save_ase, pf_fspm_save_im, pf_pdport_save(_all) as interleaved threads, one field access per step | pnal file functions are environment with stated assumptions; failing writes in the worker model; log output |
| LogBook | pf_fspm_create_log_book_entry (contents of the entries, time stamps), pf_put_log_book_data, pf_put_time_timestamp (bytes of the record), the log book case of pf_cmrdr_rm_read_ind | mutex |
| Eth | pf_eth_frame_id_map_add/remove, pf_eth_recv on byte lists | sending, interface initialisation, alignment of 16-bit reads |
| Signal | pf_dcp_control_signal_led, pf_dcp_trigger_signal_led with the scheduler reduced to room/no room, pf_dcp_calculate_response_delay | time; the scheduler itself is in area Scheduler |
| Device | pf_cmdev.c: tables of APIs, slots, subslots (get, new, plug, pull), expected configuration (exp_submodule_configure, exp_modules_configure, exp_apis_configure), device_clear, connect_ind, cm_abort, module difference; pf_cmrpc.c: AR table (allocate, release, find), connect_ind; endpoint table of pf_alarm.c; encoding of the module difference | sessions, parsing and parameter checks of the connect request (arbitrary outcomes), contents of IOCRs, encoding into too small buffers |
| Diag | pf_diag.c: pf_diag_find_entry, pf_diag_update_subslot_summary, pf_diag_update_station_problem_indicator, pf_diag_add, pf_diag_update, pf_diag_remove, pf_diag_std_*, pf_diag_usi_* and pnet_diag_std_*, pnet_diag_usi_*; pf_cmdev.c: pf_cmdev_get_new_diag, free_diag, list handling, plug and pull of a subslot as far as diagnosis is concerned | alarm frames sent by the calls (an input flag stands for their result), the mutex |
| Startup | pf_pdport.c: status of the links, check for a fast port; pf_fspm.c: connect, release, DControl call-backs with their log book notes; pf_cmdev.c: set_state, state_ind, cm_abort, cmio_info_ind, connect/release/dcontrol/ccontrol handling; pf_cmio.c, pf_cmwrr.c, pf_cmsm.c, pf_cmpbe.c (all transitions); pf_cmrpc.c: sessions (allocate, release, kill), AR lookup, dispatch of connect, release, DControl, read, write, CControl confirmation, cancel, DControl repetition | parsing (outcomes are inputs), CMSU resources, contents of read records, the plug state machine, timer resources (assumed available), calls from inside callbacks |
| Wire | pf_block_reader.c (all readers); pf_block_writer.c: integers, UUID, memory, padding, bits, block header, AR server, control, record read, status, RPC header, alarm header; pf_cmrpc.c: pf_check_block_header, pf_cmrpc_rm_connect_interpret_ind | positions are unbounded numbers (buffers are shorter than 65536 bytes); the other block writers; error codes of refused requests; blocks under options that are off by default |
| Rpc | pf_cmrpc.c: pf_cmrpc_dce_packet (session lookup, collection of fragments, reject, ping, request, response, acknowledge, abort), pf_session_allocate, pf_session_locate_by_uuid, pf_session_release, send_once, send_with_timeout; pf_put_dce_rpc_header | the request handlers (their response bytes and session end are inputs); sessions opened by the device; sockets, addresses; consequences of an abort |
| Write | pf_cmrpc_rm_write_ind, pf_cmrpc_rm_write_interpret_ind, pf_cmrpc_perform_one_write, pf_set_error_if_not_already_set (src/device/pf_cmrpc.c), pf_cmwrr_rm_write_ind, pf_cmwrr_write (src/device/pf_cmwrr.c), with 16- and 32-bit wrap-around of positions and lengths; pf_put_write_result (src/device/pf_block_writer.c) and the response buffer | the functions that take the record (an oracle), changes of connection state during the request; error_code_1/2 and additional data may have any value |
| Im | the I&M cases of pf_fspm_cm_write_ind, pf_fspm_cm_read_ind and pf_cmrdr_rm_read_ind; pf_fspm_load_im, pf_fspm_save_im, pf_fspm_clear_im_data, pf_fspm_set_im_location, pf_fspm_init (I&M part); pf_put_str, pf_put_im_1 to pf_put_im_3, pf_put_record_data_read | I&M 0 contents, I&M 5 and above (refused), the SNMP copy of the location, the mutex, the file format (C42, C43) |
| Plug | all of src/device/pf_plugsm.c; pf_cmdev_generate_submodule_diff (src/device/pf_cmdev.c) | sending of the alarm and of the request (a flag), the callers in pf_cmrpc.c, what pf_device_clear passes to it |
| Cmina | pf_cmina_set_default_cfg, pf_cmina_dcp_set_commit, pf_cmina_init, pf_cmina_dcp_set_ind, pf_cmina_save_ase (src/device/pf_cmina.c); pf_dcp_set_req (src/common/pf_dcp.c) without the writing of the answer | DHCP, Hello frames, faults of the file system, the data of the application that a reset clears (output events) |
| Dcp | pf_dcp_get_set, pf_dcp_get_req, pf_dcp_set_req, pf_dcp_put_block, pf_dcp_check_sam, pf_dcp_restart_sam_timeout, pf_dcp_clear_sam, pf_dcp_check_destination_address, pf_dcp_identify_req, pf_dcp_responder (src/common/pf_dcp.c); pf_cmina_dcp_get_req (src/device/pf_cmina.c); pf_lldp_is_alias_matching (src/common/pf_lldp.c) as membership in a list of alias names | Hello in both directions, how alias names follow from the neighbours, VLAN handling, failures to send, log output |
| Lldp | pf_lldp_parse_packet with all field readers, pf_lldp_construct_frame with all field writers, pf_lldp_get_chassis_id, pf_lldp_get_port_id, pf_lldp_get_management_address, pf_lldp_get_peer_station_name, pf_lldp_get_peer_port_name, pf_lldp_generate_alias_name, pf_lldp_is_alias_matching, pf_lldp_update_peer, pf_lldp_store_peer_info, pf_lldp_invalidate_peer_info, pf_lldp_restart_peer_timeout, pf_lldp_receive_timeout, pf_lldp_recv (src/common/pf_lldp.c); pf_pdport_handle_link_down, pf_pdport_monitor_link, pf_pdport_peer_indication (src/device/pf_pdport.c) | The mutex, log output, the text of the system description (a parameter), failures of the Ethernet driver |
| Pdport | pf_pdport_load, pf_pdport_save, pf_pdport_save_all, pf_pdport_init, pf_pdport_reset_all, pf_pdport_remove_all_diag, pf_pdport_ar_connect_ind, pf_pdport_lldp_restart_transmission, pf_pdport_check_no_peer_detected, pf_pdport_check_peer_station_name, pf_pdport_check_peer_port_name, pf_pdport_run_peer_check, pf_pdport_periodic, pf_pdport_write_data_check, pf_pdport_write_data_adj, pf_pdport_write_interface_adj, pf_pdport_write_req, pf_pdport_read_ind for the three records that can be written (src/device/pf_pdport.c); pf_put_pdport_data_check, pf_put_peer_to_peer_boundary, pf_put_pdport_data_adj, pf_put_pd_interface_adj (src/device/pf_block_writer.c); src/device/pf_port.c; pf_lldp_send_enable, pf_lldp_send_disable, pf_lldp_trigger_sending, pf_lldp_tx_restart (src/common/pf_lldp.c) | The other records of pf_pdport_read_ind (statistics, real data); the alarm that a diagnosis causes; the other diagnosis entries of the port (a diagnosis is added or not, as the outside says) |
| DiagRead | pf_put_diag_item, pf_put_diag_list, pf_put_diag_subslot, pf_put_diag_slot, pf_put_diag_ar_slot, pf_put_diag_api, pf_put_diagnosis_subslot, pf_put_diagnosis_slot, pf_put_diagnosis_ar, pf_put_diagnosis_api, pf_put_diagnosis_device (src/device/pf_block_writer.c); the diagnosis indices of pf_cmrdr_rm_read_ind (src/device/pf_cmrdr.c); reuses the chains of Diag and the tables of Device | The head of the read answer; the lookup of the connection (given) |
| Ident | pf_put_subslot_data, pf_put_slot_data, pf_put_api_data, pf_put_real_device_data, pf_put_real_ident_data, pf_put_exp_submodule_data, pf_put_exp_module_data, pf_put_exp_api_data, pf_put_exp_ident_data, pf_put_im_0_filter_data (src/device/pf_block_writer.c); the identification indices of pf_cmrdr_rm_read_ind (src/device/pf_cmrdr.c); reuses the tables of Device | The head of the read answer; the lookup of the connection (given) |
| Read | pf_cmrpc_rm_read_ind, pf_cmrpc_rm_read_interpret_ind (src/device/pf_cmrpc.c), pf_cmrdr_rm_read_ind (src/device/pf_cmrdr.c) with its records as parameter, pf_fspm_cm_read_ind for user indices (src/device/pf_fspm.c), pf_put_read_result (src/device/pf_block_writer.c) | Effects on the session and connection (Startup). Records above 0x7FFF are those of DiagRead, Ident, Im, Pdport, LogBook; input and output data, AR data and PDPort statistics records are not modelled. |
| Records | pf_put_input_data, pf_put_output_data, pf_put_substitute_data, pf_put_one_ar, pf_put_ar_data, pf_put_pdport_data_real, pf_put_pdport_statistics, pf_put_pdinterface_data_real and the multiblocks (src/device/pf_block_writer.c), pf_pdport_read_ind for the records that are only read (src/device/pf_pdport.c), the corresponding cases of pf_cmrdr_rm_read_ind, the size of the response in pf_cmrpc_dce_packet (src/device/pf_cmrpc.c) | Where the data come from (Cpm, Ppm, Lldp, Pdport). The optional blocks of AR data, whose functions put nothing, are only counted. |
| Epm | pf_cmrdr_inquiry_read_all_reg_ind, pf_cmrpc_lookup_request, pf_cmrdr_add_epmv4_entry, pf_cmrdr_add_pnio_entry (src/device/pf_cmrpc_epm.c), the writers of the answer (src/device/pf_block_writer.c), sessions as far as lookups use them (src/device/pf_cmrpc.c) | Fragments of requests (area Rpc); what connections do with their sessions except keeping, releasing and using them. |
| ConnRsp | pf_cmdev_rm_connect_ind (values of the answer), pf_cmdev_cm_connect_rsp_neg/pos as far as the answer depends on them, pf_cmrpc_rm_connect_ind and pf_cmrpc_rm_connect_rsp, pf_alarm_allocate_endpoint, the writers of the blocks (src/device/pf_block_writer.c) | Reading of the request (areas Wire, Connect), the checks (area Connect; here their result), the callback of the application (its result), the module difference (area Device; here a list), MC and IR blocks (not written by the code). |
| AlarmPdu | pf_alarm_send_process, _diagnosis, _usi_diagnosis_disappears, _pull, _plug, _plug_wrong, _released, pf_alarm_send_alarm, pf_alarm_send_internal, pf_alarm_get_diag_summary, pf_alarm_add_diag_item_to_summary, pf_alarm_apms_a_data_req and pf_put_alarm_block (contents of frames), pf_alarm_alpmr_alarm_ack, pf_alarm_apmr_frame_handler, pf_alarm_apmr_periodic and pf_alarm_apmr_a_data_ind (parsing) | State machines and retransmission (area Alarm), queues (area AlarmQueue), allocation of buffers, log output. |
| Control | pf_cmrpc_rm_release_ind, _interpret_req, _rsp; pf_cmrpc_rm_dcontrol_ind, _interpret_req, _rsp; pf_cmrpc_rm_ccontrol_req, pf_cmrpc_rm_ccontrol_cnf, _interpret_cnf | What the calls do to the connection (area Startup; here any function), sockets and sending, timers, log output. |
| Snmp | pf_snmp.c (system name, contact, location; location from I&M; clear and init; peer and own addresses, delays, link status), pf_file_save_if_modified and pf_file_load for its files, pf_lldp_get_peer_* and pf_lldp_get_system_description, pf_lldp_get_chassis_id (standard mode) | The SNMP agent itself (pf_snmp is its interface), the list of ports, file format (area Store), locks. |
| Dcp (Hello) | pf_dcp_hello_req, pf_cmina_send_hello, start and end of its timer in pf_cmina_init and pf_cmina_dcp_set_ind | pf_dcp_hello_ind (frees the frame, nothing else); the tick wrap of the scheduler (area Scheduler). |
| Ppm (data status) | pf_ppm_set_data_status_state/redundancy/provider, pnet_set_primary_state, pnet_set_redundancy_state, pnet_set_provider_state, the initial data status of pf_ppm_create | place of the data status in the frame (area Ppm, C05). |
| Sock | pf_session_allocate, pf_session_release, pf_cmrpc_send_with_timeout, pf_cmrpc_rm_ccontrol_req, pf_cmrpc_periodic, pf_cmrpc_dce_packet (all as far as sockets and the resend timer are concerned), pf_generate_uuid | contents of packets (any effect on sessions is allowed; contents in areas Rpc, Control, Epm); calls of pnet_application_ready from within callbacks of the same packet; pnal_udp (results are parameters). |
| Lan | src/drivers/lan9662: pf_sram_read/write and frame allocation, allocation of all numbers, pf_mera_ppm/cpm_alloc, _config, _start, _stop, _free, get_rte_object; intervals; pf_cpm_drv_lan9662_ci_timeout with the reading of counters and events; pf_ppm_drv_lan9662_write_*, pf_mera_ppm_write_*, pf_mera_ppm_read_data_and_iops, pf_mera_cpm_read_iocs; pnet_mera_*_set_rte_config | the mera library and the hardware behind it (answers are parameters), the scripts called for rules, QSPI transfers, printing. The events of the hardware are not per connection, so that the first timer that asks gets them; this is not modelled (events are inputs of each timer). |
| Conc | the critical sections of pf_ppm_driver_sw (write_data_and_iops, write_iocs, read_data_and_iops, read_iocs, finish_buffer), byte by byte, for any number of threads; pf_cpm_put_buf, the end of pf_cpm_c_data_ind, pf_cpm_get_buf, get_data_and_iops, get_iocs, pf_cpm_close_req with one step per access to a shared member, for a receiving thread and an application thread | the mutexes of the operating system (taken as correct and sequentially consistent); two application threads that read the same outputs; the data status, whose changes take no lock; everything outside cyclic data |
| Shared | pf_ppm_get_ar_iocr_desc, pf_cpm_get_ar_iocr_desc and the data calls over the table of connections | data calls inside callbacks of connect requests; the hardware driver |
| Rx | pf_dcp_init, pf_cpm_driver_sw_activate_req, pf_cpm_driver_sw_close_req, pf_alarm_apmx_activate and pf_alarm_apmx_close (handlers and endpoints), pf_cmsu_start_req, pf_cmsu_cmdev_state_ind, over the frame ID map of area Eth | checks of the connect request (outcomes are operations); timers and buffers of the consumers |
| Init | pnet_init, pnet_init_only (order and failing steps), pf_fspm_init (check first), pf_fspm_validate_configuration, pf_eth_init, pf_eth_init_netif | initialisation of the parts, which cannot fail; interface names |
| Res | what pf_cmsu_start_req and pf_cmsu_cmdev_state_ind take and return: pf_ppm_create, pf_ppm_activate_req, pf_ppm_close_req, pf_cpm_create, pf_cpm_activate_req, pf_cpm_close_req with the software drivers, pf_cpm_put_buf, pf_cpm_get_buf, reload of timers | contents of buffers (areas Ppm, Cpm), frame IDs and alarm endpoints (area Rx), threads (area Conc), the order in which timers expire (area Scheduler) |
| Budget | all calls of pf_scheduler_add, pf_scheduler_restart and pf_scheduler_remove_if_running outside the LAN9662 driver, by handle, with the events that lead to them | moments of time; the tables inside the scheduler (area Scheduler); the conditions under which the events occur except phases of connections and states of sessions; a session with several connections |
| Check | pf_cmdev_check_apdu with pf_cmdev_exp_apis_configure, pf_cmdev_exp_modules_configure, pf_cmdev_exp_submodule_configure (checks), pf_cmdev_check_iocr_apis, pf_cmdev_check_iocr_overlap, and all their error codes | the tables of plugged modules and the callbacks in which the application plugs (given as functions; they are in area Device); blocks of options that are off; the valid flags |
| Reason | err_cls and err_code: all places that set them, what the application and the controller are told at an abort | where in the machines the errors arise (they are operations of the model); errors at the start of a connection before the application knows of it, except a missing timer |

## Findings: where the code violates a listed property
Each is proved in Lean as a theorem with a concrete witness.
| property | finding | witness theorem |
|---|---|---|
| C04 | a submodule's own consumer status may lie on its own data or provider status; never checked | `Verif.Layout.C04_own_iocs_overlap` |
| C07 | first frame is refused if its counter is 61440..65535 | `Verif.Cpm.C07_first_frame_refused` |
| C09 | reading the consumer status consumes the 'new data' flag | `Verif.Cpm.C09_new_flag_lost` |
| C54 | `in_length` is the sum of field lengths, not the end of the last field: in accepted layouts with gaps, fields behind it are never sent | `Verif.Ppm.C54_gap_not_sent` |
| C06 | intervals that do not divide 2^16 (reduction ratio need not be a power of two): counter wrong after the first wrap | `Verif.Ppm.C06_wrong_after_wrap` |
| C51 | a failed transmission is neither retried nor reported; cyclic sending stops for good | `Verif.Ppm.C51_stops_silently` |
| C16 | An IOCR of RT class 2, 3 or 5 may announce a C_SDU length up to 65535, although the frame buffers have 1500 bytes; the hold time product wraps at 32 bits (134 s accepted, limit 1.92 s); VLAN id 2048 accepted; RT class 5 has no limits. | `Verif.Connect.C16_csdu_unchecked, C16_hold_time_wraps, C16_vlan_2048_accepted, C16_class5_unchecked` |
| C17 | VLAN ids of the alarm CR are truncated to eight bits: 256 is accepted as 0. | `Verif.Connect.C17_vlan_256_accepted` |
| C18 | An output CR of RT class 5 that asks for a frame id gets 0. | `Verif.Connect.C18_class5_gets_zero` |
| C12 | A malformed notification with the next expected number is acknowledged and leaves the receiver in state WCNF: all later data frames are ignored | `Verif.Alarm.C12_blocked_not_answered` |
| C14 | If no buffer is available for the first transmission the alarm is neither sent, repeated nor reported | `Verif.Alarm.C14_lost_without_buffer` |
| C49 | The acknowledgement function always uses the high priority: low priority alarms can not be acknowledged | `Verif.Alarm.C49_low_refused` |
| C49 | Acknowledging an alarm while an own high priority alarm is unacknowledged aborts the connection | `Verif.Alarm.C49_busy_aborts` |
| C55 | The retransmission timer is not stopped by the acknowledgement and repeats a later alarm too early | `Verif.Alarm.C55_stale_timer` |
| C56 | If the acknowledgement of an alarm can not be sent, its repetition is acknowledged but the alarm never delivered | `Verif.Alarm.C56_acknowledged_not_delivered` |
| C57 | An alarm taken from the send queue while the alarm acknowledgement is under way aborts the connection | `Verif.Alarm.C57_alarm_after_ack_aborts` |
| C34 | Address and netmask zero with any gateway is accepted | `Verif.Validate.C34_zero_with_gateway` |
| C35 | Empty labels are accepted; port-001.a is accepted; port-1-2 is rejected | `Verif.Validate.C35_accepts_empty_label, Verif.Validate.C35_accepts_port_label, Verif.Validate.C35_rejects_documented` |
| C41 | If the scheduler is full the LED can stay on | `Verif.Signal.C41_led_left_on` |
| C43 | I&M data: the stack thread saves directly while the background worker saves an older copy; the older copy can win | `Verif.Store.Worker.C43_im_update_lost` |
| C46 | pf_eth_recv reads beyond the end of short frames (VLAN tags to the end; nothing after the Ethertype) | `Verif.Eth.C46_reads_beyond_short_frame` |
| C58 | After the log book has wrapped the read-out announces one entry more than it contains | `Verif.LogBook.C58_count_mismatch` |
| C20 | A plug or pull call that reports failure may have changed the tables. | `Verif.Device.C20_failed_calls_have_effect` |
| C19 | A connect request refused after its expected configuration was looked at leaves its submodules owned by a connection that does not exist; the next controller does not get them. | `Verif.Device.C19_stale_owner` |
| C50 | Refused connect leaves ownership and (if refused by the application) an alarm endpoint behind; a refused duplicate ends the existing connection. | `Verif.Device.C50_refused_connect_leaks` |
| C59 | The alarm endpoint of a device access connection is never freed. | `Verif.Device.C59_endpoint_leak` |
| C30 | AREPs are looked up modulo 65536. | `Verif.Device.C30_arep_alias` |
| C48 | A module of the wrong identity, and everything in an API that could not be added, is not reported. | `Verif.Device.C48_wrong_module_not_reported, Verif.Device.C48_unknown_api_not_reported` |
| C60 | The number of submodules of a missing module is written with four bytes instead of two; the block cannot be read. | `Verif.Device.C60_missing_module_misread` |
| C21 | A manufacturer diagnosis call finds a standard diagnosis with error type 0 on the same channel and overwrites it; two entries with the same key can result. pf_diag_add returns -1 although the diagnosis has been stored when the submodule is not part of a connection. | `Verif.Diag.C21_error_type_zero_breaks, Verif.Diag.C21_add_reports_failure_although_stored` |
| C22 | Pulling a submodule does not return its diagnosis items: after as many plug/diagnose/pull rounds as there are items nothing can be added any more, although no submodule has a diagnosis. | `Verif.Diag.C22_pull_leaks` |
| C23 | The station problem indicator is computed from the one submodule of the last diagnosis call; faults of other submodules, qualified faults, and faults present before the connection are not indicated. | `Verif.Diag.C23_other_submodule_ignored, Verif.Diag.C23_qualified_fault_ignored, Verif.Diag.C23_present_before_connection_ignored` |
| C24 | A PrmEnd request that arrives on a session other than its connection's is executed, but PRMEND is reported to the connection of that session, or to none. | `Verif.Startup.C24_fails_stray_session` |
| C24 | pnet_application_ready without a free session reports APPLRDY without sending the request; the next call reports it again. | `Verif.Startup.C24_fails_no_session` |
| C24 | A connect refused by the application without error code keeps the AR, unsupervised and not releasable. | `Verif.Startup.C24_fails_refused` |
| C24 | A negative answer to application ready that carries a control block 'done' is taken as confirmation. | `Verif.Startup.C24_fails_negative_answer` |
| C26 | A write to a place with no plugged submodule is forwarded to the application. | `Verif.Startup.C26_fails_unplugged` |
| C27 | The first DControl request of a session is not executed if its sequence number is 0xFFFFFFFF (the initial value of the stored number). | `Verif.Startup.C27_first_number_lost` |
| C62 | A response packet on a session without connection fails CC_ASSERT (p_ar != NULL). | `Verif.Startup.C62_fails_response` |
| C62 | A single read of an application record with an unknown AR UUID dereferences a null AR pointer. | `Verif.Startup.C62_fails_read` |
| C63 | A DControl or write request with an unknown AR UUID on the session of a connection ends the session while the connection lives; later ends of the connection take the session of another. | `Verif.Startup.C63_fails` |
| C64 | Explicit reads with an unknown AR UUID are executed without connection. | `Verif.Startup.C64_fails` |
| C33 | A module of an ExpectedSubmodule block may announce more submodules than the table holds; they are written outside the table, even if the block ends before them. | `Verif.Wire.C33_overflow` |
| C65 | The second new API of an ExpectedSubmodule block is not added: its modules are stored under the first one (the variable is not reset). | `Verif.Wire.C65_wrong_api` |
| C66 | The VLAN ID of an IO connection is read with 11 bits instead of 12. | `Verif.Wire.C66_vlan_id` |
| C68 | pf_put_padding_align never ends if the buffer is full at a position that is not aligned. | `Verif.Wire.C68_endless` |
| C69 | A station name of 241 to 255 bytes in a CheckPeers record is written outside its field. | `Verif.Wire.C69_station_name_overflow` |
| C28 | A last fragment that is not the next one (missing, repeated or reordered fragment) is still handed to the request handler, alone, with an error mark that the write and control handlers do not look at. | `Verif.Rpc.C28_fails_missing` |
| C28 | The fragments of a completed request stay in the session; a further last fragment makes them a second, longer request. | `Verif.Rpc.C28_fails_reuse` |
| C28 | The sequence number is not compared: fragments of different requests of one activity are joined. | `Verif.Rpc.C28_fails_sequence` |
| C28 | A ping between two fragments throws away the collected fragments. | `Verif.Rpc.C28_fails_ping` |
| C28 | A datagram shorter than its header says is filled up with bytes of an earlier datagram. | `Verif.Rpc.C28_fails_short_datagram` |
| C29 | If the response length is a multiple of the room in a datagram, no fragment is marked as last. | `Verif.Rpc.C29_fails_multiple` |
| C29 | A fragmented response to a request that ends its session (for example an implicit read) stops after the first fragment. | `Verif.Rpc.C29_fails_released` |
| C29 | The size limit args_maximum is added to the position in 32 bits; large values wrap and the response is cut. | `Verif.Rpc.C29_fails_limit` |
| C70 | The check of the stated record length wraps around: a length of 2^32-k is accepted and passed to the application as 65536-k; a record with block header and stated length below 6 is passed on with length 65530 and more. | `Verif.Write.C70_fails_wrap, Verif.Write.C70_fails_short` |
| C71 | In a multiple write, a block of type InterfaceAdjust is taken as a write request with the parameters of the preceding write, which is carried out again with other bytes; the result block of a record for an unknown connection or API carries the names of the preceding record. | `Verif.Write.C71_fails_adjust, Verif.Write.C71_fails_names` |
| C72 | The argument length is compared only after the record has been written; a request that is marked as faulty because of missing fragments is written all the same; a first block that is too long is answered without any error. | `Verif.Write.C72_fails_args, Verif.Write.C72_fails_marked, Verif.Write.C72_fails_silent` |
| C73 | A multiple write with a stated length of 2^32-64 leads back to its own header: endless loop with a call of the application in each turn. | `Verif.Write.C73_fails_endless` |
| C45 | A refused I&M 1 write of 32 bytes or more has already replaced the stored function text (and the location from 54 bytes on); a zero byte in a text and everything after it are read back as spaces; a read of I&M 1 into a buffer with 57 to 60 bytes of room succeeds without the location. | `Verif.Im.C45_fails_im1, Verif.Im.C45_fails_zero, Verif.Im.C45_fails_room` |
| C47 | The result of sending the released alarm is ignored: the state machine waits for the answer to an alarm that was never sent, and all later submodules wait behind it. pnet_sm_released_cnf called inside the sm_released callback is ignored without an error. PrmEnd for a plug alarm is answered without error when there was no alarm. | `Verif.Plug.C47_fails_alarm, Verif.Plug.C47_fails_inside, Verif.Plug.C47_fails_answer` |
| C74 | The loop over submodules of a wrong module reads submodule[m] with m the index of the module: with more slots than subslots this is behind the end of the array. | `Verif.Plug.C74_fails_index` |
| C36 | A new IP address sent while a connection exists is answered with an error, but becomes the address that the device reports, is stored, and is used after the next power on. | `Verif.Cmina.C36_fails` |
| C37 | Reset to factory with mode 0 (qualifier 0 or 1) is accepted and reads the settings from the file; a permanent Set just before it is lost. | `Verif.Cmina.C37_fails_reload` |
| C38 | If no timer can be started when a Get or Set is served, the device stays reserved for that station for ever. | `Verif.Dcp.C38_fails_full` |
| C38 | A station with the address 00:00:00:00:00:00 gets no exclusivity. | `Verif.Dcp.C38_fails_nil` |
| C40 | An Identify request without any block is answered. | `Verif.Dcp.C40_fails_empty` |
| C40 | An Identify request whose first block announces more bytes than there are is answered by every device. | `Verif.Dcp.C40_fails_overlong` |
| C40 | On a little-endian machine the filter for the IP address compares host byte order with network byte order and does not match. | `Verif.Dcp.C40_fails_ip` |
| C40 | The vendor filter compares 25 bytes whatever the length of the text is; the value that the device reports does not match. | `Verif.Dcp.C40_fails_vendor` |
| C40 | The role filter in the two byte form does not match; the options filter is never accepted. | `Verif.Dcp.C40_fails_role, Verif.Dcp.C40_fails_options` |
| C40 | A name filter with trailing zero bytes matches; one with more than 240 bytes reads behind the array with the name. | `Verif.Dcp.C40_fails_zero, Verif.Dcp.C40_fails_long` |
| C52 | A Set block of length 0 takes its qualifier from the two bytes behind the data. | `Verif.Dcp.C52_fails_outside` |
| C52 | Get of a Control, All or alias option gets no block in the answer. | `Verif.Dcp.C52_fails_control` |
| C52 | Set blocks behind the 184th are carried out and not answered; a Get block that does not fit can leave a header without value. | `Verif.Dcp.C52_fails_dropped, Verif.Dcp.C52_fails_truncated` |
| C76 | A new address that is refused because of a connection is reported by Get afterwards. | `Verif.Dcp.C76_fails` |
| C77 | A chassis or port name that is too long after a good one in the same frame leaves a valid name with a length behind its array. | `Verif.Lldp.C77_fails_length` |
| C79 | A management address that announces an object identifier that is not there swallows the fields behind it. | `Verif.Lldp.C79_fails_management` |
| C80 | A neighbour with a time to live above 60 seconds is never forgotten, nor is one for which no timer was free. | `Verif.Lldp.C80_fails_long` |
| C81 | The alias of a neighbour in legacy mode without station name is made of the raw bytes of its address. | `Verif.Lldp.C81_fails_mac` |
| C82 | The names are compared over the length of one of them: a neighbour port-001-12345 passes for port-001, and a station whose name is the beginning of the wanted one passes too. | `Verif.Pdport.C82_fails_prefix` |
| C82 | Diagnoses of wrong names stay when the neighbour is gone. | `Verif.Pdport.C82_fails_stale` |
| C83 | Reading the check record with slot 0 and subslot 0 never ends: the loop over the ports never goes on to the next one. | `Verif.Pdport.C83_fails_all` |
| C83 | Port records can be written to any slot, an interface record that is cut off is accepted and sets the legacy mode, and the CheckPeers block read back announces two bytes too many. | `Verif.Pdport.C83_fails_slot, Verif.Pdport.C83_fails_interface, Verif.Pdport.C83_fails_length` |
| C84 | A factory reset removes the adjustment of a silenced port but the port does not send again until a connection, DCP request or restart. | `Verif.Pdport.C84_fails_reset` |
| C84 | If the timer for sending cannot be started once, the port never sends again. | `Verif.Pdport.C84_fails_timer` |
| C85 | The naming mode written with the interface record is lost at a restart. | `Verif.Pdport.C85_fails_interface` |
| C85 | There are file names for four ports only; a device with more fails an assertion at its start. | `Verif.Pdport.C85_fails_ports` |
| C87 | A diagnosis with identifier 0 (and a manufacturer diagnosis without data) is stored but never reported in any record. | `Verif.DiagRead.C87_not_reported` |
| C87 | Diagnoses with qualified severity are missing in the lists of faults and maintenance requests. | `Verif.DiagRead.C87_qualified_not_in_severity_lists` |
| C87 | An answer that does not fit the buffer is cut in the middle of an entry; the read still succeeds. | `Verif.DiagRead.C87_full_buffer_cuts` |
| C89 | Reading expected identification data without a connection (implicit read, or explicit read with an unknown AR UUID) dereferences a null pointer: one request from the network stops the device. | `Verif.Ident.C89_fails_without_connection` |
| C90 | I&M0 filter data always names the first submodule of slot 0 only, and has blocks without contents if it is not plugged. | `Verif.Ident.C90_only_dap` |
| C92 | The maximum length that the read callback gets is 64 bytes larger than what can be delivered (the read result block is not subtracted): data longer than that are answered with invalid index and no record. | `Verif.Read.C92_maximum_too_large` |
| C92 | A read callback that returns an error without filling in the result is answered with success and an empty record. | `Verif.Read.C92_failure_reported_as_success` |
| C92 | Reading a user index without a connection (explicit read with an unknown AR UUID, or implicit read without target) dereferences a null pointer if the application has a read callback: one request from the network stops the device. | `Verif.Read.C92_no_connection` |
| C93 | A read that is refused gets a response without any body: no status reaches the controller. | `Verif.Read.C93_refused_without_reason` |
| C95 | Reading PDInterfaceDataReal (0x8080) with a maximum response size that ends 1, 2, 3, 5 or 6 bytes behind the read result block (args_maximum 65, 66, 67, 69, 70), or within the padding behind the station name, loops forever in pf_put_padding_align: one implicit read request, without any connection, stops the device. | `Verif.Records.C95_every_read_ends_false` |
| C95 | Likewise ARData (0xF820) if the response ends within the fixed part of the first connection and not at a multiple of four bytes, and PDRealData (0xF841) even for responses that end at a multiple of four bytes. | `Verif.Records.C95_connections_never_end` |
| C96 | ARData for an API announces the number of all APIs of the connection but lists only the one; a reader that follows the announced number misinterprets the rest. | `Verif.Records.C96_own_connection` |
| C97 | The substitute value in RecordOutputDataObject is always the current data, not a substitute value. | `Verif.Records.C97_output_data` |
| C98 | A lookup request of another kind (or with no entries wanted) is answered with "not registered" but counts as a step: the following requests for the next endpoint never report the mapper (or the device). Also a retransmitted request is answered with the next endpoint. | `Verif.Epm.C98_other_request_skips_false` |
| C98 | Lookups with the activity UUID of an established connection take away its session after three requests. | `Verif.Epm.C98_takes_session_false` |
| C98 | If the timer of a lookup session cannot be started, the session is never released by time. | `Verif.Epm.C98_timeout` |
| C99 | On big-endian processors port and IP address in the answer are byte-reversed (htons/htonl and then written in little-endian order). | `Verif.Epm.C99_big_endian_false` |
| C99 | The context handle repeats every 65.536 ms, and the handle in a request is ignored. | `Verif.Epm.C99_handle` |
| C101 | A fragment with a number other than 0 on an unknown activity, or a message of an unknown type, allocates a session that is never released (no timer). As many such datagrams as there are sessions, and the device ignores every datagram of other activities, for ever; also its own application-ready requests find no session. Stray fragments of one activity take a new session each. | `Verif.Rpc.C101_exhaustion_false` |
| C101 | Requests for unknown interfaces and acknowledges on unknown activities also keep a session. | `Verif.Rpc.C101_kept_iff` |
| C102 | If no alarm endpoint is free the connection is accepted, with alarm reference 0; all its incoming alarms are then dropped. | `Verif.ConnRsp.C102_no_endpoint_accepted_false` |
| C103 | A connect request refused by the checks is answered with the error status and blocks in which all results are zero (MAC address, frame IDs); one refused by the application with blocks as if accepted. | `Verif.ConnRsp.C103_refused_without_blocks_false` |
| C104 | In advanced start-up mode the padding of the station name never ends if the maximum response size stated by the controller cuts it; this happens also for requests that are refused. | `Verif.ConnRsp.C104_every_connect_answered_false` |
| C105 | Alarms carry only the lower 16 bits of the identification of the submodule (member submodule_ident of pf_alarm_data_t is uint16_t). | `Verif.AlarmPdu.C105_submodule_ident_wrong` |
| C105 | Alarms for manufacturer diagnoses with identifier 0, which pnet_diag_usi_add accepts, carry neither identifier nor data. | `Verif.AlarmPdu.C105_identifier_zero_lost` |
| C107 | The limit of the controller for alarm contents is compared with the payload: contents can be up to 28 bytes longer than allowed. | `Verif.AlarmPdu.C107_controller_limit_exceeded` |
| C107 | All alarms for standard diagnoses are refused if sizeof (pf_diag_item_t) is larger than the limit of the controller, though their contents have at most 58 bytes. | `Verif.AlarmPdu.C107_short_alarms_refused` |
| C108 | The status of an alarm acknowledgement is read from the place of the alarm type: the application never gets the status the controller sent. | `Verif.AlarmPdu.C108_status_wrong` |
| C109 | An alarm notification without identifier in a padded frame is told to the application with padding bytes as identifier and 65534 bytes of data. | `Verif.AlarmPdu.C109_without_identifier_wrong` |
| C109 | The length field of a received alarm is not compared with the frame: the application is told any length, with a pointer behind the end of the frame. | `Verif.AlarmPdu.C109_length_not_checked` |
| C112 | Alarm frames are accepted from any sender that names the endpoint number (1, 2, ...); an error unit ends the connection. | `Verif.AlarmPdu.C112_sender_not_checked` |
| C114 | The announced length of a release request is not checked (the length of the answer is compared instead), nor is the session key. | `Verif.Control.C114_violation_key_length` |
| C114 | An unknown block in a release request is answered with the error code of connect requests (0xDB). | `Verif.Control.C114_violation_code` |
| C116 | On a new session a DControl request with sequence number 0xFFFFFFFF is answered positively without being carried out, even if the connection does not exist. | `Verif.Control.C116_violation` |
| C118 | The confirmation of application ready is accepted whatever connection and session key it names. | `Verif.Control.C118_violation` |
| C119 | If the end of parameterisation makes the device abort the connection, the session of the request is cleared and the request is not answered. | `Verif.Control.C119_violation` |
| C120 | A standard diagnosis with error type 0 for the whole submodule is replaced when a manufacturer diagnosis is added. | `Verif.Diag.C120_error_type_zero_mixes` |
| C122 | After a reset of the application data (mode 2) the location in I&M record 1 is blank, while SNMP still reads the old location. | `Verif.Snmp.C122_fails_reset` |
| C122 | A write of I&M record 1 that is refused because of its length changes the location nevertheless, and SNMP does not see it. | `Verif.Snmp.C122_fails_refused` |
| C122 | A restart between pf_snmp_set_system_location and the background job that writes the I&M file leaves the old location in I&M record 1. | `Verif.Snmp.C122_fails_restart` |
| C123 | Capabilities of autonegotiation are shown by SNMP in mirrored order: the constants in pnal.h have the order of the LLDP field, the encoder maps bit k to the named bit k of the MIB. | `Verif.Snmp.C123_fails_order` |
| C126 | The block with the IP parameters in Hello messages always has block info 0 (address not set), although Hello messages are only sent when it is set; the Identify response of the same device says 1. | `Verif.Dcp.C126_fails_info` |
| C126 | Hello messages have no block with the device role, although the comment in pf_dcp_hello_ind lists it as part of the message. | `Verif.Dcp.C126_fails_role` |
| C126 | On a big-endian machine the initiative in Hello messages is 0: only the first byte of a 16 bit value is read. | `Verif.Dcp.C126_fails_endian` |
| C128 | A state told while there is no connection is lost, although the call returns 0: pf_ppm_create sets the data status to primary and stopped for every new connection, so an application that (as the documentation says) calls pnet_set_provider_state once at start has frames that say stopped. | `Verif.Ppm.C128_fails_before` |
| C129 | An endpoint mapper request that has the activity UUID of an application ready request and comes on its socket makes the device close its RPC server socket (port 34964), and the socket of the request is never closed. | `Verif.Sock.C129_fails_epm` |
| C129 | p_ar is only set in sessions with a Connect request. An answer in fragments in another session (a write of many records of an existing connection, sent with a new activity UUID; a read request ends such a session) that is not acknowledged leads, after the last retransmission, to a write through p_sess->p_ar, which is NULL: three unacknowledged datagrams stop the device. | `Verif.Sock.C129_fails_orphan` |
| C130 | Any packet with the activity UUID of the application ready request stops the retransmission for ever, also when it is no confirmation (response with an error status, ping): nothing is sent any more, the connection is not aborted, the session stays in use. | `Verif.Sock.C130_fails_answer` |
| C130 | If the socket cannot be opened, pnet_application_ready returns 0 although nothing is sent and no timer runs. | `Verif.Sock.C130_fails_open` |
| C130 | One failed send ends the retransmission without abort. | `Verif.Sock.C130_fails_send` |
| C130 | All sockets for application ready requests have the same port (0xC001). A packet that ends one session but is received on the socket of another closes the socket of that other session, whose request is then neither repeated nor aborted. | `Verif.Sock.C130_fails_cross` |
| C133 | If setting up the hardware for an object fails, the read list numbers taken so far are never given back: as many failed starts as there are numbers leave none for later connections. | `Verif.Lan.C133_failed_start_leaks` |
| C133 | When all frames are in use the process ends (exit) instead of refusing the connection. | `Verif.Lan.C133_no_frame_ends_process` |
| C133 | When the numbers run out, the connection is accepted with number 0xFFFF. | `Verif.Lan.C133_no_number_not_refused` |
| C134 | get_rte_object checks the subslot instead of the slot against PNET_MAX_SLOTS: slots beyond the table are accessed outside of it, and subslots (0x8000 and up for DAP submodules with data, or at least PNET_MAX_SLOTS) end the process. | `Verif.Lan.C134_outside` |
| C134 | Two subslots with the same numbers in different APIs share one entry: only the second is mapped. | `Verif.Lan.C134_two_apis` |
| C135 | The send interval is computed as 1000000 * factor * ratio in a signed int, which overflows for accepted parameters from a product of 2148 on (67 ms, for example 1 ms send clock with reduction ratio 128). | `Verif.Lan.Interval.C135_overflow_accepted` |
| C136 | If the last known data status says provider stopped or station problem, or cannot be read, missing frames are never noticed. | `Verif.Lan.Watch.C136_silence_after_stop` |
| C136 | When the frame counter of the hardware wraps or is cleared, 2^64-1 frames are counted whatever the counter says (the correction adds the new instead of subtracting the old value). | `Verif.Lan.Watch.C136_counter_wrap` |
| C136 | pf_cpm_drv_lan9662_close_req forgets the running timer without removing it: after reconnecting within one interval several timers supervise the connection, and it is aborted after a fraction of the data hold time. | `Verif.Lan.Watch.C136_left_over_timers` |
| C137 | Consumer status set with pnet_output_set_iocs after the start is accepted but not sent. | `Verif.Lan.Values.C137_iocs_not_sent` |
| C137 | Setting the provider status of the device access point, or of an object mapped to QSPI, is refused after the start. | `Verif.Lan.Values.C137_iops_refused` |
| C137 | Reading back input data ignores the buffer given out by the hardware and always gives provider status GOOD; the consumer status received is always GOOD. | `Verif.Lan.Values.C137_read_back` |
| C138 | Settings for outputs replace those for inputs of the same subslot (of any API); the slot is not checked. | `Verif.Lan.Values.C138_one_table` |
| C140 | buffer_pos is stored after cpm_buf_lock is released: a read in between takes data and IOPS from four bytes before the C_SDU of a VLAN tagged frame, even for the first frame. | `Verif.Conc.Recv.C140_tagged` |
| C141 | pf_cpm_driver_sw_close_req takes no lock and destroys it: a frame that is being received then uses a destroyed lock and a cleared AR. | `Verif.Conc.Recv.C141_destroyed_lock` |
| C141 | Closing while a frame is being exchanged frees the older buffer twice, or never frees the newer. | `Verif.Conc.Recv.C141_double_free` |
| C142 | If the table of APIs is full, expected modules in an unknown API are not looked at, and the connection is accepted without them. | `Verif.Device.C142_unknown_api_accepted` |
| C143 | After a connect request that was refused late, the submodule it expected keeps a stale owner (C19); a controller accepted later never gets its data: every data call of the application for that submodule is refused. | `Verif.Shared.C143_stale_owner_blocks` |
| C145 | Output frame IDs given by the controller are neither checked for their range nor for uniqueness. A connection with output frame ID 0xFEFE removes, when it ends, the handler of DCP Identify requests: the device is not found any more until it is restarted. | `Verif.Rx.C145_identify_lost` |
| C145 | Two connections with the same output frame ID: when the second ends, the registration of the first is removed and its frames are given to the CR of the connection that ended. | `Verif.Rx.C145_shared_id` |
| C145 | Alarm endpoints leaked by connections for device access: an IO connection without endpoint loses alarm reception when another connection ends. | `Verif.Rx.C145_endpoint_leak` |
| C145 | A connection that cannot be started because no timer is left leaves its frame ID registered for a table entry that the next connection uses. | `Verif.Rx.C145_failed_start` |
| C149 | pf_pdport_get_filename knows four file names. PNET_MAX_PHYSICAL_PORTS may be larger (nothing checks it); then pnet_remove_data_files, and the loading of port data at the start, stop at an assertion. | `Verif.Store.C149_more_ports` |
| C151 | If an interface other than the main one cannot be started (or a MAC address cannot be read, or SNMP fails), pnet_init frees the stack without closing the interfaces opened before. Their receive threads call pf_eth_recv with the freed memory. | `Verif.Init.C151_fails` |
| C150 | A NULL pointer as main_netif_name is passed to strlen by the check of the configuration. | `Verif.Init.C150_fails_null_name` |
| C152 | A start that fails (no memory for a frame buffer, no timer) does not close the CRs started before it: their buffers are never freed, and the instance counters stay too high, so the locks are never returned. | `Verif.Res.C152_fails_leak` |
| C152 | The supervision timer of an output CR of a failed start keeps running. If another connection starts in the same entry before it expires, its output CR has two timers for its whole life: the data hold time is counted twice as fast. | `Verif.Res.C152_fails_two_timers` |
| C153 | The table of timers is too small if PNET_MAX_AR*PNET_MAX_CR + 2 < 8*PNET_MAX_AR, for example with one AR and two to five CRs: when everything is active at once some timer cannot be started; most callers ignore it (for example the supervision of the start-up). | `Verif.Budget.C153_fails_sizes` |
| C153 | The acknowledgement of an alarm does not stop its retransmission timer. As many acknowledged alarms within one retransmission time as the table has entries, and no timer is left for anything. | `Verif.Budget.C153_fails_alarms` |
| C153 | A connection that ends between the end of parameterisation and the start of the data exchange leaves its supervision of outputs running until the next expiry. | `Verif.Budget.C153_fails_aborts` |
| C154 | A connect request without an AR block (for example an empty one, which the reader accepts) is refused without an error: the answer is positive and the connection stays in use. | `Verif.Check.C154_fails_no_ar_block` |
| C154 | A connect request with a consumer status for a submodule that it does not expect is refused by pf_cmdev_iocr_setup_iocs without an error: the answer is positive (status zero, empty results), the connection and its session stay in use, are not supervised, and no release request ends them; only an abort of the stack or a further connect with the same AR UUID does. | `Verif.Check.C154_fails_unknown_status` |
| C24 | If no timer is left for the supervision of an output CR, a connect request that was accepted ends with an ABORT event for a connection of which the application was never told STARTUP. | `Verif.Startup.C24_fails_no_timer` |
| C104 | If no timer is left for the supervision of an output CR, the abort in pf_cmsu_cpm_error_ind releases the session of the connect request before the answer is sent: the controller gets no answer (every other failure of the start is answered with an error). | `Verif.ConnRsp.C104_fails_no_timer` |
| C155 | A frame handed to the alarm transport while another one is unacknowledged: pf_alarm_apms_apms_a_data_req calls the negative confirmation of ALPMI, which aborts the connection and clears its entry, and then that of ALPMR, which reads through the cleared pointer p_apmx->p_alpmx: the device crashes. Two alarms that cross suffice. | `Verif.Alarm.C155_fails_acknowledge` |
| C155 | A controller can crash a device that sends alarms, with one answer whose acknowledged sequence number is wrong. | `Verif.Alarm.C155_fails_answer` |
| C156 | An abort by pnet_ar_abort, pnet_factory_reset or a new connect request of the same controller sets no codes. The documented codes ABORT_REQ and RE_RUN_ABORTS_EXISTING are told in no run. | `Verif.Reason.C156_fails_never_named` |
| C156 | Codes set by an event that does not end the connection are kept: after an acknowledgement of an alarm that was never given, an abort by the application is told as ALPMI 3 to the application and as code 3 (OUT_OF_MEMORY) to the controller, hours later. | `Verif.Reason.C156_fails_left_over` |
| C156 | If no timer is left for cyclic data the controller is told ABORT_CODE_SEQ (an error in sequence numbers) instead of ADD_CPM_PPM_FAILED, because the class of the code is replaced in the frame. | `Verif.Reason.C156_fails_no_timer` |
| C157 | If the first block is called a write request but is too short for one, the response keeps the lengths of the request, has no block, and says no error. | `Verif.Write.C157_fails_parse` |
| C157 | If the controller leaves too little room for the response (args_maximum), a multiple write is carried out completely and answered with no error, without the result blocks of the last writes. | `Verif.Write.C157_fails_room` |
| C158 | The timer of an acknowledged alarm keeps running, and the end of the connection stops only the timer started last. R+2 alarms sent shortly before the end leave R+1 timers. They use up the retransmissions of an alarm of the next connection in the same entry and abort it, although its own time-out has not passed once. | `Verif.Alarm.C158_fails_abort` |
| C158 | One timer left over by an earlier connection repeats an alarm of the new one before its retransmission time. | `Verif.Alarm.C158_fails_early` |
| C159 | A DControl request parameter begin is refused (only the command parameter end is taken), so the CMPBE state machine is never used and the application is never told PRM_BEGIN. | `Verif.Control.C159_begin_refused` |
| C159 | A DControl request parameter end (new sequence number) that arrives in data exchange aborts the connection. | `Verif.Startup.C159_fails_end_aborts` |
| C159 | If parameter begin were let through, CMPBE would wait in state WFRSP, which nothing but an abort leaves; the parameter end that follows aborts the connection. | `Verif.Startup.C159_fails` |
| C160 | The time of reading in the log book record is never set and always told as 0. | `Verif.LogBook.C160_fails_time_of_reading` |
| C160 | The time stamps of log entries come from a 32-bit clock in microseconds: after 71.6 minutes a later entry is told with an earlier time. | `Verif.LogBook.C160_fails_order` |
| C161 | The release call-back is not called for connections for device access, and the release is not noted in the log book. | `Verif.Startup.C161_fails_release` |
| C161 | A DControl request between 'parameter end' and data exchange is answered without error, but neither told to the application nor noted in the log book. | `Verif.Startup.C161_fails_dcontrol` |
| C162 | The check for a port with at least 100 Mbit/s, full duplex compares MAU type numbers: half duplex links with 1000 Mbit/s or over fibre are accepted. | `Verif.Startup.C162_fails_half` |
| C162 | The check for a fast port uses the status of the last look of the background worker, not that of the moment. | `Verif.Startup.C162_fails_old` |
| C163 | The confirmation of application ready for a plugged submodule is never told to the application, although the call-back is documented for every CControl confirmation. | `Verif.Startup.C163_fails_plug` |
| C163 | The call-back for CControl confirmations always gets 'no error': the status of the controller's response is not looked at. | `Verif.Startup.C163_fails_status` |
| C164 | For an expected submodule without data (NO_IO) the application is told the direction 'input' (PNET_DIR_INPUT), since the direction is taken from the descriptors. | `Verif.Device.C164_fails_no_io` |
| C164 | After a submodule of the request was refused the application is still asked to plug the remaining submodules of the module. | `Verif.Device.C164_fails_refused` |
