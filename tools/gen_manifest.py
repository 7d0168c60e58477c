#!/usr/bin/env python3
"""Writes MANIFEST.json from the table below."""
import json, os
C = []
def claim(p, status, theorems, note):
    C.append({"property": p, "status": status, "theorems": ["Modbus." + t for t in theorems], "note": note})

claim("C01", "proved", ["C01_get_after_set", "C01_set_frame", "C01_set_out_of_block", "C01_get_out_of_block", "C01_get_values"],
      "For every slave state, every hook registry and every argument; blocks well formed (C16 keeps them so).")
claim("C02", "partial", ["C02_false", "C02_careful_partial", "C02_ascending_partial", "C02_descending_partial", "C02_checked_prefix"],
      "The property is false of the code (C02_false: A(0,10), B(100,10), C(5,5) are all accepted). Proved: it holds for histories adding in ascending or descending address order and, more generally, for careful histories; exact statement of what one call checks.")
claim("C03", "proved", ["C03_invalid_argument", "C03_duplicated_key", "C03_invalid_block", "C03_overlap", "C03_accepted", "C03_refused_unchanged"],
      "Exact condition of each error in order, acceptance otherwise, refused calls change nothing.")
claim("C04", "partial", ["C04_add_lookup_partial", "C04_remove_lookup_partial", "C04_remove_known_partial", "C04_remove_all", "C04_add_remove_partial", "C04_false"],
      "False in general because of the overlap defect (C04_false); proved for every slave whose blocks do not overlap.")

claim("C05", "proved", ["C05_read_registers", "C05_decodes"], "Every slave in good order (blocks disjoint, values in range), every address and quantity, hooks that do not interfere.")
claim("C06", "proved", ["C06_read_bits"], "All quantities 1..2000, bit by bit, padding included.")
claim("C07", "proved", ["C07_write_registers"], "All quantities 1..123; frame condition over all four tables.")
claim("C08", "proved", ["C08_write_coils"], "All quantities 1..1968, signed and unsigned slaves.")
claim("C09", "proved", ["C09_write_register", "C09_write_coil", "C09_write_coil_refused"], "All addresses and values.")
claim("C10", "partial", ["C10_mask_write", "C10_readable_partial", "C10_false"], "Bitwise effect, frame and echo proved for every slave; 'stays readable' is false for signed slaves (C10_false) and proved for unsigned ones.")
claim("C11", "partial", ["C11_read_write", "C11_write_first_partial", "C11_false"], "Exact behaviour proved (read happens before the write); the specified order write-then-read is false (C11_false) and indistinguishable for disjoint ranges (C11_write_first_partial).")
claim("C12", "proved", ["C12_exception_no_write"], "For arbitrary bytes and hooks, provided no hook itself raises ModbusError.")
claim("C13", "proved", ["C13_unknown_function", "C13_read_bits", "C13_read_registers", "C13_write_coils", "C13_write_registers", "C13_single_writes", "C13_mask_write", "C13_read_write", "C09_write_coil_refused"], "Exact code and order of checks for every function.")
claim("C14", "partial", ["C14_atomic_partial", "C14_history_partial", "C14_truncated_registers", "C14_truncated_coils", "C14_truncated_read_write", "C14_false"], "False for truncated payloads of functions 15, 16, 23 (C14_false), whose exact effect is proved: the registers or coils that did arrive, and no others, are written. Proved for every other byte string, for every layout of blocks and every history (C14_history_partial).")
claim("C15", "partial", ["C15_unsigned", "C15_readable", "C15_signed_partial", "C15_signed_readable_partial", "C10_false", "C101_history", "C101_read", "C101_mask_then_read"], "Proved for unsigned slaves and for signed slaves without function 22; false for signed slaves with function 22 (C10_false). C101 says exactly what holds with function 22.")
claim("C16", "proved", ["C16_request_shape", "C16_set_values_shape"], "Arbitrary bytes and hooks.")
claim("C17", "proved", ["C17_read_only", "C17_tables_independent", "C17_inputs_constant"], "Arbitrary bytes and hooks.")

claim("C23", "proved", ["C23_roundtrip", "C23_request_frame", "C23_refused"], "All pdus up to 65534 bytes (longer ones do not fit the length field and make struct.pack raise), all slave ids, all values of the transaction counter.")
claim("C24", "proved", ["C24_accepts", "C24_rejects", "C24_request"], "All byte strings, exact iff, and the class of the exception otherwise.")
claim("C25", "proved", ["C25_roundtrip", "C25_request_frame", "C25_response", "C25_request"], "All byte strings, exact iff in both directions.")
claim("C26", "proved", ["C26_crc"], "All byte strings; the table is checked entry by entry against eight shifts by kernel evaluation inside the proof.")
claim("C27", "proved", ["C27_request", "C27_response"], "All frames of any length, all error patterns of the three classes (odd number of bits, which includes one bit; burst of at most 16 bits; two bits).")
claim("C28", "proved", ["C28_ids", "C28_distinct", "C28_concurrent", "C28_concurrent_distinct"], "All histories of build_request calls on any query objects; C28_concurrent*: any interleaving of threads.")
claim("C18","proved",["C18_isolated","C18_shared"],"over all histories of databank/slave calls and received frames (WorldInv by induction). Isolation is stated for every foreign step and all requests, get_values and block contents; sharing for the same memory argument.")
claim("C19","proved",["C19_add","C19_get_after_add","C19_remove","C19_history"],"")
claim("C20","proved",["C20_broadcast","C20_write","C20_read"],"well-formed writes; a malformed broadcast stops at the first slave that raises (finding in DESIGN.md)")
claim("C21","proved",["C21_unknown"],"")
claim("C22","partial",["C22_tcp_partial","C22_rtu_partial","C22_tcp_wellformed","C22_rtu_wellformed", "C22_tcp_exact_partial", "C22_rtu_exact_partial", "C22_broadcast_partial","C22_false_tcp","C22_false_rtu"],"false as stated: a request whose pdu is truncated is answered with two unframed bytes (C22_false_*). Proved: every non-empty response is correctly framed or is exactly that bare pdu; for well-formed requests it is the framed specified reply.")

claim("C35","proved",["C35_tcp","C35_rtu","C35_count"],"all responses the channel may deliver; iff between returned data and a response carrying exactly the quantity asked for.")
claim("C36","proved",["C36_tcp","C36_rtu"],"every function and argument for which a request is sent, every framed response with function byte above 0x80.")
claim("C37","partial",["C37_partial","C37_ignored_tcp_partial","C37_ignored_rtu_partial","C37_false"],"false: execute does not compare function codes (C37_false). Proved: anything returned comes from a response whose function byte is at most 0x80, and the function byte plays no other part: responses that differ only in it have the same result.")
claim("C38","proved",["C38_sent_tcp","C38_sent_rtu","C38_refused","C38_unknown_function","C38_wrong_kind","C38_coil_tuple","C38_length"],"C38_coil_tuple: function 5 takes any tuple, also an empty one, for on.")
claim("C39","proved",["C39_length","C39_given","C39_conforming"],"Diagnostic without data has no default length (-1) and is excluded.")
claim("C40","partial",["C40_tcp","C40_rtu","C40_terminates_partial","C40_default_unsigned","C40_false"],"splitting with a caller-supplied signed format can loop for ever (C40_false); with unsigned formats, in particular the default one, it terminates.")
claim("C33","proved",["C33_registers","C33_coils","C33_single_register","C33_single_coil"],"Over an ideal link between execute and the server's _handle, TCP and RTU framing.")
claim("C34","proved",["C34_tcp","C34_rtu","C34_history"],"All 14 functions, any program of calls, exact result or exact exception code; mask write on signed slaves excluded (C10). Ideal link; the transports are C29-C31.")
claim("C30","proved",["C30_reads","C30_sound","C30_early_close","C30_execute"],"Over a socket model with arbitrary segmentation, silences, end of stream and reset; Quiet hooks.")
claim("C32","partial",["C32_receives_partial","C32_ends_partial","C32_false_close","C32_false_exception"],"False as stated: a peer that closes before the expected number of bytes makes _recv spin for ever (C32_false_close) and an exception response shorter than the expected length ends in a time-out instead of ModbusError (C32_false_exception). Proved: full responses are received exactly; receiving ends when the peer does not close.")
claim("C49","proved",["C49_no_stale","C49_bounded","C49_unlimited_diverges"],"TcpMaster._send flushes what has arrived or reconnects; C49_unlimited_diverges shows the lim=0 mode of flush_socket not used by the master can spin.")
claim("C29","proved",["C29_history","C29_frames","C29_answers"],"For every set of connections, segmentation, timing and schedule of rounds of the server loop; Quiet hooks. A frame with length field 0 is read as 7 bytes (ServerFrame).")
claim("C47","partial",["C47_partial","C47_isolation_partial","C47_false_accept","C47_false_deaf"],"False in general: when accept() (or an on_connect hook) raises, the handler closes and forgets the listening socket (C47_false_accept) and the server is deaf for ever (C47_false_deaf). Proved whenever accept does not fail, for all client behaviours.")
claim("C31","proved",["C31_master_reads","C31_master_silence","C31_master_sound","C31_server","C31_server_history","C31_server_bursts"],"Serial port with arbitrary chunks, silences and failures; master with a positive time-out (examples show what happens with 0 and None); server: one round, any number of rounds, exact requests when nothing arrives during handling.")
claim("C50","partial",["C50_open_close_partial","C50_execute_opens_partial","C50_reopens_partial","C50_tcp_no_leak_partial","tcp_laws","rtuOverTcp_laws","rtu_laws","C50_false_rtu"],"All histories of open/close/execute over TCP, RTU over TCP and RTU transports when nobody else closes the serial port. C50_false_rtu: after an external close of the serial port the master can neither close nor reopen.")
claim("C41", "proved", ["C41_serialized", "C41_mutual_exclusion", "C41_no_orphan", "C41_all_released", "C41_atomic"], "Any number of threads and masters, any interleaving of atomic steps of any size; exceptions are results; nested execute allowed. With threadsafe=False only C41_mutual_exclusion/no_orphan/all_released speak.")
claim("C42", "proved", ["C42_alone", "C42_linearizable", "C42_realtime", "C42_results", "C42_false_shared_memory"], "One slave with its own memory. C42_false_shared_memory shows that two slaves sharing a memory dict (each with its own lock) are outside the claim.")
claim("C43", "partial", ["C43_no_deadlock_partial", "C43_completes_partial", "C43_false_deadlock"], "Full claim false: a hook function that calls a slave method can deadlock with a server thread (C43_false_deadlock). Proved for hook functions that call neither slave methods nor execute.")
claim("C44", "proved", ["C44_installed", "C44_uninstall_errors", "C44_call", "callHooks_live", "install_live", "uninstall_live", "C44_false_self_removing", "C44_false_self_installing"], "All histories and all hook functions with any effects that leave the list being iterated alone; the two _false_ theorems show what happens otherwise (a skipped function, an endless loop). A KeyError raised by a function is swallowed (part of C44_call).")
claim("C45", "proved", ["C45_slave", "C45_set_values", "C45_server", "C45_master", "C45_transports", "C45_servers"], "Every function of slave, databank, server, master and the transports, whole server runs included. Hook functions of the model only see the message, not the objects.")
claim("C46", "proved", ["C46_master", "C46_tcp_master", "C46_rtu_master", "C46_rtu_over_tcp_master", "C46_slave", "C46_server", "C46_tcp_server_send", "C46_tcp_server_recv", "C46_rtu_server", "C46_false_read_hooks"], "The hooks named in the statement. TcpServer.after_recv sees and replaces only the 7-byte header (C46_tcp_server_recv); the handle_*_request hooks are documented as replacing the response but are ignored (C46_false_read_hooks).")
claim("C55","proved",["C55_text","C55_injective","C55_false_empty"],"get_log_buffer on a non-empty buffer is the prefix followed by the decimal bytes joined by dashes, and two buffers never give the same text; the empty buffer loses the last character of the prefix (witness).")
claim("C56","proved",["C56_swap","C56_inter_char"],"Over all 16-bit words; inter-char delay over exact rationals instead of floating point.")
claim("C51","proved",["C51_one_answer_per_line","C51_quit","C51_ends_only_on_quit","C51_add_command","C51_wrong_argument"],"For every command table (custom commands included) and every list of lines.")
claim("C52","proved",["C52_add_slave","C52_has_slave","C52_remove_slave","C52_remove_all_slaves","C52_add_block","C52_remove_block","C52_remove_all_blocks","C52_get_values","C52_set_values","C52_install_hook","C52_uninstall_hook","C52_set_verbose","C52_unknown_slave","simReach_wf"],"Each of the 12 commands is the API call; set_values echoes the stored values in every reachable state.")
claim("C53","partial",["C53_get_values_partial","C53_get_values_error","C53_has_slave","C53_long","C53_empty","C53_false_long","C53_false_empty"],"Exact characterisation: with the query within 1024 characters the client returns the slave's values exactly when there is at least one value and the answer fits in 1024 characters; longer answers always give something else, empty ones raise (false witnesses on reachable states). Python 2 text semantics.")
claim("C58","partial",["C58_take_turns_partial","C58_false_two_interfaces","C58_false_timeout"],"True when the interfaces take turns without timeouts; false otherwise (witness schedules).")
claim("C48","partial",["C48_one_server","C48_stopped","C48_stop_ends","C48_thread_calls","C48_restart_partial","C48_serves","C48_stop_idle","C48_false_stop_raises","C48_false_restart","C48_false_hook"],"Server.start/stop/_run_server as a transition system (one controlling thread, the thread generations created by _make_thread, every interleaving, every method may raise). False as stated: stop() can raise RuntimeError when the server thread ends too fast; a restart after a raising method can be undone by the old thread replacing the event; a raising on_exception hook leaves a server that can never be started again. Proved without restriction: at most one serving thread, nothing called after stop returned or raised, stop bounded, stop on a stopped server does nothing. Proved for uneventful histories (no method raised, stop did not raise): start/stop/restart as expected.")
claim("C54","proved",["C54_calls","C54_exit_once","C54_until_stop","C54_stop_waits","C54_stop_bounded","C54_stop_idle","C54_false_start_during_stop"],"WorkerThread as a transition system with any number of calling threads; extra finding: a second start() during a stop() sets the event again.")
claim("C57","partial",["C57_false_reads","C57_false","C57_reads_partial","C57_write_register_partial","C57_write_coil_partial","C57_open_close_partial"],"False as stated (Python 3): map(None, ...) cannot be iterated and read_coils uses an attribute that does not exist, so no reading method ever returns values. Proved: the writing methods act on slave 1 as the specification prescribes, open/close/is_open. A positive time-out is assumed: with the default None nothing works, see C72_py_client.")
claim("C59","partial",["C59_never_waits_partial","C59_bounded_partial","C59_stop_returns_partial","C59_closed","C59_port_open","C59_false_not_sticky","C59_false_reopen"],"Transition system of RtuServer.stop and the server thread. With sticky cancel_read (POSIX pyserial) and no failed reopening of the port, stop() returns after at most 14 actions of the thread. False where cancel_read only ends a pending read, and when reopening a failed port raised (serial.timeout stays None and stop() finds the port closed).")
claim("C60","proved",["C60_linearizable"],"TCP masters with established connections (nothing waiting on them), quiet hooks, slaves with disjoint well-formed memories, legal arguments (mask writes only on unsigned slaves, see C10); responses arrive after their request has been sent. Concrete case: exProg, exStack.")
claim("C61","proved",["C61_linearizable","C61_realtime","C61_one_slave","C61_broadcast_alone","C61_databank","C61_each","C61_stopped","C61_calls","C61_constructors","C61_constructor_raises","C61_false_broadcast","C61_false_stop_raises"],"requests and slave calls over several locks as one linearizable history (Lemmas/LocksMany); start/stop as a transition system composed of the servers' own; the two _false_ theorems show what the property excludes: broadcasts are not atomic, an exception in one server's stop() leaves later servers running")
claim("C62","proved",["C62_write","C62_read","C62_two_formats","C62_round_trip","C62_wrong_size"],"Formats without native alignment (a byte-order prefix is given); float codes are covered as the 4- or 8-byte patterns they transport. The round trips take formats whose packed size is an even number of bytes, 2 to 246.")
claim("C63","partial",["C63_init","C63_exit","C63_life","C63_restart_partial","C63_false_bind","C63_false_hook"],"C63_exit and C63_life hold for every state, every behaviour of the clients, failing accepts and every hook result, as long as no round raises. False in general: when bind fails (C63_false_bind) or an on_error hook raises (C63_false_hook) the server thread ends without _do_exit and sockets stay open.")
claim("C64","proved",["C64_init","C64_init_opens","C64_exit","C64_exit_returns","C64_server","C64_survives","C64_retries","C64_comes_back"],"C64_survives takes a line on which no request begins to arrive while another one is being handled (as C31_server_bursts); a request cut by a failure is handled as it is and fails the CRC check.")
claim("C65","proved",["C65_plain","C65_echo","C65_same_response","C65_false_unhandled"],"The echo arrives in the piece that the read of its length returns. C65_false_unhandled: without handle_local_echo on an echoing line a write call reports success without any slave.")
claim("C66","partial",["C66_add_slave","C66_remove_slave","C66_remove_all_slaves","C66_add_block","C66_remove_block","C66_remove_all_blocks","C66_install_hook","C66_uninstall_hook","C66_set_values_partial","C66_false_long"],"Every remaining method of the client, exact result and state, for queries of at most 1024 characters. False for longer ones: the interface executes the first 1024 characters, so a long set_values reports success but drops values and may cut the last number (C66_false_long, on a reachable simulator). uninstall_hook ignores the function name and removes every function of the hook. Python 2 text semantics.")
claim("C67","proved",["C67_adding","C67_two_steps","C67_sequential","C67_request","C67_new_slave","C67_broadcast_alone","C67_false_removing","C67_false_broadcast","C67_false_broadcast_end","C67_false_broadcast_removed"],
"Whole requests are not atomic with respect to remove_slave (C67_false_removing) and broadcasts are not atomic (C67_false_broadcast): both are false of the code, not unproved.")
claim("C68","proved",["C68_tcp_unchanged","C68_tcp_short","C68_tcp_length","C68_rtu","C68_fresh"],"The unframed answer 81 04 to a wrong TCP length field is what the code does (a finding, see C22).")
claim("C69","proved",["C69_missing_table_tcp","C69_missing_table_rtu","C69_add_block","C69_dangling"],"Quiet hooks for the requests.")
claim("C70","proved",["C70_bus","C70_one_speaker","C70_clash"],"Hooks quiet, use_sw_timeout off, servers given the time to finish before the next message (the line carries one exchange at a time); mask writes on signed slaves excepted (see C10). C70_clash: the assumption that no two servers share a slave number is needed.")
claim("C71","proved",["C71_request","C71_server","C71_set_values","C71_invariant","C71_veto","C71_false_atomic","C71_key_error","C71_hidden"],"Hook functions as in C46 (functions of their argument that do not themselves write blocks). C71_false_atomic, C71_key_error, C71_hidden are the limits named in the statement.")
claim("C72","proved",["C72_in_force","C72_set_timeout","C72_open","C72_py_client"],"Python 3 (None > 0 raises). Sockets with their time-outs are modelled after the documentation of the socket module.")
claim("C73","proved",["C73_bounded","C73_bounded_rtu_over_tcp","C73_recv_ends","C73_prompt","C73_slow","C73_silent"],"Only waiting takes time: computation, hooks and send into the buffer of the operating system take none.")
claim("C74","proved",["C74_round","C74_served","C74_prompt","C74_hold"],"Only waiting takes time; hooks (C74_served, C74_prompt, C74_hold) do nothing, C74_round holds for all hooks. The times of a round are those of the one-second waits in select and recv.")
claim("C75","proved",["C75_refines","C75_frames"],"Forward simulation of the clocked server (ClockedServer.lean) by the untimed server (TcpServer.lean), with the arrivals and silences chosen along the run; C75_frames then follows from C29_history.")
claim("C76","proved",["C76_call","C76_settings","C76_prompt","C76_short","C76_silent","C76_unbounded","C76_none","C76_echo"],"RtuMaster with a clock (Model/ClockedRtu.lean).")
claim("C77","proved",["C77_run","C77_frames"],"RtuServer with a clock (Model/ClockedRtu.lean), hooks that do nothing; the merging of frames 3.5 characters apart is shown by a concrete run.")
claim("C78","proved",["C78_call","C78_history","C78_impatient"],"Composition of the clocked master and server over a line (Props/RtuExchange.lean); no local echo, use_sw_timeout off.")
claim("C79","proved",["C79_server","C79_master"],"Forward simulation of the clocked master and server (Model/ClockedRtu.lean) by the untimed ones (Model/Rtu.lean), arbitrary hooks; the pieces are built along the run. The device works (no failing operation on an open port); set_timeout(None) is C76_none.")
claim("C80","proved",["C80_tcp","C80_rtu_over_tcp"],"Forward simulation of the clocked masters (Model/Clocked.lean) by the untimed ones (Model/TcpMaster.lean), arbitrary hooks; for every possible future of the untimed run a present is built backwards. Time-outs are positive numbers (0, None and negative ones are C72).")
claim("C81","proved",["C81_read_registers","C81_read_bits","C81_write_registers","C81_write_coils","C81_write_register","C81_write_coil","C81_mask_write","C81_read_write","C81_nowhere","C81_read_back_registers","C81_read_back_coils","C81_read_back_register","C81_two_values","C81_history"],"Hooks that do not interfere, except in C81_history (any hooks). C81_two_values: after 7 is written to register 5 of the slave of C02_false, register 5 alone is 7 but 0 within the range 0..9.")
claim("C82","partial",["C82_before_partial","C82_last_partial","C82_whole_partial","C82_response","C82_false"],"False as stated: the result of send() is ignored (modbus_tcp.py:205, 349), so the rest of a message that was taken only in part is lost and the beginning of the next request is taken for it (C82_false: a wrong register value is written and acknowledged). Proved: everything sent before the first cut message is handled as sent; if nothing follows the cut message it has no effect; responses that were cut are never returned.")
claim("C83","partial",["C83_tcp","C83_rtu_partial","C83_rtu_over_tcp_partial","C83_false_rtu","C83_false_rtu_over_tcp"],"Proved for TCP (any link, any history of less than 65535 operations, other masters included). False for RTU and RTU over TCP: responses carry no ids, so a response that arrives after the next request was sent is returned as its result; proved for these: only bytes that arrived after the input was flushed for the request can be returned.")
claim("C84","proved",["C84_call","C84_history","C84_connect"],"Composition of the clocked master and server over a network given by routes (Props/TcpExchange.lean): the server's loop runs until it has sent the response. Segments of a message take at least one tick; the late response of a call arrives before the next call (a response that arrives during a later call is C83).")
claim("C85","proved",["C85_refines","C85_determined","C85_bits","C85_registers","C85_write_registers","C85_write_coils","C85_write_register","C85_write_coil","C85_mask","C85_read_write","C85_only_integers","C85_integers","C85_set_get","C85_set_one", "C85_set_values", "C85_get_values"],"The handlers are written once over an environment of cells (Model/Handlers.lean) and proved to be those of Model/Slave.lean for integers (generic_handle); an object is an integer or something that has a truth value, cannot be packed and has no operator & (objects with __index__ or their own __and__ are not covered). Python 3 (Python 2 packs floats with a warning). C85_mask covers integers from -32768 to 65535.")
claim("C86","proved",["C86_still","C86_before","C86_instead","C86_refused","C86_watch","C86_announced","C86_write_register","C86_write_registers","C86_write_coil","C86_write_coils","C86_mask_write","C86_read_write","C86_meddling","C86_fresh", "C86_called"],"The handlers of Model/Handlers.lean over an environment whose hooks change the heap and a state of the program (Model/ActingHooks.lean); C86_still: functions that do not act give the handle_request of the other properties. C86_meddling: a setitem function that changes a register of the request already stored. Functions that change _HOOKS itself are in C44 only.")
claim("C87","proved",["C87_same","C87_any_text","C87_reading","C87_calcsize","C87_not_sent","C87_write","C87_written","C87_two_texts","C87_kept","C87_space","C87_count","C87_prefixes","C87_native","C87_coils","C87_sizes","C87_string","C87_flag"],"The struct module is modelled for format texts (Model/Format); floats are an arbitrary type with a packing of fixed length.")
claim("C88","proved",["C88_once","C88_repeat","C88_at_most_once","C88_retry","C88_program","C88_function23"],"C88_once: any hooks, transport, framing, arguments. C88_repeat: executing a request again changes nothing, and answers the same except function 23. C88_at_most_once: one call on a link with faults (lost request, lost response, failing send, foreign bytes). C88_retry/C88_program: retry loops over a link with any losses equal the specification (hence the perfect link, C34_history). C88_function23: the exception is real.")
claim("C89","proved",["C89_answers","C89_console","C89_interfaces","C89_only_quit","C89_closed","C89_close_returns","C89_silent_client","C89_py3_no_answer","C89_py3_ends","C89_end_of_input","C89_false_rpc_py3","C89_false_silent","C89_false_start"],"Transition system of the main, console and RPC threads with the two queues; invariants over all executions. The three _false_ theorems are concrete executions that show the exceptions named in the property.")
claim("C90","proved",["C90_off","C90_master","C90_master_raising","C90_server","C90_lines"],"Model/Verbose: execute and Server._handle with the log calls and a handler that may raise, depending on the history; compared with execute and serverHandle. The other log lines of the library are not modelled.")
claim("C91","proved",["C91_observers","C91_answers","C91_calls","C91_history","C91_recursion","C91_after_send","C91_false_rtu"],"Model/MasterHooks: execute with hook functions that are given execute and may change the master and the program; nesting is bounded by a depth (RecursionError), all theorems hold for every depth of at least 2. C91_calls, C91_history: TCP and RTU, against the server link of C34. C91_after_send: TCP, a link on which the earlier response has or has not arrived before each message; C91_false_rtu is the witness that over RTU answers can be swapped there. Functions of after_send: fixed lists of calls; the others: adaptive programs. The messages the functions are given are the subject of C45 and C46.")
claim("C92","proved",["C92_page","C92_poll","C92_binary","C92_read","C92_json","C92_all_registers","C92_read_writes","C92_masters","C92_added","C92_requests","C92_kept","C92_gone","C92_gone_request","C92_restart","C92_false_stale"],"Model/WebHmi: database tables with AUTOINCREMENT, masters objects with their copy of the requests, the routes, the loops of the templates. Numbers of urls and forms are integers. storedAfter tells what is stored without the program. Negative results: the reading page writes 0 for function 6; an RTU master is stored but never available (C92_added, C92_masters); a request deleted through the url of another master stays on its page (C92_false_stale).")
claim("C93","proved",["C93_cv","C93_set_pi","C93_others","C93_rule","C93_false_rule","C93_monitor_when","C93_monitor_writes"],"Model/Examples: the commands of examples/mysimu.py on the model of the simulator (C51, C52), and the collector of examples/modbus_system_monitor.py with the RPC client (C66, Python 2 texts). The bytes of the float are parameters.")
claim("C94","proved",["C94_add_slave","C94_add_block","C94_set_values","C94_get_values","C94_other","C94_end","C94_as_simulator","C94_false_end_of_input","C94_false_contained"],
 "C94_false_* state the two warnings of the property: a mistyped number stops the server, and the end of the input never does")
claim("C95","proved",["C95_still","C95_around","C95_watch","C95_log","C95_broadcast","C95_false_broadcast"],
 "Model/ActingServer.lean; C95_still: functions that do not act give the server of the other properties. C95_false_broadcast is the warning of the last sentence. hn (the keys of the databank are distinct) holds for every Python dictionary. Functions that change _HOOKS itself are in C44 only.")
claim("C96","proved",["C96_calm","C96_memory","C96_answered","C96_exception_lines","C96_failing","C96_error_line","C96_missing_line","C96_broadcast","C96_broadcast_line","C96_server_lines","C96_broadcast_hook","C96_on_error","C96_hook_exception","C96_false_broadcast"],"C96_calm and C96_memory have no assumption about the hook functions; the exact lines and the three ends of a failing log (C96_failing) are for registries without hook functions and for handlers that raise no exception of the library (Logger.Foreign). C96_false_broadcast: the witness of a broadcast that a failing log stops halfway, answered with two bytes that are no frame.")
claim("C97","proved",["C97_calm","C97_isolated","C97_survives","C97_connect_line","C97_disconnect_line","C97_request_lines","C97_wrong_line","C97_end_line","C97_false_listener","C97_false_stop","C97_false_thread","C97_false_full"],"C97_survives is for registries without hook functions and for accept calls that do not raise (C47). The C97_false theorems show that the two kinds of lines named in the statement are needed. In C97_request_lines the request has been read.")
claim("C98","proved",["C98_calm","C98_survives","C98_memory","C98_reply_lines","C98_error_line","C98_fine","C98_stop_line","C98_end_line","C98_false_round","C98_false_stop","C98_false_full"],"The statement names the two kinds of lines whose loss is harmful; the C98_false theorems are about those. C98_survives, C98_memory and C98_reply_lines are for registries without hook functions; C98_memory and C98_reply_lines without verbose dumps.")
claim("C99","proved",["C99_create","C99_accumulate","C99_delivery","C99_failure","C99_takes","C99_levels","C99_calm","C99_tcp_server","C99_rtu_server","C99_master","C99_dump_size","C99_false_udp","C99_false_localised","C99_false_long"],"The statement names what is false of the udp handler; the C99_false theorems are about that. A formatter is a function of the message.")
claim("C100", "proved", ["C100_transparent", "C100_raises", "C100_read_registers", "C100_read_bits", "C100_write_registers", "C100_write_coils", "C100_write_single", "C100_mask_write", "C100_read_write", "C100_read_back", "C100_nowhere", "C100_two_values", "C100_unreadable"], "Ideal link as in C33 and C34 (on a real TCP connection the two bytes of a failing slave are shorter than a header, so the master runs into its time-out or the next bytes). C100_two_values: with overlapping blocks the value depends on the range read. C100_unreadable: a master can make a register of a signed slave unreadable by a mask write.")
claim("C101","proved",["C101_history","C101_read","C101_read_inputs","C101_read_write","C101_mask_write","C101_mask_then_read","C101_write_register","C101_write_registers","C101_write_then_read","C101_write_many_then_read","C101_instance"],"Loose is what C101_history shows of every reachable slave; the theorems about requests take the hooks to be quiet (callbacks that answer None). They hold for unsigned slaves as well. Values that the user sets are taken to fit.")
claim("C102","proved",["C102_as_one","C102_new","C102_drop","C102_drop_any","C102_close","C102_useless","C102_reopened","C102_server","C102_example"],
  "C102_useless is a finding: a program that makes a master anew to change its settings and drops the old one loses every other master that uses the port; close() and open() do not help. Calls of different masters never interleave (the lock of execute is shared, C41), so operations are taken one at a time; C102_close and C102_reopened with quiet hooks, the other theorems with any.")
claim("C103","proved",["C103_rtu","C103_rtu_works","C103_rtu_bricked","C103_false_open","C103_false_close","C103_rtu_closers","C103_tcp_works","C103_tcp_false_close","C103_tcp_closers","C103_tcp_closer_raises"],
  "The _false_ theorems are the races of (2) and (4), on concrete schedules; C103_rtu_bricked shows the first one is for ever. Transition systems of their own (Model/CloseRace.lean): contents of requests and answers and hooks are left out, every attribute access and device operation is one action.")
claim("C104","proved",["C104_rtu_lock","C104_rtu","C104_rtu_works","C104_rtu_false_close","C104_rtu_example","C104_tcp","C104_tcp_works","C104_tcp_example"],
  "On the transition systems of C103, with one more kind of event. Acquiring the lock and entering the try statement (utils.py:37-38) are taken as one action, and so is the release in finally. C104_rtu_false_close is the interrupted close.")
claim("C105","proved",["C105_calm","C105_line","C105_raising","C105_stuck","C105_exit","C105_exit_no_socket","C105_exit_plain","C105_false_exit","C105_example","C105_exit_example"],
  "The verbose lines of execute are those of C90. C105_stuck and C105_false_exit are the findings: handlers that raise.")
claim("C106","proved",["C106_call","C106_history","C106_unknown","C106_example"],
  "End to end over the socket model of C30 and C32; the gateway is not part of modbus_tk and is taken to be transparent and quick. Mask write on signed slaves is excluded (C10), as in C34.")
claim("C107","proved",["C107_worker","C107_exit_once","C107_lines","C107_master","C107_server","C107_example"],
  "With C90, C96, C97, C98 and C105 every log line of the library (not of simulator.py) is modelled.")
claim("C108","proved",["C108_lines","C108_three","C108_raises","C108_false_connected","C108_false_port","C108_example"],
  "The lines of the hooks of tcpmaster_example.py and of the verbose mode are left out (C45, C90).")
claim("C109","proved",["C109_complete","C109_all_or_nothing","C109_remove_all","C109_repair","C109_false_add","C109_false_alias","C109_false_remove","C109_example"],
  "An action is one dictionary or list operation, which CPython does not interrupt. C109_complete ties the actions to the calls of Model/Slave.")
claim("C110","proved",["C110_one_server","C110_thread_calls","C110_stopped","C110_stop_ends","C110_start_again","C110_start_late","C110_false_restart","C110_false_exit"],
  "Extends the transition system of C48 by interruptions of the controlling thread and by SystemExit in a server thread.")
claim("C111","proved",["C111_calls","C111_stop_waits","C111_stop_cut","C111_start_again","C111_false_restart"],"Extends the transition system of C54 by interruptions; a SystemExit in a function of the worker is, as regards the calls, a function that raises (finally)")

if __name__ == "__main__":
    here = os.path.dirname(os.path.dirname(os.path.abspath(__file__)))
    json.dump({"claims": C}, open(os.path.join(here, "MANIFEST.json"), "w"), indent=1)
