{
 "claims": [
  {
   "property": "C01",
   "status": "proved",
   "theorems": [
    "Modbus.C01_get_after_set",
    "Modbus.C01_set_frame",
    "Modbus.C01_set_out_of_block",
    "Modbus.C01_get_out_of_block",
    "Modbus.C01_get_values"
   ],
   "note": "For every slave state, every hook registry and every argument; blocks well formed (C16 keeps them so)."
  },
  {
   "property": "C02",
   "status": "partial",
   "theorems": [
    "Modbus.C02_false",
    "Modbus.C02_careful_partial",
    "Modbus.C02_ascending_partial",
    "Modbus.C02_descending_partial",
    "Modbus.C02_checked_prefix"
   ],
   "note": "The property is false of the code (C02_false: A(0,10), B(100,10), C(5,5) are all accepted). Proved: it holds for histories adding in ascending or descending address order and, more generally, for careful histories; exact statement of what one call checks."
  },
  {
   "property": "C03",
   "status": "proved",
   "theorems": [
    "Modbus.C03_invalid_argument",
    "Modbus.C03_duplicated_key",
    "Modbus.C03_invalid_block",
    "Modbus.C03_overlap",
    "Modbus.C03_accepted",
    "Modbus.C03_refused_unchanged"
   ],
   "note": "Exact condition of each error in order, acceptance otherwise, refused calls change nothing."
  },
  {
   "property": "C04",
   "status": "partial",
   "theorems": [
    "Modbus.C04_add_lookup_partial",
    "Modbus.C04_remove_lookup_partial",
    "Modbus.C04_remove_known_partial",
    "Modbus.C04_remove_all",
    "Modbus.C04_add_remove_partial",
    "Modbus.C04_false"
   ],
   "note": "False in general because of the overlap defect (C04_false); proved for every slave whose blocks do not overlap."
  },
  {
   "property": "C05",
   "status": "proved",
   "theorems": [
    "Modbus.C05_read_registers",
    "Modbus.C05_decodes"
   ],
   "note": "Every slave in good order (blocks disjoint, values in range), every address and quantity, hooks that do not interfere."
  },
  {
   "property": "C06",
   "status": "proved",
   "theorems": [
    "Modbus.C06_read_bits"
   ],
   "note": "All quantities 1..2000, bit by bit, padding included."
  },
  {
   "property": "C07",
   "status": "proved",
   "theorems": [
    "Modbus.C07_write_registers"
   ],
   "note": "All quantities 1..123; frame condition over all four tables."
  },
  {
   "property": "C08",
   "status": "proved",
   "theorems": [
    "Modbus.C08_write_coils"
   ],
   "note": "All quantities 1..1968, signed and unsigned slaves."
  },
  {
   "property": "C09",
   "status": "proved",
   "theorems": [
    "Modbus.C09_write_register",
    "Modbus.C09_write_coil",
    "Modbus.C09_write_coil_refused"
   ],
   "note": "All addresses and values."
  },
  {
   "property": "C10",
   "status": "partial",
   "theorems": [
    "Modbus.C10_mask_write",
    "Modbus.C10_readable_partial",
    "Modbus.C10_false"
   ],
   "note": "Bitwise effect, frame and echo proved for every slave; 'stays readable' is false for signed slaves (C10_false) and proved for unsigned ones."
  },
  {
   "property": "C11",
   "status": "partial",
   "theorems": [
    "Modbus.C11_read_write",
    "Modbus.C11_write_first_partial",
    "Modbus.C11_false"
   ],
   "note": "Exact behaviour proved (read happens before the write); the specified order write-then-read is false (C11_false) and indistinguishable for disjoint ranges (C11_write_first_partial)."
  },
  {
   "property": "C12",
   "status": "proved",
   "theorems": [
    "Modbus.C12_exception_no_write"
   ],
   "note": "For arbitrary bytes and hooks, provided no hook itself raises ModbusError."
  },
  {
   "property": "C13",
   "status": "proved",
   "theorems": [
    "Modbus.C13_unknown_function",
    "Modbus.C13_read_bits",
    "Modbus.C13_read_registers",
    "Modbus.C13_write_coils",
    "Modbus.C13_write_registers",
    "Modbus.C13_single_writes",
    "Modbus.C13_mask_write",
    "Modbus.C13_read_write",
    "Modbus.C09_write_coil_refused"
   ],
   "note": "Exact code and order of checks for every function."
  },
  {
   "property": "C14",
   "status": "partial",
   "theorems": [
    "Modbus.C14_atomic_partial",
    "Modbus.C14_history_partial",
    "Modbus.C14_truncated_registers",
    "Modbus.C14_truncated_coils",
    "Modbus.C14_truncated_read_write",
    "Modbus.C14_false"
   ],
   "note": "False for truncated payloads of functions 15, 16, 23 (C14_false), whose exact effect is proved: the registers or coils that did arrive, and no others, are written. Proved for every other byte string, for every layout of blocks and every history (C14_history_partial)."
  },
  {
   "property": "C15",
   "status": "partial",
   "theorems": [
    "Modbus.C15_unsigned",
    "Modbus.C15_readable",
    "Modbus.C15_signed_partial",
    "Modbus.C15_signed_readable_partial",
    "Modbus.C10_false",
    "Modbus.C101_history",
    "Modbus.C101_read",
    "Modbus.C101_mask_then_read"
   ],
   "note": "Proved for unsigned slaves and for signed slaves without function 22; false for signed slaves with function 22 (C10_false). C101 says exactly what holds with function 22."
  },
  {
   "property": "C16",
   "status": "proved",
   "theorems": [
    "Modbus.C16_request_shape",
    "Modbus.C16_set_values_shape"
   ],
   "note": "Arbitrary bytes and hooks."
  },
  {
   "property": "C17",
   "status": "proved",
   "theorems": [
    "Modbus.C17_read_only",
    "Modbus.C17_tables_independent",
    "Modbus.C17_inputs_constant"
   ],
   "note": "Arbitrary bytes and hooks."
  },
  {
   "property": "C23",
   "status": "proved",
   "theorems": [
    "Modbus.C23_roundtrip",
    "Modbus.C23_request_frame",
    "Modbus.C23_refused"
   ],
   "note": "All pdus up to 65534 bytes (longer ones do not fit the length field and make struct.pack raise), all slave ids, all values of the transaction counter."
  },
  {
   "property": "C24",
   "status": "proved",
   "theorems": [
    "Modbus.C24_accepts",
    "Modbus.C24_rejects",
    "Modbus.C24_request"
   ],
   "note": "All byte strings, exact iff, and the class of the exception otherwise."
  },
  {
   "property": "C25",
   "status": "proved",
   "theorems": [
    "Modbus.C25_roundtrip",
    "Modbus.C25_request_frame",
    "Modbus.C25_response",
    "Modbus.C25_request"
   ],
   "note": "All byte strings, exact iff in both directions."
  },
  {
   "property": "C26",
   "status": "proved",
   "theorems": [
    "Modbus.C26_crc"
   ],
   "note": "All byte strings; the table is checked entry by entry against eight shifts by kernel evaluation inside the proof."
  },
  {
   "property": "C27",
   "status": "proved",
   "theorems": [
    "Modbus.C27_request",
    "Modbus.C27_response"
   ],
   "note": "All frames of any length, all error patterns of the three classes (odd number of bits, which includes one bit; burst of at most 16 bits; two bits)."
  },
  {
   "property": "C28",
   "status": "proved",
   "theorems": [
    "Modbus.C28_ids",
    "Modbus.C28_distinct",
    "Modbus.C28_concurrent",
    "Modbus.C28_concurrent_distinct"
   ],
   "note": "All histories of build_request calls on any query objects; C28_concurrent*: any interleaving of threads."
  },
  {
   "property": "C18",
   "status": "proved",
   "theorems": [
    "Modbus.C18_isolated",
    "Modbus.C18_shared"
   ],
   "note": "over all histories of databank/slave calls and received frames (WorldInv by induction). Isolation is stated for every foreign step and all requests, get_values and block contents; sharing for the same memory argument."
  },
  {
   "property": "C19",
   "status": "proved",
   "theorems": [
    "Modbus.C19_add",
    "Modbus.C19_get_after_add",
    "Modbus.C19_remove",
    "Modbus.C19_history"
   ],
   "note": ""
  },
  {
   "property": "C20",
   "status": "proved",
   "theorems": [
    "Modbus.C20_broadcast",
    "Modbus.C20_write",
    "Modbus.C20_read"
   ],
   "note": "well-formed writes; a malformed broadcast stops at the first slave that raises (finding in DESIGN.md)"
  },
  {
   "property": "C21",
   "status": "proved",
   "theorems": [
    "Modbus.C21_unknown"
   ],
   "note": ""
  },
  {
   "property": "C22",
   "status": "partial",
   "theorems": [
    "Modbus.C22_tcp_partial",
    "Modbus.C22_rtu_partial",
    "Modbus.C22_tcp_wellformed",
    "Modbus.C22_rtu_wellformed",
    "Modbus.C22_tcp_exact_partial",
    "Modbus.C22_rtu_exact_partial",
    "Modbus.C22_broadcast_partial",
    "Modbus.C22_false_tcp",
    "Modbus.C22_false_rtu"
   ],
   "note": "false as stated: a request whose pdu is truncated is answered with two unframed bytes (C22_false_*). Proved: every non-empty response is correctly framed or is exactly that bare pdu; for well-formed requests it is the framed specified reply."
  },
  {
   "property": "C35",
   "status": "proved",
   "theorems": [
    "Modbus.C35_tcp",
    "Modbus.C35_rtu",
    "Modbus.C35_count"
   ],
   "note": "all responses the channel may deliver; iff between returned data and a response carrying exactly the quantity asked for."
  },
  {
   "property": "C36",
   "status": "proved",
   "theorems": [
    "Modbus.C36_tcp",
    "Modbus.C36_rtu"
   ],
   "note": "every function and argument for which a request is sent, every framed response with function byte above 0x80."
  },
  {
   "property": "C37",
   "status": "partial",
   "theorems": [
    "Modbus.C37_partial",
    "Modbus.C37_ignored_tcp_partial",
    "Modbus.C37_ignored_rtu_partial",
    "Modbus.C37_false"
   ],
   "note": "false: execute does not compare function codes (C37_false). Proved: anything returned comes from a response whose function byte is at most 0x80, and the function byte plays no other part: responses that differ only in it have the same result."
  },
  {
   "property": "C38",
   "status": "proved",
   "theorems": [
    "Modbus.C38_sent_tcp",
    "Modbus.C38_sent_rtu",
    "Modbus.C38_refused",
    "Modbus.C38_unknown_function",
    "Modbus.C38_wrong_kind",
    "Modbus.C38_coil_tuple",
    "Modbus.C38_length"
   ],
   "note": "C38_coil_tuple: function 5 takes any tuple, also an empty one, for on."
  },
  {
   "property": "C39",
   "status": "proved",
   "theorems": [
    "Modbus.C39_length",
    "Modbus.C39_given",
    "Modbus.C39_conforming"
   ],
   "note": "Diagnostic without data has no default length (-1) and is excluded."
  },
  {
   "property": "C40",
   "status": "partial",
   "theorems": [
    "Modbus.C40_tcp",
    "Modbus.C40_rtu",
    "Modbus.C40_terminates_partial",
    "Modbus.C40_default_unsigned",
    "Modbus.C40_false"
   ],
   "note": "splitting with a caller-supplied signed format can loop for ever (C40_false); with unsigned formats, in particular the default one, it terminates."
  },
  {
   "property": "C33",
   "status": "proved",
   "theorems": [
    "Modbus.C33_registers",
    "Modbus.C33_coils",
    "Modbus.C33_single_register",
    "Modbus.C33_single_coil"
   ],
   "note": "Over an ideal link between execute and the server's _handle, TCP and RTU framing."
  },
  {
   "property": "C34",
   "status": "proved",
   "theorems": [
    "Modbus.C34_tcp",
    "Modbus.C34_rtu",
    "Modbus.C34_history"
   ],
   "note": "All 14 functions, any program of calls, exact result or exact exception code; mask write on signed slaves excluded (C10). Ideal link; the transports are C29-C31."
  },
  {
   "property": "C30",
   "status": "proved",
   "theorems": [
    "Modbus.C30_reads",
    "Modbus.C30_sound",
    "Modbus.C30_early_close",
    "Modbus.C30_execute"
   ],
   "note": "Over a socket model with arbitrary segmentation, silences, end of stream and reset; Quiet hooks."
  },
  {
   "property": "C32",
   "status": "partial",
   "theorems": [
    "Modbus.C32_receives_partial",
    "Modbus.C32_ends_partial",
    "Modbus.C32_false_close",
    "Modbus.C32_false_exception"
   ],
   "note": "False as stated: a peer that closes before the expected number of bytes makes _recv spin for ever (C32_false_close) and an exception response shorter than the expected length ends in a time-out instead of ModbusError (C32_false_exception). Proved: full responses are received exactly; receiving ends when the peer does not close."
  },
  {
   "property": "C49",
   "status": "proved",
   "theorems": [
    "Modbus.C49_no_stale",
    "Modbus.C49_bounded",
    "Modbus.C49_unlimited_diverges"
   ],
   "note": "TcpMaster._send flushes what has arrived or reconnects; C49_unlimited_diverges shows the lim=0 mode of flush_socket not used by the master can spin."
  },
  {
   "property": "C29",
   "status": "proved",
   "theorems": [
    "Modbus.C29_history",
    "Modbus.C29_frames",
    "Modbus.C29_answers"
   ],
   "note": "For every set of connections, segmentation, timing and schedule of rounds of the server loop; Quiet hooks. A frame with length field 0 is read as 7 bytes (ServerFrame)."
  },
  {
   "property": "C47",
   "status": "partial",
   "theorems": [
    "Modbus.C47_partial",
    "Modbus.C47_isolation_partial",
    "Modbus.C47_false_accept",
    "Modbus.C47_false_deaf"
   ],
   "note": "False in general: when accept() (or an on_connect hook) raises, the handler closes and forgets the listening socket (C47_false_accept) and the server is deaf for ever (C47_false_deaf). Proved whenever accept does not fail, for all client behaviours."
  },
  {
   "property": "C31",
   "status": "proved",
   "theorems": [
    "Modbus.C31_master_reads",
    "Modbus.C31_master_silence",
    "Modbus.C31_master_sound",
    "Modbus.C31_server",
    "Modbus.C31_server_history",
    "Modbus.C31_server_bursts"
   ],
   "note": "Serial port with arbitrary chunks, silences and failures; master with a positive time-out (examples show what happens with 0 and None); server: one round, any number of rounds, exact requests when nothing arrives during handling."
  },
  {
   "property": "C50",
   "status": "partial",
   "theorems": [
    "Modbus.C50_open_close_partial",
    "Modbus.C50_execute_opens_partial",
    "Modbus.C50_reopens_partial",
    "Modbus.C50_tcp_no_leak_partial",
    "Modbus.tcp_laws",
    "Modbus.rtuOverTcp_laws",
    "Modbus.rtu_laws",
    "Modbus.C50_false_rtu"
   ],
   "note": "All histories of open/close/execute over TCP, RTU over TCP and RTU transports when nobody else closes the serial port. C50_false_rtu: after an external close of the serial port the master can neither close nor reopen."
  },
  {
   "property": "C41",
   "status": "proved",
   "theorems": [
    "Modbus.C41_serialized",
    "Modbus.C41_mutual_exclusion",
    "Modbus.C41_no_orphan",
    "Modbus.C41_all_released",
    "Modbus.C41_atomic"
   ],
   "note": "Any number of threads and masters, any interleaving of atomic steps of any size; exceptions are results; nested execute allowed. With threadsafe=False only C41_mutual_exclusion/no_orphan/all_released speak."
  },
  {
   "property": "C42",
   "status": "proved",
   "theorems": [
    "Modbus.C42_alone",
    "Modbus.C42_linearizable",
    "Modbus.C42_realtime",
    "Modbus.C42_results",
    "Modbus.C42_false_shared_memory"
   ],
   "note": "One slave with its own memory. C42_false_shared_memory shows that two slaves sharing a memory dict (each with its own lock) are outside the claim."
  },
  {
   "property": "C43",
   "status": "partial",
   "theorems": [
    "Modbus.C43_no_deadlock_partial",
    "Modbus.C43_completes_partial",
    "Modbus.C43_false_deadlock"
   ],
   "note": "Full claim false: a hook function that calls a slave method can deadlock with a server thread (C43_false_deadlock). Proved for hook functions that call neither slave methods nor execute."
  },
  {
   "property": "C44",
   "status": "proved",
   "theorems": [
    "Modbus.C44_installed",
    "Modbus.C44_uninstall_errors",
    "Modbus.C44_call",
    "Modbus.callHooks_live",
    "Modbus.install_live",
    "Modbus.uninstall_live",
    "Modbus.C44_false_self_removing",
    "Modbus.C44_false_self_installing"
   ],
   "note": "All histories and all hook functions with any effects that leave the list being iterated alone; the two _false_ theorems show what happens otherwise (a skipped function, an endless loop). A KeyError raised by a function is swallowed (part of C44_call)."
  },
  {
   "property": "C45",
   "status": "proved",
   "theorems": [
    "Modbus.C45_slave",
    "Modbus.C45_set_values",
    "Modbus.C45_server",
    "Modbus.C45_master",
    "Modbus.C45_transports",
    "Modbus.C45_servers"
   ],
   "note": "Every function of slave, databank, server, master and the transports, whole server runs included. Hook functions of the model only see the message, not the objects."
  },
  {
   "property": "C46",
   "status": "proved",
   "theorems": [
    "Modbus.C46_master",
    "Modbus.C46_tcp_master",
    "Modbus.C46_rtu_master",
    "Modbus.C46_rtu_over_tcp_master",
    "Modbus.C46_slave",
    "Modbus.C46_server",
    "Modbus.C46_tcp_server_send",
    "Modbus.C46_tcp_server_recv",
    "Modbus.C46_rtu_server",
    "Modbus.C46_false_read_hooks"
   ],
   "note": "The hooks named in the statement. TcpServer.after_recv sees and replaces only the 7-byte header (C46_tcp_server_recv); the handle_*_request hooks are documented as replacing the response but are ignored (C46_false_read_hooks)."
  },
  {
   "property": "C55",
   "status": "proved",
   "theorems": [
    "Modbus.C55_text",
    "Modbus.C55_injective",
    "Modbus.C55_false_empty"
   ],
   "note": "get_log_buffer on a non-empty buffer is the prefix followed by the decimal bytes joined by dashes, and two buffers never give the same text; the empty buffer loses the last character of the prefix (witness)."
  },
  {
   "property": "C56",
   "status": "proved",
   "theorems": [
    "Modbus.C56_swap",
    "Modbus.C56_inter_char"
   ],
   "note": "Over all 16-bit words; inter-char delay over exact rationals instead of floating point."
  },
  {
   "property": "C51",
   "status": "proved",
   "theorems": [
    "Modbus.C51_one_answer_per_line",
    "Modbus.C51_quit",
    "Modbus.C51_ends_only_on_quit",
    "Modbus.C51_add_command",
    "Modbus.C51_wrong_argument"
   ],
   "note": "For every command table (custom commands included) and every list of lines."
  },
  {
   "property": "C52",
   "status": "proved",
   "theorems": [
    "Modbus.C52_add_slave",
    "Modbus.C52_has_slave",
    "Modbus.C52_remove_slave",
    "Modbus.C52_remove_all_slaves",
    "Modbus.C52_add_block",
    "Modbus.C52_remove_block",
    "Modbus.C52_remove_all_blocks",
    "Modbus.C52_get_values",
    "Modbus.C52_set_values",
    "Modbus.C52_install_hook",
    "Modbus.C52_uninstall_hook",
    "Modbus.C52_set_verbose",
    "Modbus.C52_unknown_slave",
    "Modbus.simReach_wf"
   ],
   "note": "Each of the 12 commands is the API call; set_values echoes the stored values in every reachable state."
  },
  {
   "property": "C53",
   "status": "partial",
   "theorems": [
    "Modbus.C53_get_values_partial",
    "Modbus.C53_get_values_error",
    "Modbus.C53_has_slave",
    "Modbus.C53_long",
    "Modbus.C53_empty",
    "Modbus.C53_false_long",
    "Modbus.C53_false_empty"
   ],
   "note": "Exact characterisation: with the query within 1024 characters the client returns the slave's values exactly when there is at least one value and the answer fits in 1024 characters; longer answers always give something else, empty ones raise (false witnesses on reachable states). Python 2 text semantics."
  },
  {
   "property": "C58",
   "status": "partial",
   "theorems": [
    "Modbus.C58_take_turns_partial",
    "Modbus.C58_false_two_interfaces",
    "Modbus.C58_false_timeout"
   ],
   "note": "True when the interfaces take turns without timeouts; false otherwise (witness schedules)."
  },
  {
   "property": "C48",
   "status": "partial",
   "theorems": [
    "Modbus.C48_one_server",
    "Modbus.C48_stopped",
    "Modbus.C48_stop_ends",
    "Modbus.C48_thread_calls",
    "Modbus.C48_restart_partial",
    "Modbus.C48_serves",
    "Modbus.C48_stop_idle",
    "Modbus.C48_false_stop_raises",
    "Modbus.C48_false_restart",
    "Modbus.C48_false_hook"
   ],
   "note": "Server.start/stop/_run_server as a transition system (one controlling thread, the thread generations created by _make_thread, every interleaving, every method may raise). False as stated: stop() can raise RuntimeError when the server thread ends too fast; a restart after a raising method can be undone by the old thread replacing the event; a raising on_exception hook leaves a server that can never be started again. Proved without restriction: at most one serving thread, nothing called after stop returned or raised, stop bounded, stop on a stopped server does nothing. Proved for uneventful histories (no method raised, stop did not raise): start/stop/restart as expected."
  },
  {
   "property": "C54",
   "status": "proved",
   "theorems": [
    "Modbus.C54_calls",
    "Modbus.C54_exit_once",
    "Modbus.C54_until_stop",
    "Modbus.C54_stop_waits",
    "Modbus.C54_stop_bounded",
    "Modbus.C54_stop_idle",
    "Modbus.C54_false_start_during_stop"
   ],
   "note": "WorkerThread as a transition system with any number of calling threads; extra finding: a second start() during a stop() sets the event again."
  },
  {
   "property": "C57",
   "status": "partial",
   "theorems": [
    "Modbus.C57_false_reads",
    "Modbus.C57_false",
    "Modbus.C57_reads_partial",
    "Modbus.C57_write_register_partial",
    "Modbus.C57_write_coil_partial",
    "Modbus.C57_open_close_partial"
   ],
   "note": "False as stated (Python 3): map(None, ...) cannot be iterated and read_coils uses an attribute that does not exist, so no reading method ever returns values. Proved: the writing methods act on slave 1 as the specification prescribes, open/close/is_open. A positive time-out is assumed: with the default None nothing works, see C72_py_client."
  },
  {
   "property": "C59",
   "status": "partial",
   "theorems": [
    "Modbus.C59_never_waits_partial",
    "Modbus.C59_bounded_partial",
    "Modbus.C59_stop_returns_partial",
    "Modbus.C59_closed",
    "Modbus.C59_port_open",
    "Modbus.C59_false_not_sticky",
    "Modbus.C59_false_reopen"
   ],
   "note": "Transition system of RtuServer.stop and the server thread. With sticky cancel_read (POSIX pyserial) and no failed reopening of the port, stop() returns after at most 14 actions of the thread. False where cancel_read only ends a pending read, and when reopening a failed port raised (serial.timeout stays None and stop() finds the port closed)."
  },
  {
   "property": "C60",
   "status": "proved",
   "theorems": [
    "Modbus.C60_linearizable"
   ],
   "note": "TCP masters with established connections (nothing waiting on them), quiet hooks, slaves with disjoint well-formed memories, legal arguments (mask writes only on unsigned slaves, see C10); responses arrive after their request has been sent. Concrete case: exProg, exStack."
  },
  {
   "property": "C61",
   "status": "proved",
   "theorems": [
    "Modbus.C61_linearizable",
    "Modbus.C61_realtime",
    "Modbus.C61_one_slave",
    "Modbus.C61_broadcast_alone",
    "Modbus.C61_databank",
    "Modbus.C61_each",
    "Modbus.C61_stopped",
    "Modbus.C61_calls",
    "Modbus.C61_constructors",
    "Modbus.C61_constructor_raises",
    "Modbus.C61_false_broadcast",
    "Modbus.C61_false_stop_raises"
   ],
   "note": "requests and slave calls over several locks as one linearizable history (Lemmas/LocksMany); start/stop as a transition system composed of the servers' own; the two _false_ theorems show what the property excludes: broadcasts are not atomic, an exception in one server's stop() leaves later servers running"
  },
  {
   "property": "C62",
   "status": "proved",
   "theorems": [
    "Modbus.C62_write",
    "Modbus.C62_read",
    "Modbus.C62_two_formats",
    "Modbus.C62_round_trip",
    "Modbus.C62_wrong_size"
   ],
   "note": "Formats without native alignment (a byte-order prefix is given); float codes are covered as the 4- or 8-byte patterns they transport. The round trips take formats whose packed size is an even number of bytes, 2 to 246."
  },
  {
   "property": "C63",
   "status": "partial",
   "theorems": [
    "Modbus.C63_init",
    "Modbus.C63_exit",
    "Modbus.C63_life",
    "Modbus.C63_restart_partial",
    "Modbus.C63_false_bind",
    "Modbus.C63_false_hook"
   ],
   "note": "C63_exit and C63_life hold for every state, every behaviour of the clients, failing accepts and every hook result, as long as no round raises. False in general: when bind fails (C63_false_bind) or an on_error hook raises (C63_false_hook) the server thread ends without _do_exit and sockets stay open."
  },
  {
   "property": "C64",
   "status": "proved",
   "theorems": [
    "Modbus.C64_init",
    "Modbus.C64_init_opens",
    "Modbus.C64_exit",
    "Modbus.C64_exit_returns",
    "Modbus.C64_server",
    "Modbus.C64_survives",
    "Modbus.C64_retries",
    "Modbus.C64_comes_back"
   ],
   "note": "C64_survives takes a line on which no request begins to arrive while another one is being handled (as C31_server_bursts); a request cut by a failure is handled as it is and fails the CRC check."
  },
  {
   "property": "C65",
   "status": "proved",
   "theorems": [
    "Modbus.C65_plain",
    "Modbus.C65_echo",
    "Modbus.C65_same_response",
    "Modbus.C65_false_unhandled"
   ],
   "note": "The echo arrives in the piece that the read of its length returns. C65_false_unhandled: without handle_local_echo on an echoing line a write call reports success without any slave."
  },
  {
   "property": "C66",
   "status": "partial",
   "theorems": [
    "Modbus.C66_add_slave",
    "Modbus.C66_remove_slave",
    "Modbus.C66_remove_all_slaves",
    "Modbus.C66_add_block",
    "Modbus.C66_remove_block",
    "Modbus.C66_remove_all_blocks",
    "Modbus.C66_install_hook",
    "Modbus.C66_uninstall_hook",
    "Modbus.C66_set_values_partial",
    "Modbus.C66_false_long"
   ],
   "note": "Every remaining method of the client, exact result and state, for queries of at most 1024 characters. False for longer ones: the interface executes the first 1024 characters, so a long set_values reports success but drops values and may cut the last number (C66_false_long, on a reachable simulator). uninstall_hook ignores the function name and removes every function of the hook. Python 2 text semantics."
  },
  {
   "property": "C67",
   "status": "proved",
   "theorems": [
    "Modbus.C67_adding",
    "Modbus.C67_two_steps",
    "Modbus.C67_sequential",
    "Modbus.C67_request",
    "Modbus.C67_new_slave",
    "Modbus.C67_broadcast_alone",
    "Modbus.C67_false_removing",
    "Modbus.C67_false_broadcast",
    "Modbus.C67_false_broadcast_end",
    "Modbus.C67_false_broadcast_removed"
   ],
   "note": "Whole requests are not atomic with respect to remove_slave (C67_false_removing) and broadcasts are not atomic (C67_false_broadcast): both are false of the code, not unproved."
  },
  {
   "property": "C68",
   "status": "proved",
   "theorems": [
    "Modbus.C68_tcp_unchanged",
    "Modbus.C68_tcp_short",
    "Modbus.C68_tcp_length",
    "Modbus.C68_rtu",
    "Modbus.C68_fresh"
   ],
   "note": "The unframed answer 81 04 to a wrong TCP length field is what the code does (a finding, see C22)."
  },
  {
   "property": "C69",
   "status": "proved",
   "theorems": [
    "Modbus.C69_missing_table_tcp",
    "Modbus.C69_missing_table_rtu",
    "Modbus.C69_add_block",
    "Modbus.C69_dangling"
   ],
   "note": "Quiet hooks for the requests."
  },
  {
   "property": "C70",
   "status": "proved",
   "theorems": [
    "Modbus.C70_bus",
    "Modbus.C70_one_speaker",
    "Modbus.C70_clash"
   ],
   "note": "Hooks quiet, use_sw_timeout off, servers given the time to finish before the next message (the line carries one exchange at a time); mask writes on signed slaves excepted (see C10). C70_clash: the assumption that no two servers share a slave number is needed."
  },
  {
   "property": "C71",
   "status": "proved",
   "theorems": [
    "Modbus.C71_request",
    "Modbus.C71_server",
    "Modbus.C71_set_values",
    "Modbus.C71_invariant",
    "Modbus.C71_veto",
    "Modbus.C71_false_atomic",
    "Modbus.C71_key_error",
    "Modbus.C71_hidden"
   ],
   "note": "Hook functions as in C46 (functions of their argument that do not themselves write blocks). C71_false_atomic, C71_key_error, C71_hidden are the limits named in the statement."
  },
  {
   "property": "C72",
   "status": "proved",
   "theorems": [
    "Modbus.C72_in_force",
    "Modbus.C72_set_timeout",
    "Modbus.C72_open",
    "Modbus.C72_py_client"
   ],
   "note": "Python 3 (None > 0 raises). Sockets with their time-outs are modelled after the documentation of the socket module."
  },
  {
   "property": "C73",
   "status": "proved",
   "theorems": [
    "Modbus.C73_bounded",
    "Modbus.C73_bounded_rtu_over_tcp",
    "Modbus.C73_recv_ends",
    "Modbus.C73_prompt",
    "Modbus.C73_slow",
    "Modbus.C73_silent"
   ],
   "note": "Only waiting takes time: computation, hooks and send into the buffer of the operating system take none."
  },
  {
   "property": "C74",
   "status": "proved",
   "theorems": [
    "Modbus.C74_round",
    "Modbus.C74_served",
    "Modbus.C74_prompt",
    "Modbus.C74_hold"
   ],
   "note": "Only waiting takes time; hooks (C74_served, C74_prompt, C74_hold) do nothing, C74_round holds for all hooks. The times of a round are those of the one-second waits in select and recv."
  },
  {
   "property": "C75",
   "status": "proved",
   "theorems": [
    "Modbus.C75_refines",
    "Modbus.C75_frames"
   ],
   "note": "Forward simulation of the clocked server (ClockedServer.lean) by the untimed server (TcpServer.lean), with the arrivals and silences chosen along the run; C75_frames then follows from C29_history."
  },
  {
   "property": "C76",
   "status": "proved",
   "theorems": [
    "Modbus.C76_call",
    "Modbus.C76_settings",
    "Modbus.C76_prompt",
    "Modbus.C76_short",
    "Modbus.C76_silent",
    "Modbus.C76_unbounded",
    "Modbus.C76_none",
    "Modbus.C76_echo"
   ],
   "note": "RtuMaster with a clock (Model/ClockedRtu.lean)."
  },
  {
   "property": "C77",
   "status": "proved",
   "theorems": [
    "Modbus.C77_run",
    "Modbus.C77_frames"
   ],
   "note": "RtuServer with a clock (Model/ClockedRtu.lean), hooks that do nothing; the merging of frames 3.5 characters apart is shown by a concrete run."
  },
  {
   "property": "C78",
   "status": "proved",
   "theorems": [
    "Modbus.C78_call",
    "Modbus.C78_history",
    "Modbus.C78_impatient"
   ],
   "note": "Composition of the clocked master and server over a line (Props/RtuExchange.lean); no local echo, use_sw_timeout off."
  },
  {
   "property": "C79",
   "status": "proved",
   "theorems": [
    "Modbus.C79_server",
    "Modbus.C79_master"
   ],
   "note": "Forward simulation of the clocked master and server (Model/ClockedRtu.lean) by the untimed ones (Model/Rtu.lean), arbitrary hooks; the pieces are built along the run. The device works (no failing operation on an open port); set_timeout(None) is C76_none."
  },
  {
   "property": "C80",
   "status": "proved",
   "theorems": [
    "Modbus.C80_tcp",
    "Modbus.C80_rtu_over_tcp"
   ],
   "note": "Forward simulation of the clocked masters (Model/Clocked.lean) by the untimed ones (Model/TcpMaster.lean), arbitrary hooks; for every possible future of the untimed run a present is built backwards. Time-outs are positive numbers (0, None and negative ones are C72)."
  },
  {
   "property": "C81",
   "status": "proved",
   "theorems": [
    "Modbus.C81_read_registers",
    "Modbus.C81_read_bits",
    "Modbus.C81_write_registers",
    "Modbus.C81_write_coils",
    "Modbus.C81_write_register",
    "Modbus.C81_write_coil",
    "Modbus.C81_mask_write",
    "Modbus.C81_read_write",
    "Modbus.C81_nowhere",
    "Modbus.C81_read_back_registers",
    "Modbus.C81_read_back_coils",
    "Modbus.C81_read_back_register",
    "Modbus.C81_two_values",
    "Modbus.C81_history"
   ],
   "note": "Hooks that do not interfere, except in C81_history (any hooks). C81_two_values: after 7 is written to register 5 of the slave of C02_false, register 5 alone is 7 but 0 within the range 0..9."
  },
  {
   "property": "C82",
   "status": "partial",
   "theorems": [
    "Modbus.C82_before_partial",
    "Modbus.C82_last_partial",
    "Modbus.C82_whole_partial",
    "Modbus.C82_response",
    "Modbus.C82_false"
   ],
   "note": "False as stated: the result of send() is ignored (modbus_tcp.py:205, 349), so the rest of a message that was taken only in part is lost and the beginning of the next request is taken for it (C82_false: a wrong register value is written and acknowledged). Proved: everything sent before the first cut message is handled as sent; if nothing follows the cut message it has no effect; responses that were cut are never returned."
  },
  {
   "property": "C83",
   "status": "partial",
   "theorems": [
    "Modbus.C83_tcp",
    "Modbus.C83_rtu_partial",
    "Modbus.C83_rtu_over_tcp_partial",
    "Modbus.C83_false_rtu",
    "Modbus.C83_false_rtu_over_tcp"
   ],
   "note": "Proved for TCP (any link, any history of less than 65535 operations, other masters included). False for RTU and RTU over TCP: responses carry no ids, so a response that arrives after the next request was sent is returned as its result; proved for these: only bytes that arrived after the input was flushed for the request can be returned."
  },
  {
   "property": "C84",
   "status": "proved",
   "theorems": [
    "Modbus.C84_call",
    "Modbus.C84_history",
    "Modbus.C84_connect"
   ],
   "note": "Composition of the clocked master and server over a network given by routes (Props/TcpExchange.lean): the server's loop runs until it has sent the response. Segments of a message take at least one tick; the late response of a call arrives before the next call (a response that arrives during a later call is C83)."
  },
  {
   "property": "C85",
   "status": "proved",
   "theorems": [
    "Modbus.C85_refines",
    "Modbus.C85_determined",
    "Modbus.C85_bits",
    "Modbus.C85_registers",
    "Modbus.C85_write_registers",
    "Modbus.C85_write_coils",
    "Modbus.C85_write_register",
    "Modbus.C85_write_coil",
    "Modbus.C85_mask",
    "Modbus.C85_read_write",
    "Modbus.C85_only_integers",
    "Modbus.C85_integers",
    "Modbus.C85_set_get",
    "Modbus.C85_set_one",
    "Modbus.C85_set_values",
    "Modbus.C85_get_values"
   ],
   "note": "The handlers are written once over an environment of cells (Model/Handlers.lean) and proved to be those of Model/Slave.lean for integers (generic_handle); an object is an integer or something that has a truth value, cannot be packed and has no operator & (objects with __index__ or their own __and__ are not covered). Python 3 (Python 2 packs floats with a warning). C85_mask covers integers from -32768 to 65535."
  },
  {
   "property": "C86",
   "status": "proved",
   "theorems": [
    "Modbus.C86_still",
    "Modbus.C86_before",
    "Modbus.C86_instead",
    "Modbus.C86_refused",
    "Modbus.C86_watch",
    "Modbus.C86_announced",
    "Modbus.C86_write_register",
    "Modbus.C86_write_registers",
    "Modbus.C86_write_coil",
    "Modbus.C86_write_coils",
    "Modbus.C86_mask_write",
    "Modbus.C86_read_write",
    "Modbus.C86_meddling",
    "Modbus.C86_fresh",
    "Modbus.C86_called"
   ],
   "note": "The handlers of Model/Handlers.lean over an environment whose hooks change the heap and a state of the program (Model/ActingHooks.lean); C86_still: functions that do not act give the handle_request of the other properties. C86_meddling: a setitem function that changes a register of the request already stored. Functions that change _HOOKS itself are in C44 only."
  },
  {
   "property": "C87",
   "status": "proved",
   "theorems": [
    "Modbus.C87_same",
    "Modbus.C87_any_text",
    "Modbus.C87_reading",
    "Modbus.C87_calcsize",
    "Modbus.C87_not_sent",
    "Modbus.C87_write",
    "Modbus.C87_written",
    "Modbus.C87_two_texts",
    "Modbus.C87_kept",
    "Modbus.C87_space",
    "Modbus.C87_count",
    "Modbus.C87_prefixes",
    "Modbus.C87_native",
    "Modbus.C87_coils",
    "Modbus.C87_sizes",
    "Modbus.C87_string",
    "Modbus.C87_flag"
   ],
   "note": "The struct module is modelled for format texts (Model/Format); floats are an arbitrary type with a packing of fixed length."
  },
  {
   "property": "C88",
   "status": "proved",
   "theorems": [
    "Modbus.C88_once",
    "Modbus.C88_repeat",
    "Modbus.C88_at_most_once",
    "Modbus.C88_retry",
    "Modbus.C88_program",
    "Modbus.C88_function23"
   ],
   "note": "C88_once: any hooks, transport, framing, arguments. C88_repeat: executing a request again changes nothing, and answers the same except function 23. C88_at_most_once: one call on a link with faults (lost request, lost response, failing send, foreign bytes). C88_retry/C88_program: retry loops over a link with any losses equal the specification (hence the perfect link, C34_history). C88_function23: the exception is real."
  },
  {
   "property": "C89",
   "status": "proved",
   "theorems": [
    "Modbus.C89_answers",
    "Modbus.C89_console",
    "Modbus.C89_interfaces",
    "Modbus.C89_only_quit",
    "Modbus.C89_closed",
    "Modbus.C89_close_returns",
    "Modbus.C89_silent_client",
    "Modbus.C89_py3_no_answer",
    "Modbus.C89_py3_ends",
    "Modbus.C89_end_of_input",
    "Modbus.C89_false_rpc_py3",
    "Modbus.C89_false_silent",
    "Modbus.C89_false_start"
   ],
   "note": "Transition system of the main, console and RPC threads with the two queues; invariants over all executions. The three _false_ theorems are concrete executions that show the exceptions named in the property."
  },
  {
   "property": "C90",
   "status": "proved",
   "theorems": [
    "Modbus.C90_off",
    "Modbus.C90_master",
    "Modbus.C90_master_raising",
    "Modbus.C90_server",
    "Modbus.C90_lines"
   ],
   "note": "Model/Verbose: execute and Server._handle with the log calls and a handler that may raise, depending on the history; compared with execute and serverHandle. The other log lines of the library are not modelled."
  },
  {
   "property": "C91",
   "status": "proved",
   "theorems": [
    "Modbus.C91_observers",
    "Modbus.C91_answers",
    "Modbus.C91_calls",
    "Modbus.C91_history",
    "Modbus.C91_recursion",
    "Modbus.C91_after_send",
    "Modbus.C91_false_rtu"
   ],
   "note": "Model/MasterHooks: execute with hook functions that are given execute and may change the master and the program; nesting is bounded by a depth (RecursionError), all theorems hold for every depth of at least 2. C91_calls, C91_history: TCP and RTU, against the server link of C34. C91_after_send: TCP, a link on which the earlier response has or has not arrived before each message; C91_false_rtu is the witness that over RTU answers can be swapped there. Functions of after_send: fixed lists of calls; the others: adaptive programs. The messages the functions are given are the subject of C45 and C46."
  },
  {
   "property": "C92",
   "status": "proved",
   "theorems": [
    "Modbus.C92_page",
    "Modbus.C92_poll",
    "Modbus.C92_binary",
    "Modbus.C92_read",
    "Modbus.C92_json",
    "Modbus.C92_all_registers",
    "Modbus.C92_read_writes",
    "Modbus.C92_masters",
    "Modbus.C92_added",
    "Modbus.C92_requests",
    "Modbus.C92_kept",
    "Modbus.C92_gone",
    "Modbus.C92_gone_request",
    "Modbus.C92_restart",
    "Modbus.C92_false_stale"
   ],
   "note": "Model/WebHmi: database tables with AUTOINCREMENT, masters objects with their copy of the requests, the routes, the loops of the templates. Numbers of urls and forms are integers. storedAfter tells what is stored without the program. Negative results: the reading page writes 0 for function 6; an RTU master is stored but never available (C92_added, C92_masters); a request deleted through the url of another master stays on its page (C92_false_stale)."
  },
  {
   "property": "C93",
   "status": "proved",
   "theorems": [
    "Modbus.C93_cv",
    "Modbus.C93_set_pi",
    "Modbus.C93_others",
    "Modbus.C93_rule",
    "Modbus.C93_false_rule",
    "Modbus.C93_monitor_when",
    "Modbus.C93_monitor_writes"
   ],
   "note": "Model/Examples: the commands of examples/mysimu.py on the model of the simulator (C51, C52), and the collector of examples/modbus_system_monitor.py with the RPC client (C66, Python 2 texts). The bytes of the float are parameters."
  },
  {
   "property": "C94",
   "status": "proved",
   "theorems": [
    "Modbus.C94_add_slave",
    "Modbus.C94_add_block",
    "Modbus.C94_set_values",
    "Modbus.C94_get_values",
    "Modbus.C94_other",
    "Modbus.C94_end",
    "Modbus.C94_as_simulator",
    "Modbus.C94_false_end_of_input",
    "Modbus.C94_false_contained"
   ],
   "note": "C94_false_* state the two warnings of the property: a mistyped number stops the server, and the end of the input never does"
  },
  {
   "property": "C95",
   "status": "proved",
   "theorems": [
    "Modbus.C95_still",
    "Modbus.C95_around",
    "Modbus.C95_watch",
    "Modbus.C95_log",
    "Modbus.C95_broadcast",
    "Modbus.C95_false_broadcast"
   ],
   "note": "Model/ActingServer.lean; C95_still: functions that do not act give the server of the other properties. C95_false_broadcast is the warning of the last sentence. hn (the keys of the databank are distinct) holds for every Python dictionary. Functions that change _HOOKS itself are in C44 only."
  },
  {
   "property": "C96",
   "status": "proved",
   "theorems": [
    "Modbus.C96_calm",
    "Modbus.C96_memory",
    "Modbus.C96_answered",
    "Modbus.C96_exception_lines",
    "Modbus.C96_failing",
    "Modbus.C96_error_line",
    "Modbus.C96_missing_line",
    "Modbus.C96_broadcast",
    "Modbus.C96_broadcast_line",
    "Modbus.C96_server_lines",
    "Modbus.C96_broadcast_hook",
    "Modbus.C96_on_error",
    "Modbus.C96_hook_exception",
    "Modbus.C96_false_broadcast"
   ],
   "note": "C96_calm and C96_memory have no assumption about the hook functions; the exact lines and the three ends of a failing log (C96_failing) are for registries without hook functions and for handlers that raise no exception of the library (Logger.Foreign). C96_false_broadcast: the witness of a broadcast that a failing log stops halfway, answered with two bytes that are no frame."
  },
  {
   "property": "C97",
   "status": "proved",
   "theorems": [
    "Modbus.C97_calm",
    "Modbus.C97_isolated",
    "Modbus.C97_survives",
    "Modbus.C97_connect_line",
    "Modbus.C97_disconnect_line",
    "Modbus.C97_request_lines",
    "Modbus.C97_wrong_line",
    "Modbus.C97_end_line",
    "Modbus.C97_false_listener",
    "Modbus.C97_false_stop",
    "Modbus.C97_false_thread",
    "Modbus.C97_false_full"
   ],
   "note": "C97_survives is for registries without hook functions and for accept calls that do not raise (C47). The C97_false theorems show that the two kinds of lines named in the statement are needed. In C97_request_lines the request has been read."
  },
  {
   "property": "C98",
   "status": "proved",
   "theorems": [
    "Modbus.C98_calm",
    "Modbus.C98_survives",
    "Modbus.C98_memory",
    "Modbus.C98_reply_lines",
    "Modbus.C98_error_line",
    "Modbus.C98_fine",
    "Modbus.C98_stop_line",
    "Modbus.C98_end_line",
    "Modbus.C98_false_round",
    "Modbus.C98_false_stop",
    "Modbus.C98_false_full"
   ],
   "note": "The statement names the two kinds of lines whose loss is harmful; the C98_false theorems are about those. C98_survives, C98_memory and C98_reply_lines are for registries without hook functions; C98_memory and C98_reply_lines without verbose dumps."
  },
  {
   "property": "C99",
   "status": "proved",
   "theorems": [
    "Modbus.C99_create",
    "Modbus.C99_accumulate",
    "Modbus.C99_delivery",
    "Modbus.C99_failure",
    "Modbus.C99_takes",
    "Modbus.C99_levels",
    "Modbus.C99_calm",
    "Modbus.C99_tcp_server",
    "Modbus.C99_rtu_server",
    "Modbus.C99_master",
    "Modbus.C99_dump_size",
    "Modbus.C99_false_udp",
    "Modbus.C99_false_localised",
    "Modbus.C99_false_long"
   ],
   "note": "The statement names what is false of the udp handler; the C99_false theorems are about that. A formatter is a function of the message."
  },
  {
   "property": "C100",
   "status": "proved",
   "theorems": [
    "Modbus.C100_transparent",
    "Modbus.C100_raises",
    "Modbus.C100_read_registers",
    "Modbus.C100_read_bits",
    "Modbus.C100_write_registers",
    "Modbus.C100_write_coils",
    "Modbus.C100_write_single",
    "Modbus.C100_mask_write",
    "Modbus.C100_read_write",
    "Modbus.C100_read_back",
    "Modbus.C100_nowhere",
    "Modbus.C100_two_values",
    "Modbus.C100_unreadable"
   ],
   "note": "Ideal link as in C33 and C34 (on a real TCP connection the two bytes of a failing slave are shorter than a header, so the master runs into its time-out or the next bytes). C100_two_values: with overlapping blocks the value depends on the range read. C100_unreadable: a master can make a register of a signed slave unreadable by a mask write."
  },
  {
   "property": "C101",
   "status": "proved",
   "theorems": [
    "Modbus.C101_history",
    "Modbus.C101_read",
    "Modbus.C101_read_inputs",
    "Modbus.C101_read_write",
    "Modbus.C101_mask_write",
    "Modbus.C101_mask_then_read",
    "Modbus.C101_write_register",
    "Modbus.C101_write_registers",
    "Modbus.C101_write_then_read",
    "Modbus.C101_write_many_then_read",
    "Modbus.C101_instance"
   ],
   "note": "Loose is what C101_history shows of every reachable slave; the theorems about requests take the hooks to be quiet (callbacks that answer None). They hold for unsigned slaves as well. Values that the user sets are taken to fit."
  },
  {
   "property": "C102",
   "status": "proved",
   "theorems": [
    "Modbus.C102_as_one",
    "Modbus.C102_new",
    "Modbus.C102_drop",
    "Modbus.C102_drop_any",
    "Modbus.C102_close",
    "Modbus.C102_useless",
    "Modbus.C102_reopened",
    "Modbus.C102_server",
    "Modbus.C102_example"
   ],
   "note": "C102_useless is a finding: a program that makes a master anew to change its settings and drops the old one loses every other master that uses the port; close() and open() do not help. Calls of different masters never interleave (the lock of execute is shared, C41), so operations are taken one at a time; C102_close and C102_reopened with quiet hooks, the other theorems with any."
  },
  {
   "property": "C103",
   "status": "proved",
   "theorems": [
    "Modbus.C103_rtu",
    "Modbus.C103_rtu_works",
    "Modbus.C103_rtu_bricked",
    "Modbus.C103_false_open",
    "Modbus.C103_false_close",
    "Modbus.C103_rtu_closers",
    "Modbus.C103_tcp_works",
    "Modbus.C103_tcp_false_close",
    "Modbus.C103_tcp_closers",
    "Modbus.C103_tcp_closer_raises"
   ],
   "note": "The _false_ theorems are the races of (2) and (4), on concrete schedules; C103_rtu_bricked shows the first one is for ever. Transition systems of their own (Model/CloseRace.lean): contents of requests and answers and hooks are left out, every attribute access and device operation is one action."
  },
  {
   "property": "C104",
   "status": "proved",
   "theorems": [
    "Modbus.C104_rtu_lock",
    "Modbus.C104_rtu",
    "Modbus.C104_rtu_works",
    "Modbus.C104_rtu_false_close",
    "Modbus.C104_rtu_example",
    "Modbus.C104_tcp",
    "Modbus.C104_tcp_works",
    "Modbus.C104_tcp_example"
   ],
   "note": "On the transition systems of C103, with one more kind of event. Acquiring the lock and entering the try statement (utils.py:37-38) are taken as one action, and so is the release in finally. C104_rtu_false_close is the interrupted close."
  },
  {
   "property": "C105",
   "status": "proved",
   "theorems": [
    "Modbus.C105_calm",
    "Modbus.C105_line",
    "Modbus.C105_raising",
    "Modbus.C105_stuck",
    "Modbus.C105_exit",
    "Modbus.C105_exit_no_socket",
    "Modbus.C105_exit_plain",
    "Modbus.C105_false_exit",
    "Modbus.C105_example",
    "Modbus.C105_exit_example"
   ],
   "note": "The verbose lines of execute are those of C90. C105_stuck and C105_false_exit are the findings: handlers that raise."
  },
  {
   "property": "C106",
   "status": "proved",
   "theorems": [
    "Modbus.C106_call",
    "Modbus.C106_history",
    "Modbus.C106_unknown",
    "Modbus.C106_example"
   ],
   "note": "End to end over the socket model of C30 and C32; the gateway is not part of modbus_tk and is taken to be transparent and quick. Mask write on signed slaves is excluded (C10), as in C34."
  },
  {
   "property": "C107",
   "status": "proved",
   "theorems": [
    "Modbus.C107_worker",
    "Modbus.C107_exit_once",
    "Modbus.C107_lines",
    "Modbus.C107_master",
    "Modbus.C107_server",
    "Modbus.C107_example"
   ],
   "note": "With C90, C96, C97, C98 and C105 every log line of the library (not of simulator.py) is modelled."
  },
  {
   "property": "C108",
   "status": "proved",
   "theorems": [
    "Modbus.C108_lines",
    "Modbus.C108_three",
    "Modbus.C108_raises",
    "Modbus.C108_false_connected",
    "Modbus.C108_false_port",
    "Modbus.C108_example"
   ],
   "note": "The lines of the hooks of tcpmaster_example.py and of the verbose mode are left out (C45, C90)."
  },
  {
   "property": "C109",
   "status": "proved",
   "theorems": [
    "Modbus.C109_complete",
    "Modbus.C109_all_or_nothing",
    "Modbus.C109_remove_all",
    "Modbus.C109_repair",
    "Modbus.C109_false_add",
    "Modbus.C109_false_alias",
    "Modbus.C109_false_remove",
    "Modbus.C109_example"
   ],
   "note": "An action is one dictionary or list operation, which CPython does not interrupt. C109_complete ties the actions to the calls of Model/Slave."
  },
  {
   "property": "C110",
   "status": "proved",
   "theorems": [
    "Modbus.C110_one_server",
    "Modbus.C110_thread_calls",
    "Modbus.C110_stopped",
    "Modbus.C110_stop_ends",
    "Modbus.C110_start_again",
    "Modbus.C110_start_late",
    "Modbus.C110_false_restart",
    "Modbus.C110_false_exit"
   ],
   "note": "Extends the transition system of C48 by interruptions of the controlling thread and by SystemExit in a server thread."
  },
  {
   "property": "C111",
   "status": "proved",
   "theorems": [
    "Modbus.C111_calls",
    "Modbus.C111_stop_waits",
    "Modbus.C111_stop_cut",
    "Modbus.C111_start_again",
    "Modbus.C111_false_restart"
   ],
   "note": "Extends the transition system of C54 by interruptions; a SystemExit in a function of the worker is, as regards the calls, a function that raises (finally)"
  }
 ]
}