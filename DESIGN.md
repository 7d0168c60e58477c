# Formal model of modbus-tk in Lean 4 - design

Source: `/repo` (modbus-tk 1.1.5, read as text, never run).  Everything is modelled with **Python 3** semantics (the code also supports
Python 2; where they differ Python 3 is meant, except for the RPC part of the simulator, which only works in Python 2 and is modelled so; `SimLife` has both).

## Layout

| under `lean/Verif/` | contents |
|---|---|
| `Py.lean` | the fragment of Python used: exceptions as values, computations with state and exceptions (`PyM`), slices, bit operations on unbounded integers, `struct`, dictionaries |
| `Model/*.lean` | the model, function by function, with file:line citations |
| `Spec/*.lean` | small specifications that do not refer to the model: Modbus pdus and tables, the master's calls, bitwise CRC, frames |
| `Lemmas/*.lean` | helper lemmas |
| `Props/*.lean` | the property theorems, with concrete cases that meet their hypotheses |

`Spec/Abs.lean` is the bridge between model states and specification tables; `Spec/Calls.lean` tells how a call of the specification is
written with `Master.execute`.

## Trusted base

* Lean 4.33.0's kernel.  The axioms the theorems depend on (`#print axioms` of every theorem named in MANIFEST.json): `propext`,
  `Classical.choice`, `Quot.sound`, or fewer.  No axioms of our own, no compiled-code tactics; concrete cases are evaluated by the kernel
  (`decide`, `decide +kernel`, `rfl`).
* The faithfulness of the model to `/repo` (by reading; cited definition by definition) and of `Py.lean` to CPython.
* The models of the environment: `Model/Socket.lean` (TCP sockets as event streams), `Model/Serial.lean` (pyserial), `Model/Locks.lean`
  (RLocks and atomic steps), the event and thread objects in `Model/Worker.lean`, `Model/ServerThread.lean`, `Model/RtuStop.lean`.

### What is modelled

| file of `/repo/modbus_tk` | modelled | in |
|---|---|---|
| `modbus.py` | `Master` (`open`, `close`, `execute` for all function codes), `ModbusBlock`, `Slave`, `Databank`, `Server` (`_handle`, `start`, `stop`, `_run_server`, `_make_thread`) | `Model/Master`, `MasterHooks` (`execute` with hooks that act), `Verbose` (with `set_verbose`), `Format` (`execute` with format texts), `Slave`, `Handlers` (the handlers of `Slave` over any kind of cells and hooks), `ActingHooks`, `Databank`, `CutCalls`, `ServerThread`, `ServerInterrupts`, `Threads` |
| `modbus_tcp.py` | `TcpMbap`, `TcpQuery`, `TcpMaster` (`_do_open`, `_do_close`, `_send`, `_recv`), `TcpServer` (`_do_init`, `_do_run`, `_do_exit`), `set_timeout`, `get_timeout`; the same with a clock | `Model/Query`, `TcpMaster`, `TcpServer`, `Clocked`, `ClockedServer` |
| `modbus_rtu.py` | `RtuQuery`, `RtuMaster` (`_do_open`, `_do_close`, `_send`, `_recv`), `RtuServer` (`_do_init`, `_do_run`, `_do_exit`, `close`, `stop`); constructor, `set_timeout`, `_send`, `_recv` and `_do_run` with a clock | `Model/Query`, `Rtu`, `RtuStop`, `ClockedRtu` |
| `modbus_rtu_over_tcp.py` | `RtuOverTcpMaster._recv`; with a gateway | `Model/TcpMaster`, `Gateway` |
| `hooks.py` | all | `Model/Hooks`, `LiveHooks` (hook functions that change the registry) |
| `utils.py` | `threadsafe_function`, `flush_socket`, `get_log_buffer`, `create_logger` and the handlers of the log, `swap_bytes`, `calculate_crc`, `calculate_rtu_inter_char`, `WorkerThread` | `Model/Utils`, `LogHandlers`, `Locks`, `TcpMaster`, `Worker`, `WorkerInterrupts` |
| `simulator.py` | the commands, `_handle`, `CompositeServer`, the queues, `RpcHandler`; `start` and `close`, the console and the RPC thread | `Model/Simulator`, `SimQueues`, `SimLife`, `Composite` |
| `simulator_rpc_client.py` | all | `Model/Simulator` |
| `pymodbusclient.py` | all | `Model/PyClient` |
| `../hmi/master_webhmi.py`, `../hmi/templates` | the database, `Master`, `App`, all routes; the data the templates and their scripts show (not the HTML, not bottle) | `Model/WebHmi` |
| `../examples/mysimu.py`, `../examples/modbus_system_monitor.py` | `MySimulator`, `SystemDataCollector` | `Model/Examples` |
| `../examples/tcpslave_example.py`, `../examples/rtuslave_example.py` | `main` (the loop of the console) | `Model/SlaveExample` |
| `../examples/tcpmaster_example.py`, `../examples/rtumaster_example.py` | `main` | `Model/MasterExample` |
| `defines.py`, `exceptions.py` | constants, exception classes | `Model/Slave`, `Py` |

### What is not modelled, and simplifications

* Cell values, arguments and results are mathematical integers, except in `Model/Handlers`, where a cell holds an integer or any other object (C85): of that
  only the truth value matters; objects with `__index__` or an operator `&` of their own are not modelled.  `struct` formats are taken in parsed form (byte order and list of (size, signedness)), except in
  `Model/Format` (C87), where they are texts with counts, white space, prefixes, native alignment and the codes `x c b B ? h H i I l L q Q e f d s`, over an arbitrary type of floats;
  the codes `n N p P F D`, non-ASCII texts and the limit on sizes are not modelled.
* Hook functions are functions of the message they get; they answer None, bytes or raise.  They do not modify library objects, except in
  `ActingHooks` (they may change the memory of slaves while `Slave.handle_request` runs, C86), `ActingServer` (they may also change the databank while a server handles a request, C95), `LiveHooks` (registry) and in the lock models (hooks that call the library back).  The first argument (the object) of a hook is only
  passed as "an object".
* Logging other than the verbose mode (`Model/Verbose`, C90) and the lines of `Slave`, `Databank` and `Server._handle` (`Model/Logged`, C96) and of `TcpServer`, `RtuServer` and `Server._run_server` (`Model/LoggedServer`, C97; `Model/LoggedRtu`, C98), of `TcpMaster._send` and `TcpServer._do_exit` (`Model/LoggedTcp`, C105) and of `WorkerThread` and the constructors of `RtuMaster` and `RtuServer` (`Model/LoggedWorker`, C107), that is other than the lines of modbus.py, modbus_tcp.py, modbus_rtu.py and utils.py, exception texts, docstrings and the other files of `examples/` are not modelled; nor are Windows specifics and `setup.py`.  Destructors are modelled as operations that may happen at any time between calls (`Model/SharedLine`, C102), not when the interpreter collects an object.
* Time is modelled for the TCP masters (`Model/Clocked`: the events of the peer carry times) and the TCP server (`Model/ClockedServer`), where only waiting
  takes time, and for the RTU master and server (`Model/ClockedRtu`), where waiting, transmitting and sleeping take time.  In all other models time-outs are events.
  `calculate_rtu_inter_char` is modelled over exact rationals.  The serial port of `ClockedRtu` follows the documentation of pyserial: `timeout` counts from the call of `read`,
  `inter_byte_timeout` from the last byte; drivers may be less exact.
* `sock.send` takes the whole message, except in C82 (the sender ignores what it took, so only the peer sees a difference).  `select` reports sockets exactly when they are readable (spurious readiness is discussed below).
* Exceptions that are not subclasses of `Exception` (KeyboardInterrupt, SystemExit) do not occur, except in `Model/Interrupts` (C104, masters), `Model/CutCalls` (C109, slaves; an action there is one dictionary or list operation) `Model/ServerInterrupts` (C110, `Server.start`, `stop` and the server thread) and `Model/WorkerInterrupts` (C111, `WorkerThread.start` and `stop`).
* `Model/CloseRace` and `Model/Interrupts` (C103, C104) are transition systems written from the code of `open`, `close`, `_do_open`, `_do_close`, `_send`, `_recv`: contents of messages and hooks are left out, `flush_socket`, and setting the options of a socket, are single actions.
* A computation that would not end is reported as the pseudo exception `nonTermination` by the functions with fuel; for each of them a
  theorem shows that the fuel is enough or that running out of it means a real infinite loop.

## Properties

Status *partial* means that the property as stated in `properties.jsonl` is false of the code: a theorem named `..._false...` proves that
from a concrete reachable case, and theorems named `..._partial` say what does hold.  *proved* claims may have `_false` theorems, too:
they show that a hypothesis cannot be dropped.

| id | property | status | how | theorems (files) |
|---|---|---|---|---|
| C01 | set_values/get_values behave like an array | proved | pointwise effect of `set_values`/`get_values` on the cells of a block list | `C01_get_after_set`, `C01_set_frame`, `C01_set_out_of_block`, `C01_get_out_of_block`, `C01_get_values` (Props/Blocks.lean) |
| C02 | No two blocks of one type overlap | partial | witness history; invariant over the histories where it holds | `C02_false`, `C02_careful_partial`, `C02_ascending_partial`, `C02_descending_partial`, `C02_checked_prefix` (Props/Blocks.lean) |
| C03 | add_block never refuses a block without reason | proved | case analysis of `add_block`, exact condition of every error | `C03_invalid_argument`, `C03_duplicated_key`, `C03_invalid_block`, `C03_overlap`, `C03_accepted`, `C03_refused_unchanged` (Props/Blocks.lean) |
| C04 | Block registration is a map from names to blocks | partial | invariant "blocks of a list start at different addresses" | `C04_add_lookup_partial`, `C04_remove_lookup_partial`, `C04_remove_known_partial`, `C04_remove_all`, `C04_add_remove_partial`, `C04_false` (Props/Blocks.lean) |
| C05 | Register reads return exactly the stored values | proved | refinement of `handle_request` to the abstract tables of `Spec/Modbus.lean` (`handler_refines`) | `C05_read_registers`, `C05_decodes` (Props/Slave.lean) |
| C06 | Bit reads return exactly the stored bits | proved | same refinement | `C06_read_bits` (Props/Slave.lean) |
| C07 | Writing several registers stores exactly the sent values | proved | same refinement | `C07_write_registers` (Props/Slave.lean) |
| C08 | Writing several coils stores exactly the sent bits | proved | same refinement | `C08_write_coils` (Props/Slave.lean) |
| C09 | Single writes | proved | same refinement | `C09_write_register`, `C09_write_coil`, `C09_write_coil_refused` (Props/Slave.lean) |
| C10 | Mask write computes (current AND and) OR (or AND NOT and) | partial | bitwise lemmas on integers; witness for signed slaves | `C10_mask_write`, `C10_readable_partial`, `C10_false` (Props/SlaveMask.lean) |
| C11 | Read/write multiple registers (function 23) | partial | same refinement; witness for the order of read and write | `C11_read_write`, `C11_write_first_partial`, `C11_false` (Props/Slave.lean, Props/SlaveMask.lean) |
| C12 | A Modbus exception response means nothing was written | proved | frame analysis of every handler for arbitrary bytes | `C12_exception_no_write` (Props/SlaveSafety.lean) |
| C13 | Exception codes are the right ones | proved | case analysis over arbitrary requests | `C13_unknown_function`, `C13_read_bits`, `C13_read_registers`, `C13_write_coils`, `C13_write_registers`, `C13_single_writes`, `C13_mask_write`, `C13_read_write`, `C09_write_coil_refused` (Props/Slave.lean, Props/SlaveSafety.lean) |
| C14 | A failed request leaves the memory untouched (atomicity) | partial | frame analysis, for any layout and any history; witness for truncated payloads and their exact effect | `C14_atomic_partial`, `C14_history_partial`, `C14_truncated_registers`, `C14_truncated_coils`, `C14_truncated_read_write`, `C14_false` (Props/AtomicHistory.lean, Props/SlaveAtomic.lean) |
| C15 | Registers written over Modbus are always readable over Modbus | partial | invariant over histories | `C15_unsigned`, `C15_readable`, `C15_signed_partial`, `C15_signed_readable_partial`, `C10_false`, `C101_history`, `C101_read`, `C101_mask_then_read` (Props/SignedSlave.lean, Props/SlaveMask.lean, Props/SlaveSafety.lean) |
| C16 | Blocks keep their size and position | proved | shape invariant over arbitrary requests | `C16_request_shape`, `C16_set_values_shape` (Props/SlaveSafety.lean) |
| C17 | Tables are independent | proved | frame analysis per table | `C17_read_only`, `C17_tables_independent`, `C17_inputs_constant` (Props/SlaveSafety.lean) |
| C18 | Slaves are isolated | proved | separation invariant over histories (`WorldInv`) | `C18_isolated`, `C18_shared` (Props/Databank.lean) |
| C19 | The databank is a map of slaves | proved | map laws over histories | `C19_add`, `C19_get_after_add`, `C19_remove`, `C19_history` (Props/DatabankMap.lean) |
| C20 | Broadcast | proved | induction over the slaves | `C20_broadcast`, `C20_write`, `C20_read` (Props/Broadcast.lean) |
| C21 | Requests to unknown slaves get no response | proved | case analysis | `C21_unknown` (Props/DatabankMap.lean) |
| C22 | Responses are framed for the requester | partial | case analysis over arbitrary bytes; witnesses | `C22_tcp_partial`, `C22_rtu_partial`, `C22_tcp_wellformed`, `C22_rtu_wellformed`, `C22_tcp_exact_partial`, `C22_rtu_exact_partial`, `C22_broadcast_partial`, `C22_false_tcp`, `C22_false_rtu` (Props/Framing.lean) |
| C23 | TCP framing round-trip | proved | algebra of `struct` | `C23_roundtrip`, `C23_request_frame`, `C23_refused` (Props/Query.lean) |
| C24 | TCP responses are accepted only if they match the request | proved | iff over all byte strings | `C24_accepts`, `C24_rejects`, `C24_request` (Props/Query.lean) |
| C25 | RTU framing round-trip and rejection | proved | iff over all byte strings | `C25_roundtrip`, `C25_request_frame`, `C25_response`, `C25_request` (Props/Query.lean) |
| C26 | The table-driven CRC is CRC-16/MODBUS | proved | 256-entry table by kernel evaluation, lifted to all bytes by xor-linearity, to all strings by induction | `C26_crc` (Props/Crc.lean) |
| C27 | The CRC detects corruption | proved | linear algebra over GF(2) | `C27_request`, `C27_response` (Props/Crc.lean) |
| C28 | Transaction ids do not repeat within 65536 queries | proved | induction over queries; all interleavings | `C28_ids`, `C28_distinct`, `C28_concurrent`, `C28_concurrent_distinct` (Props/Locks.lean, Props/Query.lean) |
| C29 | The TCP server splits the byte stream into requests | proved | history invariant over rounds of the server loop | `C29_history`, `C29_frames`, `C29_answers` (Props/TcpServer.lean) |
| C30 | The TCP master reads exactly one response | proved | induction over the byte stream | `C30_reads`, `C30_sound`, `C30_early_close`, `C30_execute` (Props/TcpMaster.lean) |
| C31 | Serial reception is independent of chunking | proved | induction over chunks | `C31_master_reads`, `C31_master_silence`, `C31_master_sound`, `C31_server`, `C31_server_history`, `C31_server_bursts` (Props/Rtu.lean) |
| C32 | RTU over TCP: execute terminates and reports slave exceptions | partial | witnesses; induction for the rest | `C32_receives_partial`, `C32_ends_partial`, `C32_false_close`, `C32_false_exception` (Props/RtuOverTcp.lean) |
| C33 | Master writes followed by reads return the written values end to end | proved | composition of master, framing, databank and slave | `C33_registers`, `C33_coils`, `C33_single_register`, `C33_single_coil` (Props/EndToEnd.lean) |
| C34 | Master execute reports what the server holds | proved | same composition, programs of calls by induction | `C34_tcp`, `C34_rtu`, `C34_history` (Props/EndToEnd.lean) |
| C35 | Master never invents data | proved | iff between result and response | `C35_tcp`, `C35_rtu`, `C35_count` (Props/MasterRead.lean) |
| C36 | Slave exceptions surface as ModbusError | proved | case analysis | `C36_tcp`, `C36_rtu` (Props/MasterRead.lean) |
| C37 | A response to another function is not accepted | partial | witness; what does hold | `C37_partial`, `C37_ignored_tcp_partial`, `C37_ignored_rtu_partial`, `C37_false` (Props/MasterRead.lean) |
| C38 | Request pdus follow the Modbus specification | proved | case analysis over the 14 functions | `C38_sent_tcp`, `C38_sent_rtu`, `C38_refused`, `C38_unknown_function`, `C38_wrong_kind`, `C38_coil_tuple`, `C38_length` (Props/Master.lean) |
| C39 | Expected response length is right | proved | length of the response of the specification | `C39_length`, `C39_given`, `C39_conforming` (Props/Master.lean) |
| C40 | READ_FILE_RECORD responses are split into records | partial | progress measure; witness of a loop | `C40_tcp`, `C40_rtu`, `C40_terminates_partial`, `C40_default_unsigned`, `C40_false` (Props/MasterRead.lean) |
| C41 | Concurrent execute calls are serialized | proved | lock discipline => atomic executions, over all schedules | `C41_serialized`, `C41_mutual_exclusion`, `C41_no_orphan`, `C41_all_released`, `C41_atomic` (Props/Locks.lean) |
| C42 | Slave operations are linearizable | proved | linearizability with real-time order, over all schedules | `C42_alone`, `C42_linearizable`, `C42_realtime`, `C42_results`, `C42_false_shared_memory` (Props/Locks.lean) |
| C43 | No deadlock between the library locks | partial | witness schedule; ordering of locks | `C43_no_deadlock_partial`, `C43_completes_partial`, `C43_false_deadlock` (Props/Locks.lean) |
| C44 | Hooks run in installation order until one answers | proved | induction over registries | `C44_installed`, `C44_uninstall_errors`, `C44_call`, `callHooks_live`, `install_live`, `uninstall_live`, `C44_false_self_removing`, `C44_false_self_installing` (Props/Hooks.lean) |
| C45 | Observer hooks are transparent | proved | congruence of every function in the registry | `C45_slave`, `C45_set_values`, `C45_server`, `C45_master`, `C45_transports`, `C45_servers` (Props/HookEffects.lean) |
| C46 | Hooks can replace requests and responses | proved | case analysis | `C46_master`, `C46_tcp_master`, `C46_rtu_master`, `C46_rtu_over_tcp_master`, `C46_slave`, `C46_server`, `C46_tcp_server_send`, `C46_tcp_server_recv`, `C46_rtu_server`, `C46_false_read_hooks` (Props/HookEffects.lean) |
| C47 | The TCP server survives faulty clients | partial | history invariant; witness | `C47_partial`, `C47_isolation_partial`, `C47_false_accept`, `C47_false_deaf` (Props/TcpServer.lean) |
| C48 | Server start/stop/restart | partial | invariants of a transition system; witness schedules | `C48_one_server`, `C48_stopped`, `C48_stop_ends`, `C48_thread_calls`, `C48_restart_partial`, `C48_serves`, `C48_stop_idle`, `C48_false_stop_raises`, `C48_false_restart`, `C48_false_hook` (Props/ServerThread.lean) |
| C49 | Stale bytes never answer a new request | proved | induction over arrivals | `C49_no_stale`, `C49_bounded`, `C49_unlimited_diverges` (Props/TcpMaster.lean) |
| C50 | Opening and closing a master | partial | histories of calls over three transports | `C50_open_close_partial`, `C50_execute_opens_partial`, `C50_reopens_partial`, `C50_tcp_no_leak_partial`, `tcp_laws`, `rtuOverTcp_laws`, `rtu_laws`, `C50_false_rtu` (Props/OpenClose.lean) |
| C51 | Simulator: one answer per command, errors are contained | proved | induction over lines | `C51_one_answer_per_line`, `C51_quit`, `C51_ends_only_on_quit`, `C51_add_command`, `C51_wrong_argument` (Props/Simulator.lean) |
| C52 | Simulator commands act like the API | proved | per command | `C52_add_slave`, `C52_has_slave`, `C52_remove_slave`, `C52_remove_all_slaves`, `C52_add_block`, `C52_remove_block`, `C52_remove_all_blocks`, `C52_get_values`, `C52_set_values`, `C52_install_hook`, `C52_uninstall_hook`, `C52_set_verbose`, `C52_unknown_slave`, `simReach_wf` (Props/Simulator.lean) |
| C53 | RPC client reads back what the simulator answers | partial | decimal round trip; exact limit; witnesses | `C53_get_values_partial`, `C53_get_values_error`, `C53_has_slave`, `C53_long`, `C53_empty`, `C53_false_long`, `C53_false_empty` (Props/SimRpc.lean) |
| C54 | WorkerThread always runs its exit function | proved | invariants of a transition system | `C54_calls`, `C54_exit_once`, `C54_until_stop`, `C54_stop_waits`, `C54_stop_bounded`, `C54_stop_idle`, `C54_false_start_during_stop` (Props/Worker.lean) |
| C55 | Logged buffers identify the bytes | proved | injectivity of the text | `C55_text`, `C55_injective`, `C55_false_empty` (Props/Utils.lean) |
| C56 | swap_bytes is an involution on words; the RTU character time never increases with the baud rate | proved | arithmetic | `C56_swap`, `C56_inter_char` (Props/Utils.lean) |
| C57 | PyModbusClientTCP wrappers | partial | composition with C34; witness | `C57_false_reads`, `C57_false`, `C57_reads_partial`, `C57_write_register_partial`, `C57_write_coil_partial`, `C57_open_close_partial` (Props/PyClient.lean) |
| C58 | Simulator interfaces get the answers to their own commands | partial | invariant; witness schedules | `C58_take_turns_partial`, `C58_false_two_interfaces`, `C58_false_timeout` (Props/SimQueues.lean) |
| C59 | RtuServer.stop ends a server waiting for a byte | partial | invariant and variant of a transition system; witness schedules | `C59_never_waits_partial`, `C59_bounded_partial`, `C59_stop_returns_partial`, `C59_closed`, `C59_port_open`, `C59_false_not_sticky`, `C59_false_reopen` (Props/RtuStop.lean) |
| C60 | TCP masters and a TCP server together are linearizable | proved | simulation of masters, sockets, server loop and databank | `C60_linearizable` (Props/FullStack.lean) |
| C61 | Several servers sharing one databank (CompositeServer) behave like one server handling one request at a time, and start and stop together | proved | linearizability over several locks; product of transition systems | `C61_linearizable`, `C61_realtime`, `C61_one_slave`, `C61_broadcast_alone`, `C61_databank`, `C61_each`, `C61_stopped`, `C61_calls`, `C61_constructors`, `C61_constructor_raises`, `C61_false_broadcast`, `C61_false_stop_raises` (Props/Composite.lean) |
| C62 | User-defined data formats transport bytes unchanged | proved | algebra of `struct`, composition with C34 | `C62_write`, `C62_read`, `C62_two_formats`, `C62_round_trip`, `C62_wrong_size` (Props/Formats.lean) |
| C63 | A TCP server closes the sockets it opens | partial | invariant of the life of a server | `C63_init`, `C63_exit`, `C63_life`, `C63_restart_partial`, `C63_false_bind`, `C63_false_hook` (Props/Resources.lean) |
| C64 | An RTU server survives failures of the serial device | proved | induction over the line | `C64_init`, `C64_init_opens`, `C64_exit`, `C64_exit_returns`, `C64_server`, `C64_survives`, `C64_retries`, `C64_comes_back` (Props/RtuRecovery.lean) |
| C65 | A local echo is dropped | proved | case analysis | `C65_plain`, `C65_echo`, `C65_same_response`, `C65_false_unhandled` (Props/RtuRecovery.lean) |
| C66 | The remaining RPC client methods act like the API | partial | per method; witness | `C66_add_slave`, `C66_remove_slave`, `C66_remove_all_slaves`, `C66_add_block`, `C66_remove_block`, `C66_remove_all_blocks`, `C66_install_hook`, `C66_uninstall_hook`, `C66_set_values_partial`, `C66_false_long` (Props/SimRpcAll.lean) |
| C67 | Threads may use one databank while slaves are added and removed | proved | simulation of two-step requests by the many-locks linearizability; merging halves in the history; witnesses | `C67_adding`, `C67_two_steps`, `C67_sequential`, `C67_request`, `C67_new_slave`, `C67_broadcast_alone`, `C67_false_removing`, `C67_false_broadcast`, `C67_false_broadcast_end`, `C67_false_broadcast_removed` (Props/DbThreads.lean) |
| C68 | Bytes that are no request frame reach no slave | proved | case analysis over all byte strings | `C68_tcp_unchanged`, `C68_tcp_short`, `C68_tcp_length`, `C68_rtu`, `C68_fresh` (Props/Malformed.lean) |
| C69 | Memory dictionaries given by the user | proved | per handler; computation on the heap | `C69_missing_table_tcp`, `C69_missing_table_rtu`, `C69_add_block`, `C69_dangling` (Props/CustomMemory.lean) |
| C70 | RTU servers sharing a line answer as one: every call reaches exactly its slave, nobody else speaks | proved | induction over the calls; per call: one speaker, everybody hears | `C70_bus`, `C70_one_speaker`, `C70_clash` (Props/RtuBus.lean) |
| C71 | The setitem hook is asked before every write and can veto it | proved | per handler; history invariant; witnesses | `C71_request`, `C71_server`, `C71_set_values`, `C71_invariant`, `C71_veto`, `C71_false_atomic`, `C71_key_error`, `C71_hidden` (Props/SetItemHook.lean) |
| C72 | The time-out in force is the last one set | proved | history invariant over a model with a clock | `C72_in_force`, `C72_set_timeout`, `C72_open`, `C72_py_client` (Props/Timeouts.lean) |
| C73 | How long a call may take | proved | potential argument on waiting; witnesses | `C73_bounded`, `C73_bounded_rtu_over_tcp`, `C73_recv_ends`, `C73_prompt`, `C73_slow`, `C73_silent` (Props/Timeouts.lean) |
| C74 | A TCP server serves every client; how long a round may take | proved | history invariant with a clock; variant: the position among the watched sockets; witness | `C74_round`, `C74_served`, `C74_prompt`, `C74_hold` (Props/ServerTime.lean) |
| C75 | Timing changes what a TCP server does only through the order of arrivals and through waits that end | proved | forward simulation; arrivals and silences chosen along the run; history invariant | `C75_refines`, `C75_frames` (Props/ServerRefines.lean) |
| C76 | How long a call of an RtuMaster takes | proved | induction over the reception with arrival times; witness | `C76_call`, `C76_settings`, `C76_prompt`, `C76_short`, `C76_silent`, `C76_unbounded`, `C76_none`, `C76_echo` (Props/RtuTime.lean) |
| C77 | An RtuServer finds requests by silence | proved | induction over the reads with arrival times, the frames by induction; witness | `C77_run`, `C77_frames` (Props/RtuServerTime.lean) |
| C78 | An RtuMaster and an RtuServer on a line, in time | proved | composition of C76 and C77, induction over the program; witness | `C78_call`, `C78_history`, `C78_impatient` (Props/RtuExchange.lean) |
| C79 | On a serial line timing matters only through the pieces in which the bytes are read | proved | forward simulation, hooks arbitrary; composition lemmas for the monad, induction over rounds and histories | `C79_server`, `C79_master` (Props/RtuRefines.lean) |
| C80 | Time matters to a TCP master only through the order of arrivals and the waits that run out | proved | forward simulation with a prophecy of the environment, hooks arbitrary; composition lemmas for the monad, induction over the program | `C80_tcp`, `C80_rtu_over_tcp` (Props/MasterRefines.lean) |
| C81 | Requests act on one block, whatever the layout; what is written is read back | proved | case analysis per function code; the position of the block is unchanged by writes; invariant over histories; witness | `C81_read_registers`, `C81_read_bits`, `C81_write_registers`, `C81_write_coils`, `C81_write_register`, `C81_write_coil`, `C81_mask_write`, `C81_read_write`, `C81_nowhere`, `C81_read_back_registers`, `C81_read_back_coils`, `C81_read_back_register`, `C81_two_values`, `C81_history` (Props/AnyLayout.lean) |
| C82 | The peer gets whole messages | partial | The sender does not see how much was taken, so the server model gets, as its input, the concatenation of arbitrary prefixes of the messages; comparability of two splittings of one stream into frames; a concrete run for the negative part. | `C82_before_partial`, `C82_last_partial`, `C82_whole_partial`, `C82_response`, `C82_false` (Props/ShortSend.lean) |
| C83 | A late response is never taken for the response to a later call | partial | The counter of transaction ids advances by at most one per operation (invariant over histories) and C24 (a response is accepted only with the id of its request); for RTU, what is received is a prefix of what arrives after the flush; two concrete runs for the negative part. | `C83_tcp`, `C83_rtu_partial`, `C83_rtu_over_tcp_partial`, `C83_false_rtu`, `C83_false_rtu_over_tcp` (Props/LateResponse.lean) |
| C84 | A TcpMaster and a TcpServer on a network that takes time | proved | composition of the clocked server (C74) and master (C72): what remains on the connections is tracked; induction over the errands | `C84_call`, `C84_history`, `C84_connect` (Props/TcpExchange.lean) |
| C85 | Cells may hold any Python objects | proved | handlers generic in the cells; simulation of the object slave by integer slaves under all numberings, which determine the objects | `C85_refines`, `C85_determined`, `C85_bits`, `C85_registers`, `C85_write_registers`, `C85_write_coils`, `C85_write_register`, `C85_write_coil`, `C85_mask`, `C85_read_write`, `C85_only_integers`, `C85_integers`, `C85_set_get`, `C85_set_one`, `C85_set_values`, `C85_get_values` (Props/ObjectCells.lean) |
| C86 | Hook functions may act on the data | proved | handlers generic in the hooks: each is the call of its hooks followed by a part without; simulation by projection to the memory; loop invariant over the cells of a write; induction over the requests | `C86_still`, `C86_before`, `C86_instead`, `C86_refused`, `C86_watch`, `C86_announced`, `C86_write_register`, `C86_write_registers`, `C86_write_coil`, `C86_write_coils`, `C86_mask_write`, `C86_read_write`, `C86_meddling`, `C86_fresh`, `C86_called` (Props/ActingHooks.lean, Props/ActingHooksMore.lean) |
| C87 | data_format is a text of the struct module, with all its notation and value types | proved | a model of struct with format texts; induction over the text; simulation of the call with texts by the call with integer formats; execute cut into preparation, exchange and analysis | `C87_same`, `C87_any_text`, `C87_reading`, `C87_calcsize`, `C87_not_sent`, `C87_write`, `C87_written`, `C87_two_texts`, `C87_kept`, `C87_space`, `C87_count`, `C87_prefixes`, `C87_native`, `C87_coils`, `C87_sizes`, `C87_string`, `C87_flag` (Props/FormatCalls.lean, Props/FormatNotation.lean, Props/FormatText.lean, Props/FormatWidth.lean) |
| C88 | Lost messages and retries | proved | event log of the transport; idempotence of Spec.exec by cases on the request; a link with a list of faults around the end-to-end model, induction on the number of attempts | `C88_once`, `C88_repeat`, `C88_at_most_once`, `C88_retry`, `C88_program`, `C88_function23` (Props/Retry.lean) |
| C89 | The life of the simulator | proved | transition system of three threads and two queues (SimLife), invariants by induction on the execution; closing by explicit runs | `C89_answers`, `C89_console`, `C89_interfaces`, `C89_only_quit`, `C89_closed`, `C89_close_returns`, `C89_silent_client`, `C89_py3_no_answer`, `C89_py3_ends`, `C89_end_of_input`, `C89_false_rpc_py3`, `C89_false_silent`, `C89_false_start` (Props/SimLife.lean) |
| C90 | The verbose mode | proved | execute and _handle with log calls (Verbose), a complete case distinction of what a verbose call can come to, compared with the models without log | `C90_off`, `C90_master`, `C90_master_raising`, `C90_server`, `C90_lines` (Props/Verbose.lean) |
| C91 | Hook functions of a master may act and make calls | proved | execute with hooks that get execute (MasterHooks); induction over adaptive programs of calls, composition with C34; transaction ids tell the responses apart | `C91_observers`, `C91_answers`, `C91_calls`, `C91_history`, `C91_recursion`, `C91_after_send`, `C91_false_rtu` (Props/MasterHooks.lean) |
| C92 | The web interface shows what the slaves hold and what was stored | proved | routes of the web interface over a database of rows (WebHmi), composed with C34; invariant linking the master objects to the rows; induction over histories and over the lines of the template | `C92_page`, `C92_poll`, `C92_binary`, `C92_read`, `C92_json`, `C92_all_registers`, `C92_read_writes`, `C92_masters`, `C92_added`, `C92_requests`, `C92_kept`, `C92_gone`, `C92_gone_request`, `C92_restart`, `C92_false_stale` (Props/WebHmi.lean) |
| C93 | A simulator with commands of its own, and a program that writes into a simulator | proved | custom commands on the model of the simulator (Examples); equality with the API calls, induction over reachable states; arithmetic of the counter of the monitor by induction over calls | `C93_cv`, `C93_set_pi`, `C93_others`, `C93_rule`, `C93_false_rule`, `C93_monitor_when`, `C93_monitor_writes` (Props/Examples.lean) |
| C94 | The example servers with a console: every line does its API call, and the server runs until quit or an error | proved | Model/SlaveExample.lean is the loop of the two programs with the lines unstripped; the commands are compared with the API calls as in C52, the loop by induction over the lines with arbitrary work of the server threads in between | `C94_add_slave`, `C94_add_block`, `C94_set_values`, `C94_get_values`, `C94_other`, `C94_end`, `C94_as_simulator`, `C94_false_end_of_input`, `C94_false_contained` (Props/SlaveExample.lean) |
| C95 | Hook functions of a server may act on the data and on the databank | proved | Databank.handle_request and Server._handle over a state of heap, databank and program, on top of the acting slave hooks of C86; simulation with a reflexive transitive relation on the program; witness for the broadcast | `C95_still`, `C95_around`, `C95_watch`, `C95_log`, `C95_broadcast`, `C95_false_broadcast` (Props/ActingServer.lean) |
| C96 | Log lines of a server change nothing, and a log that fails costs at most an answer | proved | the handlers of the requests are modelled again with their log lines (Model/Logged.lean) over a state with the lines written and a handler that may raise; simulation with the unlogged functions, handler by handler (Reads, Follows, Beyond) | `C96_calm`, `C96_memory`, `C96_answered`, `C96_exception_lines`, `C96_failing`, `C96_error_line`, `C96_missing_line`, `C96_broadcast`, `C96_broadcast_line`, `C96_server_lines`, `C96_broadcast_hook`, `C96_on_error`, `C96_hook_exception`, `C96_false_broadcast` (Props/Logged.lean) |
| C97 | A TCP server whose log fails | proved | TcpServer and Server._run_server are modelled again with their log lines (Model/LoggedServer.lean); simulation with the unlogged server (Beyond), invariant SrvInv over all rounds for failing logs, locality of every step (OnlyThis) | `C97_calm`, `C97_isolated`, `C97_survives`, `C97_connect_line`, `C97_disconnect_line`, `C97_request_lines`, `C97_wrong_line`, `C97_end_line`, `C97_false_listener`, `C97_false_stop`, `C97_false_thread`, `C97_false_full` (Props/LoggedServer.lean) |
| C98 | The log of an RTU server | proved | RtuServer._do_run and Server._run_server are modelled again with their log lines (Model/LoggedRtu.lean); simulation with the unlogged server (Beyond), case analysis of every line for failing logs, memory via C96_memory | `C98_calm`, `C98_survives`, `C98_memory`, `C98_reply_lines`, `C98_error_line`, `C98_fine`, `C98_stop_line`, `C98_end_line`, `C98_false_round`, `C98_false_stop`, `C98_false_full` (Props/LoggedRtu.lean) |
| C99 | The handlers of the log | proved | create_logger, the handlers and Logger.callHandlers are modelled (Model/LogHandlers.lean); induction over the calls and over the handlers; the logged models of C90, C96-C98 depend on the handler only at ASCII lines (congruence), then C90_master, C97_calm, C98_calm | `C99_create`, `C99_accumulate`, `C99_delivery`, `C99_failure`, `C99_takes`, `C99_levels`, `C99_calm`, `C99_tcp_server`, `C99_rtu_server`, `C99_master`, `C99_dump_size`, `C99_false_udp`, `C99_false_localised`, `C99_false_long` (Props/LogHandlers.lean) |
| C100 | End to end over any layout of blocks, and with slaves that fail | proved | the reply pdu of the slave is carried through both framings (C24, C25), then C81; replies are analysed via a memory that would give them | `C100_transparent`, `C100_raises`, `C100_read_registers`, `C100_read_bits`, `C100_write_registers`, `C100_write_coils`, `C100_write_single`, `C100_mask_write`, `C100_read_write`, `C100_read_back`, `C100_nowhere`, `C100_two_values`, `C100_unreadable` (Props/AnyLayoutCalls.lean) |
| C101 | Registers of signed slaves are 16-bit numbers that may be unreadable | proved | invariant over histories (`Loose`); each function from it | `C101_history`, `C101_read`, `C101_read_inputs`, `C101_read_write`, `C101_mask_write`, `C101_mask_then_read`, `C101_write_register`, `C101_write_registers`, `C101_write_then_read`, `C101_write_many_then_read`, `C101_instance` (Props/SignedSlave.lean) |
| C102 | Several masters on one serial port, and destructors | proved | simulation of any number of masters by one; induction over the operations of masters that take a closed port for open | `C102_as_one`, `C102_new`, `C102_drop`, `C102_drop_any`, `C102_close`, `C102_useless`, `C102_reopened`, `C102_server`, `C102_example` (Props/SharedLine.lean) |
| C103 | Closing a master from other threads | proved | invariants of two transition systems; witness schedules; computation from an arbitrary state | `C103_rtu`, `C103_rtu_works`, `C103_rtu_bricked`, `C103_false_open`, `C103_false_close`, `C103_rtu_closers`, `C103_tcp_works`, `C103_tcp_false_close`, `C103_tcp_closers`, `C103_tcp_closer_raises` (Props/CloseRace.lean) |
| C104 | Interrupted calls of a master | proved | invariants of the transition systems of C103 with interrupts; witness | `C104_rtu_lock`, `C104_rtu`, `C104_rtu_works`, `C104_rtu_false_close`, `C104_rtu_example`, `C104_tcp`, `C104_tcp_works`, `C104_tcp_example` (Props/Interrupts.lean) |
| C105 | The log of a TCP master, and of a TCP server that ends | proved | `Beyond` (the run with a log is the run without it, plus lines); invariant `Deaf` over all calls; induction over the sockets | `C105_calm`, `C105_line`, `C105_raising`, `C105_stuck`, `C105_exit`, `C105_exit_no_socket`, `C105_exit_plain`, `C105_false_exit`, `C105_example`, `C105_exit_example` (Props/LoggedTcp.lean) |
| C106 | RTU over TCP end to end | proved | composition of C32 (reading to the expected length), C39, C25 and the handlers; invariant `Reached` over the calls | `C106_call`, `C106_history`, `C106_unknown`, `C106_example` (Props/Gateway.lean) |
| C107 | The log of a WorkerThread, and of the constructors of RtuMaster and RtuServer | proved | the run with a log projects to the run of Model/Worker (simulation, induction over the events); invariant LWInv for the line and the end of the thread | `C107_worker`, `C107_exit_once`, `C107_lines`, `C107_master`, `C107_server`, `C107_example` (Props/LoggedWorker.lean) |
| C108 | The example programs with a master: what they show | proved | C34_either for every call; induction over the calls against a specification of the lines (specProgram) | `C108_lines`, `C108_three`, `C108_raises`, `C108_false_connected`, `C108_false_port`, `C108_example` (Props/MasterExample.lean) |
| C109 | Interrupted calls on a slave | proved | a call as a list of actions, of which a prefix is done (tied to Model/Slave by C109_complete); case analysis over the prefixes, induction over the tables | `C109_complete`, `C109_all_or_nothing`, `C109_remove_all`, `C109_repair`, `C109_false_add`, `C109_false_alias`, `C109_false_remove`, `C109_example` (Props/CutCalls.lean) |
| C110 | Interrupted start and stop | proved | the transition system of C48 with interruptions and SystemExit as further events; the invariant of C48 is preserved by them; induction over executions | `C110_one_server`, `C110_thread_calls`, `C110_stopped`, `C110_stop_ends`, `C110_start_again`, `C110_start_late`, `C110_false_restart`, `C110_false_exit` (Props/ServerInterrupts.lean) |
| C111 | Interrupted start and stop of a worker thread | proved | the transition system of C54 with interruptions as further events; its invariants are preserved; induction over executions | `C111_calls`, `C111_stop_waits`, `C111_stop_cut`, `C111_start_again`, `C111_false_restart` (Props/WorkerInterrupts.lean) |

## Findings in the code

Blocks and slaves
* An `add_block` that is interrupted (Ctrl-C) between its two stores leaves a name without a block, an interrupted `remove_block` a block without a name; only `remove_all_blocks` repairs this (C109).
* `add_block` stops its overlap check at the first block behind the new one, so overlapping blocks are accepted (C02); blocks of equal start
  address make names ambiguous (C04).  A register that lies in two blocks has two values: which one is read depends on the range of the request (C81).
* Truncated payloads of functions 15, 16 and 23 write the part that arrived before the error (C14).  Mask write on a signed slave may store
  a value that cannot be read any more (C10, C15).  Function 23 reads before it writes (C11).
* Slaves sharing a memory dictionary have separate locks (C42).

Databank and framing
* A request that cannot be decoded is answered by two unframed bytes (C22); a function code of 128 or more makes `struct.error` escape; an
  empty pdu is answered 0x81 0x04.  A broadcast stops at the first slave that raises (C20).  `error_on_missing_slave` makes no difference.
  TCP unit 0 is a broadcast.  Broadcasts are not atomic between servers (C61); the loop holds no lock, so `add_slave` or `remove_slave` meanwhile ends it with
  a RuntimeError after part of the slaves and a response is sent to the broadcast (C67).  A request that has looked up its slave acts on it even after
  `remove_slave` has returned (C67).
* A TCP header with a wrong length field is answered by the bare bytes `81 04`, which are no frame (C68).  So is a request for a table that a user-given
  memory dictionary lacks (`fc+128 04`, C69).  `remove_all_blocks` on a slave sharing a dictionary leaves the other slave's names dangling (C69).
* A TCP frame with length field 0 makes the server read one byte of the next frame (C29).

Master
* The function code of a response is not checked (C37); a custom signed format for READ_FILE_RECORD may loop (C40); DIAGNOSTIC has no usable
  defaults; `slave=None` is a TypeError; slave 0 waits for a response.  The lock of `execute` is shared by all masters.
* `RtuOverTcpMaster._recv` spins when the peer closes, and waits for bytes a short exception response does not have (C32).
* `RtuMaster._recv` with `timeout=None` is a TypeError; `close` after an external close of the port leaves the master "opened" (C50).
* Closing or dropping one of several `RtuMaster` objects on a port makes the others useless: `close` and `open` of them do not open the port again; making a new one resets the time-out of all (C102).
* `close` and `open` do not take the lock of `execute`: two threads that close, or one that opens by hand, can leave an `RtuMaster` with `_is_opened` set and the port closed, which nothing repairs; a `close` during `TcpMaster.execute` may return with the connection up and the master marked closed, because `_send` takes the closed socket for a lost connection and reconnects; two concurrent `TcpMaster.close` may raise AttributeError (C103).
* An exception from outside (Ctrl-C) that falls into `RtuMaster.close` between closing the port and clearing `_is_opened` makes the master useless for ever (C104).
* A log handler that raises on the line `Error while flushing the socket` keeps a `TcpMaster` that has lost its connection from ever connecting again (C105).
* A log handler that raises while `TcpServer._do_exit` reports a socket that does not close leaves the remaining sockets open (C105).
* On an echoing line without `handle_local_echo` write calls report success with no slave on the line (C65).
* `set_timeout(None)` and negative values are refused with an exception but stored, so every later `open` raises; time-out 0 never connects
  (C72).  `PyModbusClientTCP` has the time-out None by default, so in Python 3 none of its methods works (C72).  The time-out bounds the wait for
  every byte, not the call (C73).  `RtuMaster` replaces the time-out of the given port by 3.5 characters, and `RtuServer` answers only after
  3.5 characters of silence, so with the default settings every call of an `RtuMaster` to an `RtuServer` fails although it is carried out, and the late response may be taken for the
  response to the next call (C78).  Every exception response costs between one and two time-outs (C76).  A call of unknown response length has no limit in time unless `use_sw_timeout` is
  set (C76).  A negative `set_timeout` is stored in the RTU master although the port refuses it (C76).
* The result of `sock.send` is ignored, by the master and by the server: of a message that the system takes only in part the rest is lost, and the
  server takes the beginning of the next request for it; a wrong value may be written and acknowledged (C82).
* A late response is recognised by its transaction id over TCP, but taken for the response to the next call by RTU masters, on serial lines and over TCP (C83).
* An object in a register that is not an integer that fits makes struct.error (TypeError for function 22) leave `Slave.handle_request`, instead of an exception response (C85).
* Function 23 repeated after a lost response gives back the registers its own first execution has written (C88).
* Function 5 of `execute` takes any tuple, even the empty one, for "on" (C38).
* `flush_socket` with a limit raises after that many successful reads, without limit it spins on a closed connection (C49).

Servers
* An exception in `accept` or an `on_connect` hook closes the listening socket for ever (C47).  A failed `bind` or a raising `on_error` hook
  leaves sockets open (C63).  Clients are served one after the other by blocking reads: one that sends a byte almost every second keeps all others, and
  `stop`, waiting for up to 65534 seconds (C74).  `_do_exit` is not called when `_do_run` raises (C48).
* `Server.stop` may raise RuntimeError, and a restart may be undone, when the thread ends at the wrong moment (C48); then
  `CompositeServer.stop` leaves the other servers running (C61).  `start` after a `stop` interrupted by Ctrl-C raises and yet sets the
  server going again; a SystemExit in the server thread makes a restart impossible (C110).
* After a `WorkerThread.stop` interrupted by Ctrl-C, `start` raises RuntimeError and yet sets the worker going again (C111).
* `RtuServer.stop` may hang when the port could not be reopened, or on platforms where `cancel_read` is not sticky (C59).
* `RtuServer` can merge frames that are 3.5 characters apart, and both are lost (C77).
* A second `WorkerThread.start` during `stop` sets the event again (C54).

Logging
* The log handlers do not catch errors: a log that cannot be written (closed stdout, UDP errors, characters that are not ASCII) makes calls raise, before the request is sent or after it was
  carried out, and makes a verbose server drop the response of a request it has executed (C90).

Data formats
* A `data_format` without a prefix is in the byte order of the machine: on most machines registers come back with swapped bytes, and formats have gaps (C87).
* A `data_format` that is no format, or not of the size of the data, raises struct.error only after the request was executed (C87).
* A write with a `data_format` of an odd number of bytes is sent with a byte count that is not twice the register count; the server refuses it (C87).
* Reading coils with a `data_format` of codes larger than a byte loses all but eight bits of each number (C87).

Hooks
* A KeyError raised by a hook function is swallowed; a function that uninstalls itself makes the next one be skipped; a hook installing a
  hook at each call loops (C44).  A `handle_request` hook raising ModbusError gives UnboundLocalError; the answers of the `handle_*_request`
  hooks are ignored (C46).  `TcpServer.after_recv` sees only the header.
* A `setitem` hook that raises in the middle of a write of several registers leaves the first ones written; KeyError does not veto; an earlier
  function that answers hides the writes from later ones (C71).
* A `setitem` hook is called before the value is stored, so it cannot replace the value, only refuse it; but it can change registers of the same request stored before (C86).
* A hook function of `modbus.Master.after_send` that makes a call on the same master spoils the interrupted call: it raises although the slave has executed it; over RTU the two calls may even
  return each other's values (C91).  A hook function that calls `execute` without a guard recurses until RecursionError, before anything is sent (C91).
* A hook function calling a slave can deadlock with a server thread: `_data_lock` and the lock of `call_hooks` are taken in both orders (C43).

Simulator and clients
* Answers of more than 1024 characters are cut (C53), queries of more than 1024 characters are executed as far as they arrived (C66);
  `get_values` of no value raises (C53); the interfaces share one answer queue (C58); in Python 3 the RPC part mixes `str` and `bytes`:
  no client gets an answer, and any request - even a connection that is closed at once - ends the simulator (C89).  A client that connects to the RPC port and says nothing keeps `close` from
  stopping the Modbus server; when the console thread could not be started `close` raises and stops nothing; at the end of stdin the console spins (C89).
* No reading method of `PyModbusClientTCP` returns values in Python 3 (C57).  `get_log_buffer` of an empty buffer cuts its prefix (C55).
* The rule of `examples/mysimu.py` (register 0 above 30 means register 1 is 1) holds only right after `cv 0 ...`: `cv 1 0`, `set_values` or a Modbus write break it (C93).
* The console of `examples/tcpslave_example.py` and `rtuslave_example.py` does not contain errors: a mistyped line ends the program and stops the server; and when its standard input ends it writes "unknown command" for ever (C94).
* `examples/tcpmaster_example.py` and `rtumaster_example.py` report "connected" before anything is connected, and catch only `ModbusError`: without a server they end with a traceback after "connected" (C108).
* A hook function that adds or removes a slave while a slave handles a broadcast makes the iteration over the slaves raise: the other slaves are not reached, and the broadcast is answered with two bytes that are no frame (C95).
* A handler of the log that raises stops a broadcast halfway: the slaves after the failing line are not reached, and the broadcast is answered with two bytes that are no frame (C96).
* A handler of the log that raises takes a TCP server down: if it raises at the line about a new connection, the listening socket is closed and forgotten; if it raises while a connection goes wrong, the server thread ends without closing its sockets, and if it raises again at the line about that, `_make_thread` is not reached and the server cannot be started again; if it raises at the line about the end, the stopped server keeps its port (C97).
* A handler of the log that raises at the line about a failed round ends the thread of an RTU server with its port open, and if it raises again the server cannot be started again; one that raises at the line about the end leaves the port of a stopped server open (C98).
* `create_logger` adds a handler at every call, so every line is written as often as it was called (the simulator module calls it when it is imported); it changes the level even if it raises. The udp handler raises for texts that are not ASCII: a localised error message of one connection takes a TCP server down; in verbose mode a request of 32753 bytes or more is never handled, because its dump does not fit into a datagram (C99).
* A master can make a register of a signed slave unreadable for masters: mask write stores an unsigned word that struct cannot pack as signed; every later read of it through Modbus is answered with two bytes that are no frame, and `execute` raises ModbusInvalidResponseError until the register is written again (C100).

Web interface (`hmi/master_webhmi.py`)
* RTU masters can never be used: a missing serial port raises KeyError, the code waits for IndexError; the master is stored, adding it shows an error (C92).
* The page for reading takes any function code: with 5 or 6 opening the url writes 0 (C92).
* When a slave refuses a polled request, the handler raises NameError (`name`, `url` are not defined there), and the page keeps the old values (C92).
* A request deleted through the url of another master stays on its page; requests of a deleted master stay in the database for ever (C92).

## Checking against wrong programs

`seeded/LOG.jsonl` records edits of the model in the style of realistic bugs, the theorems that stopped checking and those that were
tightened because an edit had survived.
