#!/usr/bin/env python3
"""Writes /verif/properties.jsonl (kept as a script so the list stays editable)."""
import json, os
M="modbus_tk/modbus.py"; T="modbus_tk/modbus_tcp.py"; R="modbus_tk/modbus_rtu.py"; U="modbus_tk/utils.py"
O="modbus_tk/modbus_rtu_over_tcp.py"; H="modbus_tk/hooks.py"; S="modbus_tk/simulator.py"; C="modbus_tk/simulator_rpc_client.py"
P=[]
def p(title, statement, quant, why, *anchors):
    P.append(dict(id="C%02d"%(len(P)+1), title=title, statement=statement, quantifier=quant, why_tests_cant=why, anchors=list(anchors)))

p("set_values/get_values behave like an array",
  "On a slave, after set_values(name, a, vs) is accepted, get_values(name, a, len(vs)) returns exactly vs, every other cell of every block keeps its value, and any access that is not entirely inside the named block raises OutOfModbusBlockError and changes nothing.",
  "all slaves, block names, addresses (including negative), sizes and value lists",
  "the frame condition ranges over every cell and every block layout", M+"::Slave.set_values", M+"::Slave.get_values", M+"::ModbusBlock")
p("No two blocks of one type overlap",
  "At any time, the blocks of one type registered on a slave cover pairwise disjoint address ranges (add_block refuses an overlapping block with OverlapModbusBlockError).",
  "all histories of add_block / remove_block / remove_all_blocks calls in any order of addresses",
  "depends on the whole history of insertions; tests try only two blocks", M+"::Slave.add_block", M+"::ModbusBlock.is_in")
p("add_block never refuses a block without reason",
  "add_block raises OverlapModbusBlockError only if the new range really shares an address with an existing block of that type, raises InvalidArgumentError exactly for size<=0 or negative address, DuplicatedKeyError exactly for a known name, InvalidModbusBlockError exactly for an unknown type (checked in this order), and a refused call changes nothing.",
  "all slaves and all argument values", "all address/size pairs against all layouts", M+"::Slave.add_block", M+"::ModbusBlock.is_in")
p("Block registration is a map from names to blocks",
  "A block added under a name starts with all zeros and is reachable by that name until removed; removing it makes the name unknown (MissingKeyError) and free again; other names are unaffected; adding a block and then removing it restores the slave.",
  "all histories of add_block/remove_block/remove_all_blocks", "history-dependent", M+"::Slave.add_block", M+"::Slave.remove_block", M+"::Slave.remove_all_blocks", M+"::Slave._get_block")
p("Register reads return exactly the stored values",
  "A well-formed read request (function 3 or 4) of q in 1..125 registers inside one block gets the response fc, 2q, then the q stored values big-endian in address order, and memory is unchanged.",
  "all layouts of disjoint blocks (overlapping ones: C81), addresses, quantities and stored in-range values, signed and unsigned slaves", "all addresses and quantities", M+"::Slave._read_registers", M+"::Slave._get_block_and_offset", M+"::Slave.handle_request")
p("Bit reads return exactly the stored bits",
  "A read request (function 1 or 2) of q in 1..2000 bits inside one block gets fc, ceil(q/8), then bytes in which bit j of byte i is 1 iff stored cell 8i+j is non-zero, and all padding bits are 0.",
  "all layouts of disjoint blocks (overlapping ones: C81), addresses, quantities, stored values, signed and unsigned slaves", "all bit patterns and lengths", M+"::Slave._read_digital")
p("Writing several registers stores exactly the sent values",
  "A well-formed function-16 request of n in 1..123 registers inside one block stores the n decoded values at addresses a..a+n-1, changes no other cell of any table, and answers fc, a, n.",
  "all layouts of disjoint blocks (overlapping ones: C81), addresses, value lists, signed and unsigned slaves", "frame condition over all cells", M+"::Slave._write_multiple_registers")
p("Writing several coils stores exactly the sent bits",
  "A well-formed function-15 request of n in 1..1968 coils inside one block stores bit j of byte i of the payload as 0/1 at address a+8i+j, changes nothing else, and answers fc, a, n - for signed slaves too.",
  "all layouts of disjoint blocks (overlapping ones: C81), addresses, bit strings", "frame condition over all cells, all bit strings", M+"::Slave._write_multiple_coils")
p("Single writes",
  "Function 6 stores the value at its address and function 5 stores 1 for 0xFF00 and 0 for 0x0000, nothing else changes, and the response echoes the request; any other coil value is refused with exception 3 and nothing changes.",
  "all layouts of disjoint blocks (overlapping ones: C81), addresses and values", "frame condition", M+"::Slave._write_single_register", M+"::Slave._write_single_coil")
p("Mask write computes (current AND and) OR (or AND NOT and)",
  "Function 22 sets every one of the 16 bits of the register to the or-mask bit where the and-mask bit is 0 and keeps the current bit where it is 1; nothing else changes; the response echoes the request; the register stays readable afterwards.",
  "all current values, masks and slaves (signed and unsigned)", "2^48 combinations", M+"::Slave._mask_write_register")
p("Read/write multiple registers (function 23)",
  "Function 23 returns the values held by the read range and stores the written values; a user following the Modbus specification expects the write to happen before the read.",
  "all layouts of disjoint blocks (overlapping blocks: C81), ranges (overlapping or not) and values", "interaction of overlapping read and write ranges", M+"::Slave._read_write_multiple_registers")
p("A Modbus exception response means nothing was written",
  "If a slave answers a request with an exception response (function|0x80, code), no cell of any block has changed.",
  "all request byte strings, all slaves and layouts", "all malformed and refused requests", M+"::Slave.handle_request")
p("Exception codes are the right ones",
  "For a well-formed request: unknown function -> code 1; quantity or byte count outside the limits (125/2000 read, 123/1968 write) -> code 3; range not contained in one block -> code 2; quantity is checked before the address (for function 23 the read half completely before the write half); otherwise a normal response.",
  "all well-formed requests and layouts of disjoint blocks (overlapping ones: C81)", "all boundary combinations", M+"::Slave.handle_request", M+"::Slave._get_block_and_offset")
p("A failed request leaves the memory untouched (atomicity)",
  "A request that is answered by an error - including a request whose payload is shorter than announced - changes no cell.",
  "all request byte strings", "all truncation points", M+"::Slave._write_multiple_registers", M+"::Slave._write_multiple_coils", M+"::Slave._read_write_multiple_registers", M+"::Databank.handle_request")
p("Registers written over Modbus are always readable over Modbus",
  "If every cell of the register tables is in the range of the slave's signedness, then after any request it still is, and every read of existing registers gets a normal response.",
  "all histories of requests of any bytes", "inductive over histories", M+"::Slave._mask_write_register", M+"::Slave._read_registers")
p("Blocks keep their size and position",
  "No request and no set_values call ever changes the number of cells, the starting address or the set of blocks.",
  "all histories", "inductive over histories", M+"::Slave", M+"::ModbusBlock")
p("Tables are independent",
  "A request touching coils never changes registers and inputs, and no Modbus request ever changes discrete inputs or input registers.",
  "all request byte strings, slaves with default memory", "all requests", M+"::Slave._fn_code_map")
p("Slaves are isolated",
  "Slaves created without a shared memory never see each other's writes: a request or API call on one slave leaves every read on another unchanged; slaves created with the same memory object see exactly each other's writes.",
  "all histories on a databank", "all interleavings of calls on several slaves", M+"::Databank.add_slave", M+"::Slave.__init__")
p("The databank is a map of slaves",
  "add_slave accepts exactly ids 1..255 not in use, get_slave returns what was added until removed, remove/remove_all forget, failures change nothing.",
  "all histories of databank calls", "history-dependent", M+"::Databank")
p("Broadcast",
  "A well-formed write request to id 0 is executed once on every slave (each as if addressed to it) and gets no response; a read broadcast changes nothing and gets no response.",
  "all databanks and requests", "all sets of slaves", M+"::Databank.handle_request", M+"::Slave.handle_request")
p("Requests to unknown slaves get no response",
  "A request to an id that is not registered changes nothing and yields an empty response, for both values of error_on_missing_slave.",
  "all databanks, ids, requests", "all ids", M+"::Databank.handle_request")
p("Responses are framed for the requester",
  "Every non-empty response the server produces is a valid frame of the transport: over TCP it carries the transaction id, protocol id and unit id of the request and the right length; over RTU it carries the address and a valid CRC.",
  "all request byte strings and databanks", "all malformed requests", M+"::Databank.handle_request", T+"::TcpQuery.build_response", R+"::RtuQuery.build_response")
p("TCP framing round-trip",
  "parse_request(build_request(pdu, slave)) returns (slave, pdu), parse_response(build_response(pdu)) returns pdu, for every pdu up to 65534 bytes and slave in 0..255; other slave ids are refused with InvalidArgumentError.",
  "all pdus, slave ids and transaction ids", "all byte strings", T+"::TcpQuery", T+"::TcpMbap")
p("TCP responses are accepted only if they match the request",
  "parse_response returns a pdu iff the response has at least 7 bytes, its transaction, protocol and unit ids equal the request's and its length field is the number of following bytes; otherwise it raises.",
  "all byte strings", "all byte strings", T+"::TcpQuery.parse_response", T+"::TcpMbap.check_response")
p("RTU framing round-trip and rejection",
  "parse_request(build_request(pdu, slave)) returns (slave, pdu) and parse_response(build_response(pdu)) returns pdu; a response is accepted iff it has at least 3 bytes, comes from the requested address and its CRC is right.",
  "all pdus and addresses", "all byte strings", R+"::RtuQuery")
p("The table-driven CRC is CRC-16/MODBUS",
  "calculate_crc equals the bitwise CRC with polynomial 0xA001 and initial value 0xFFFF, with its bytes swapped so that the low byte is sent first.",
  "all byte strings", "all byte strings", U+"::calculate_crc", U+"::swap_bytes")
p("The CRC detects corruption",
  "An RTU frame in which any single bit, any odd number of bits, any burst of at most 16 bits, or any two bits (less than 32767 bits apart) were flipped is never accepted.",
  "all frames of any length and all error patterns of these classes", "all error patterns", U+"::calculate_crc", R+"::RtuQuery.parse_request", R+"::RtuQuery.parse_response")
p("Transaction ids do not repeat within 65536 queries",
  "Successive requests carry ids t+1, t+2, ... modulo 65536, whatever masters or threads issue them: any 65536 consecutive ids are pairwise different and all fit in 16 bits.",
  "all numbers of queries, all interleavings", "long histories and schedules", T+"::TcpQuery._get_transaction_id", U+"::threadsafe_function")
p("The TCP server splits the byte stream into requests",
  "If a client sends well-formed frames back to back, however TCP segments them, the server handles exactly these frames, in order, consuming no byte of the next one; a connection cut inside a frame causes no request to be handled from the partial frame.",
  "all frame sequences, all segmentations and cut points", "all segmentations", T+"::TcpServer._do_run", T+"::TcpServer._get_request_length")
p("The TCP master reads exactly one response",
  "TcpMaster reads exactly the bytes of one frame however the network segments it, leaving following bytes unread; if the peer closes early, execute raises instead of returning data.",
  "all frames, segmentations, cut points", "all segmentations and cut points", T+"::TcpMaster._recv", T+"::TcpQuery.parse_response")
p("Serial reception is independent of chunking",
  "RtuMaster receives a response of the expected length whole whatever the sizes of the chunks delivered by the serial port, never reads beyond it, and stops at silence; RtuServer takes as request exactly the bytes received before a silence.",
  "all byte strings and chunkings", "all chunkings", R+"::RtuMaster._recv", R+"::RtuServer._do_run")
p("RTU over TCP: execute terminates and reports slave exceptions",
  "RtuOverTcpMaster.execute ends (with data or an exception) when the peer closes the connection, and a Modbus exception response raises ModbusError with its code.",
  "all peer behaviours", "non-termination cannot be tested", O+"::RtuOverTcpMaster._recv")
p("Master writes followed by reads return the written values end to end",
  "Against a modbus-tk server (TCP or RTU), execute(WRITE_MULTIPLE_REGISTERS, a, values) then execute(READ_HOLDING_REGISTERS, a, n) returns values (two's complement for negative ones), and likewise for coils and the single-write functions.",
  "all addresses, values, layouts of disjoint blocks", "all values and layouts", M+"::Master.execute", M+"::Databank.handle_request")
p("Master execute reports what the server holds",
  "Against a modbus-tk server, every supported function called with valid arguments returns exactly the values the Modbus specification prescribes for the server's memory, and a refused request raises ModbusError with the server's code.",
  "all supported functions (function 22 on unsigned slaves, see C10), valid arguments and server memories with disjoint blocks", "composition of all codecs", M+"::Master.execute")
p("Master never invents data",
  "For the read functions with the default format, execute returns exactly quantity values - the ones in the response - or raises; a response with a wrong byte count, a truncated or oversized response never yields data.",
  "all response byte strings", "all byte strings", M+"::Master.execute")
p("Slave exceptions surface as ModbusError",
  "Whatever the function called, a response whose function byte is above 0x80 makes execute raise ModbusError with the second byte as exception code.",
  "all functions and responses", "all byte strings", M+"::Master.execute")
p("A response to another function is not accepted",
  "execute returns data only if the response carries the function code of the request.",
  "all functions and responses", "all byte strings", M+"::Master.execute")
p("Request pdus follow the Modbus specification",
  "For every supported function and valid arguments the pdu sent is the one of the Modbus application protocol; out-of-range arguments raise before anything is sent.",
  "all functions and arguments", "all argument values", M+"::Master.execute")
p("Expected response length is right",
  "The default expected length computed by execute for RTU equals the length of the frame a conforming slave answers with.",
  "all functions with a fixed response length and all arguments", "all quantities", M+"::Master.execute", R+"::RtuQuery.build_response")
p("READ_FILE_RECORD responses are split into records",
  "For a conforming file-record response execute returns one tuple per sub-request with exactly its registers, and splitting any response terminates.",
  "all numbers and sizes of sub-requests", "termination and all sizes", M+"::Master.execute")
p("Concurrent execute calls are serialized",
  "Whatever threads and masters are used, at most one execute (with threadsafe not disabled) is between its request and its response at any time, also when calls raise or a hook calls execute again, and no thread waits for ever for a lock nobody holds.",
  "all schedules, thread counts and exceptions", "all schedules", U+"::threadsafe_function", M+"::Master.execute")
p("Slave operations are linearizable",
  "Concurrent requests and API calls on one slave have the effect and the results of some sequential order of them; in particular a multi-register read never sees half of a multi-register write.",
  "all schedules and operations", "all schedules", M+"::Slave.handle_request", M+"::Slave.set_values", M+"::Slave.get_values", M+"::Slave.add_block")
p("No deadlock between the library locks",
  "Threads using masters, servers, slaves and hooks never block each other for ever.",
  "all schedules", "all schedules", H+"::call_hooks", M+"::Slave.handle_request", U+"::threadsafe_function")
p("Hooks run in installation order until one answers",
  "call_hooks calls the functions installed under the name in installation order, stops at the first non-None result and returns it, returns None if there is none; install appends, uninstall removes the first matching function or all of them, other names are unaffected.",
  "all histories of install/uninstall/call and all hook functions that do not change the list being called (the others: see the witnesses)", "all histories", H+"::install_hook", H+"::uninstall_hook", H+"::call_hooks")
p("Observer hooks are transparent",
  "Hooks that return None and do not raise change no response and no stored value anywhere in slave, databank, server and master.",
  "all sets of observer hooks, all requests", "all hook sets", H+"::call_hooks", M+"::Slave.handle_request", M+"::Server._handle", M+"::Master.execute")
p("Hooks can replace requests and responses",
  "A value returned by before_send / after_recv / handle_request / before_handle_request / after_handle_request replaces exactly the corresponding message.",
  "all values and requests", "all values", M+"::Master.execute", M+"::Slave.handle_request", M+"::Server._handle")
p("The TCP server survives faulty clients",
  "An error or disconnection on one client connection closes only that connection: the other connections and the listening socket stay registered, every registered socket is open, and the server keeps handling requests.",
  "all event sequences on all sets of connections", "all event sequences", T+"::TcpServer._do_run")
p("Server start/stop/restart",
  "start() then stop() ends the server thread and returns; the server can be started again afterwards; stop() on a stopped server does nothing.",
  "all schedules of the caller and the server thread", "all schedules", M+"::Server.start", M+"::Server.stop", M+"::Server._run_server", M+"::Server._make_thread")
p("Stale bytes never answer a new request",
  "When TcpMaster sends a request, bytes left over from an earlier exchange have been discarded or the connection has been replaced, in a bounded number of steps.",
  "all amounts of pending data and connection states", "all buffer contents", U+"::flush_socket", T+"::TcpMaster._send")
p("Opening and closing a master",
  "open is idempotent, close after open closes the link, execute opens it on demand, and after close the next execute opens it again.",
  "all histories of open/close/execute and link states", "all histories", M+"::Master.open", M+"::Master.close", R+"::RtuMaster._do_close", T+"::TcpMaster._do_open")
p("Simulator: one answer per command, errors are contained",
  "Every command line put in the input queue gets exactly one answer, in order; a failing command answers '<cmd> error: ...' and leaves the simulator running with the databank as the failing operation left it; only a line starting with quit stops it.",
  "all command line sequences", "all sequences", S+"::Simulator._handle")
p("Simulator commands act like the API",
  "The simulator commands add_slave ... get_values have the same effect and results as the corresponding databank and slave calls, and set_values answers the values just stored.",
  "all command arguments and databanks", "all arguments", S+"::Simulator")
p("RPC client reads back what the simulator answers",
  "SimulatorRpcClient.get_values returns the integers held by the slave: the textual encoding of integers survives the round trip; an error answer raises.",
  "all integer lists", "all integers", C+"::SimulatorRpcClient", S+"::Simulator._tuple_to_str")
p("WorkerThread always runs its exit function",
  "A WorkerThread runs init once, main until stop or an exception, and the exit function exactly once at the end.",
  "all behaviours of the functions and all stop times", "all schedules", U+"::WorkerThread")
p("Logged buffers identify the bytes",
  "get_log_buffer renders a non-empty buffer as the decimal bytes separated by '-', so two different buffers never produce the same log text.",
  "all byte strings", "all byte strings", U+"::get_log_buffer")
p("swap_bytes is an involution on words; the RTU character time never increases with the baud rate",
  "swap_bytes(swap_bytes(w)) = w for every 16-bit w; calculate_rtu_inter_char is positive, equals 11/baud up to 19200 and never increases with the baud rate.",
  "all words, all positive baud rates", "all values", U+"::swap_bytes", U+"::calculate_rtu_inter_char")
p("PyModbusClientTCP wrappers",
  "The drop-in client returns the values read by the underlying master.",
  "all register values", "all values", "modbus_tk/pymodbusclient.py::PyModbusClientTCP")
p("Simulator interfaces get the answers to their own commands",
  "The console and every RPC client of the simulator get the answer to the command they sent.",
  "all interleavings of the console, the RPC handler and the simulator loop, all timeouts", "all schedules", S+"::RpcHandler.handle", S+"::ConsoleInterface.run", S+"::Simulator._handle")
p("RtuServer.stop ends a server waiting for a byte",
  "RtuServer.stop() returns although the server thread is waiting for the first byte of a request on a silent line, and afterwards the thread has ended and the port is closed.",
  "all interleavings of stop() with the server thread, all behaviours of the line and of reopening the port, both kinds of cancel_read",
  "the race between stop() and the next blocking read depends on the schedule", R+"::RtuServer.stop", R+"::RtuServer._do_run", M+"::Server.stop")
p("TCP masters and a TCP server together are linearizable",
  "When TCP masters call execute on their own connections to one TcpServer, whatever the segmentation of requests and responses and whatever the scheduling of the server, there is one sequence of the calls, keeping the order of each master, such that every master gets for each served call the result that the Modbus specification prescribes when the calls are made one after the other in this sequence, and the memories of all slaves at the end are those after this sequence.",
  "all numbers of masters, programs of calls, slaves, segmentations, schedules of the server",
  "tests run a few schedules; the interleavings of several masters and the segmentations are unbounded",
  M+"::Master.execute", T+"::TcpMaster", T+"::TcpServer._do_run", M+"::Databank.handle_request", M+"::Slave.handle_request")
p("Several servers sharing one databank (CompositeServer) behave like one server handling one request at a time, and start and stop together",
"When any number of TCP and RTU servers and user threads work concurrently on the slaves of one common databank (with a fixed set of slaves that do not share memory), all requests addressed to individual slaves and all direct slave calls have the results and effects of one sequential order over all slaves that respects real time; CompositeServer gives its own databank to every server it builds, start() and stop() call each server's method once and in order until one raises, and when stop() returns normally no server runs any more until start() is called. (Broadcasts are excluded: they are not atomic; a server whose stop() raises leaves the later servers running.)",
"all numbers of servers, threads, slaves and requests, all interleavings, all behaviours of the servers' methods",
"the interleavings of several server threads, user threads and start/stop calls are unbounded",
S+"::CompositeServer", M+"::Slave.handle_request", M+"::Databank.handle_request", M+"::Server.start", M+"::Server.stop")
p("User-defined data formats transport bytes unchanged","Writing several registers with a struct format puts exactly the packed bytes, high byte first, in the registers and is acknowledged with the number of registers filled; reading registers with a struct format returns what unpacking the bytes of those registers gives (or a struct error when the format has another size), with no other difference to the call without a format. So writing with one format and reading with the same one returns the values, and reading with another one reinterprets the bytes, over TCP and RTU, for signed and unsigned slaves.","every integer struct format (any sizes, signedness, byte order), every list of values it can pack, every address, every channel, server and state","the formats are chosen by the user and combine freely with addresses, transports and slave settings",M+"::Master.execute",M+"::Slave._write_multiple_registers",M+"::Slave._read_registers")
p("A TCP server closes the sockets it opens","After a TCP server has been stopped, the listening socket and every connection it has ever accepted are closed and nothing is registered any more, whatever the clients did in between; the server can then be started again, any number of times.","every sequence of client behaviours, connection attempts and hook results, every number of lives","leaks depend on the interleaving of connects, disconnects, errors and the stop; tests see single schedules",T+"::TcpServer._do_init",T+"::TcpServer._do_run",T+"::TcpServer._do_exit")
p("An RTU server survives failures of the serial device","The port is open after the server was started and closed after it was stopped. When reading from the device raises - while the server waits for a request or in the middle of one - the port is closed and opened again and the server goes on: what arrives between two silences or failures is handled as one request, in order, every response is written and no received byte is lost; if opening fails the server tries again in each round until it succeeds.","every sequence of chunks, silences and failures on the line, every number of failed attempts to open","failures happen at any moment of any request",R+"::RtuServer._do_run",R+"::RtuServer._do_init",R+"::RtuServer._do_exit",R+"::RtuServer.close")
p("A local echo is dropped","With handle_local_echo the master reads and drops exactly the echo of its request and then receives the response; without it nothing is read before the response. Input received before the request is sent is dropped in both cases and the request is written exactly once.","every request and response, every splitting of the response in chunks, every state of the port","the echo and the response share one byte stream whose splitting varies",R+"::RtuMaster._send",R+"::RtuMaster._recv")
p("The remaining RPC client methods act like the API","add_slave, remove_slave, remove_all_slaves, add_block, remove_block, remove_all_blocks, set_values, install_hook and uninstall_hook of the simulator's RPC client have exactly the effect of the API call they stand for on the simulator's databank or hook registry, and raise exactly when that call raises.","all arguments (names without white space) and all simulator states","all arguments and states, including long value lists","modbus_tk/simulator_rpc_client.py::SimulatorRpcClient","modbus_tk/simulator.py::RpcHandler.handle")
p("Threads may use one databank while slaves are added and removed",
"Any number of threads call add_slave, get_slave, remove_slave, remove_all_slaves of one Databank, methods of its slaves, and handle requests arriving at any servers. As long as nobody removes slaves, all of these operations have the results of one sequential history that respects the order of calls, in which a request is answered by the slave the databank then contains (no answer when it has none). With removals the same holds when a request counts as two operations, the lookup of the slave and its handling by the slave object found - a request can act on a slave that has been removed meanwhile. add_slave hands out a new, empty slave object. A broadcast that nobody disturbs reaches the slaves in order up to the first that raises an exception; since the loop holds no lock, adding a slave meanwhile ends it with a RuntimeError after part of the slaves.",
"every number of threads, every schedule, every sequence of calls, every division of the methods into atomic steps",
"schedules and histories are unbounded; the interesting interleavings are rare in a test",
M+"::Databank.add_slave",M+"::Databank.get_slave",M+"::Databank.remove_slave",M+"::Databank.remove_all_slaves",M+"::Databank.handle_request")
p("Bytes that are no request frame reach no slave","Bytes that are not a frame of the transport (fewer than 7 bytes or a wrong length field for TCP, fewer than 3 bytes or a wrong checksum for RTU) never change any slave; they are answered by nothing, except that a TCP header with a wrong length field is answered by the two bytes 81 04, which are no frame.","all byte strings, all databanks, all hooks (quiet hooks for the exact answer)","the space of malformed frames is infinite",M+"::Databank.handle_request","modbus_tk/modbus_tcp.py::TcpQuery.parse_request","modbus_tk/modbus_rtu.py::RtuQuery.parse_request")
p("Memory dictionaries given by the user","A slave created with memory=d uses d as it is. A table that d lacks: add_block for it raises InvalidModbusBlockError, and a well-formed request for it changes nothing and is answered by the bare bytes fc+128, 04. Slaves given the same dictionary share its blocks but not the names: when one removes all its blocks, every name of the other is left without a block and get_values, set_values and remove_block of it raise a plain Exception.","all dictionaries, databanks and well-formed requests","depends on the dictionary the user passes and on the history of both slaves",M+"::Slave.__init__",M+"::Slave._get_block",M+"::Slave._get_block_and_offset",M+"::Slave.remove_all_blocks",M+"::Databank.handle_request")
p("RTU servers sharing a line answer as one: every call reaches exactly its slave, nobody else speaks",
"An RtuMaster and any number of RtuServers, with any slaves (numbers 1 to 255, none on two servers), share one serial line on which everything written by one is heard by all the others, in chunks of any sizes and with any silences, differently at every station, and which may echo the master's requests (handle_local_echo). Every execute() returns what the Modbus specification prescribes for the addressed slave's memory at that moment, or raises ModbusInvalidResponseError when no server has the slave or the request is a broadcast; the memories change as if the calls were made one after the other on the slaves; to every request at most one server speaks, once, and no server speaks in answer to another server's response.",
"every number of servers, databanks with any slaves and blocks, sequences of calls of any length to any slaves and broadcasts, chunkings and silences at every station, with and without local echo",
"Tests run one master against one server; the interaction of several servers that hear each other's responses depends on every chunking and every history.",
"modbus_tk/modbus_rtu.py::RtuMaster._send","modbus_tk/modbus_rtu.py::RtuMaster._recv","modbus_tk/modbus_rtu.py::RtuServer._do_run","modbus_tk/modbus_rtu.py::RtuQuery",M+"::Databank.handle_request")
p("The setitem hook is asked before every write and can veto it","Whatever a server receives and whatever set_values is called with, every cell that changes changes by a write for which call_hooks('modbus.ModbusBlock.setitem', (block, index, values)) had returned without raising. So if the installed functions raise on every write that would store a value not allowed at its address, every cell of every block always holds an allowed value (or the initial 0), after any history; and while call_hooks always raises, nothing changes. A veto does not undo: registers of the same request written before it stay written and the client gets the bare bytes fc+128, 04; a KeyError raised by the function is swallowed and does not veto; a function installed earlier that answers hides the write from the later ones.","all registries of hook functions, byte strings received, calls and histories","The hook must be on every write path for every request; a test exercises one path.",M+"::ModbusBlock.__setitem__",M+"::Slave.handle_request",M+"::Slave.set_values","modbus_tk/hooks.py::call_hooks")
p("The time-out in force is the last one set","After any history of a TcpMaster or RtuOverTcpMaster - open, close, calls of execute with any outcome, reconnections, set_timeout, any hooks - get_timeout() is the last value given to set_timeout (or the constructor), and the socket in use has this time-out (non-blocking for 0 and less). set_timeout stores the value even when it raises (TypeError for None, ValueError for negative numbers while a socket exists). A master connects only with a positive time-out: open raises TypeError for None and ValueError for negative numbers, without connecting, and OSError for 0. So a PyModbusClientTCP with its default time-out None fails with TypeError in every method that talks to the server.","all histories, time-outs, peers and hooks","histories are unbounded, and reconnections happen inside calls","modbus_tk/modbus_tcp.py::TcpMaster.set_timeout","modbus_tk/modbus_tcp.py::TcpMaster._do_open",M+"::Master.set_timeout")
p("How long a call may take","With a positive time-out x in force, a call of execute of a TcpMaster lasts at most 65543 times x (one for connecting, one for reconnecting, one for every byte of the longest response), of an RtuOverTcpMaster at most 257 times x, whatever the peer does and whatever went before. On an open connection it does not wait longer than the response takes: when a complete frame arrives in any segments with gaps shorter than x, the call is over at the moment the last byte of this frame is there. The time-out does not bound the call as a whole: a response dripping in more slowly is received and takes a multiple of it.","all histories, peers, arrival times, calls and hooks","arrival times and histories are unbounded","modbus_tk/modbus_tcp.py::TcpMaster._recv","modbus_tk/modbus_rtu_over_tcp.py::RtuOverTcpMaster._recv")
p("A TCP server serves every client; how long a round may take",
 "Between two clients of a running TcpServer there is no starvation: a client whose connection is alive and whose next request has arrived is answered, exactly once and with the response the databank gives at that moment, within as many rounds of the server as it watches sockets before this one, plus one - whatever the other clients do. If the requests of all readable clients are complete when the server wakes up, the round takes no further time and all are answered in it. A round - thus the reaction to a stop request - lasts at most one second of waiting plus 65543 seconds for every connected client; a client that sends its request byte by byte almost a second apart really keeps all the others waiting for that long.",
 "all histories of connections, arrival times, contents and ends of all clients, all databanks",
 "arrival times, interleavings of clients and histories are unbounded",
 "modbus_tk/modbus_tcp.py::TcpServer._do_run","modbus_tk/modbus.py::Server._run_server")
p("Timing changes what a TCP server does only through the order of arrivals and through waits that end",
"Whatever the times at which clients connect, send and disconnect, every run of the TCP server equals a run determined only by the order of arrivals and by which waits end in silence. In particular the memory of the slaves is always what handling some list of requests one at a time gives; the requests of a client in that list are complete frames and, concatenated, a prefix of the bytes this client sent; and a client that does not break its connection has been sent exactly the responses to those requests, in order.",
"every set of hooks (any for the first part, hooks that neither raise nor replace for the second), data bank, memory, sequence of connections with arbitrary timed events (data in segments, end, reset), start time, second length and number of rounds",
"Tests run with a few schedules; a dependence on timing (a truncated frame handled after a time-out, bytes of one request completing another) shows only for particular interleavings of arrivals and time-outs.",
"modbus_tk/modbus_tcp.py::TcpServer._do_run")
p("How long a call of an RtuMaster takes",
"With a time-out x on the serial port, a call of execute of an RtuMaster lasts at most, besides the time for transmitting the request, one x for every byte of the expected response (at least one x; with use_sw_timeout two, whatever the length), plus one x for a local echo. With handle_local_echo, when the echo is there at the end of the transmission, the call goes like one without echo. When as many bytes as expected arrive, each less than x after the one before, the call is over at the moment the last one is there; bytes that came before the call play no part. A shorter response - every exception response to a call that expects more than 5 bytes - is accepted only after silence: between one and two x after its last byte, and exactly two x after the transmission when it came within x and there is no inter-byte time-out. When nothing arrives for x the call ends then with ModbusInvalidResponseError. When the length is not known (RAW, DEVICE_INFO, DIAGNOSTIC without data) and use_sw_timeout is off there is no limit: a device that keeps sending holds the call. After set_timeout(None) no call ever succeeds: it waits for ever while no byte comes, and raises TypeError when bytes come. After any history of open, close, execute, set_timeout, get_timeout() is the last value given and the port has the last value given that is not negative; the constructor replaces the time-out the user gave to the serial object.",
"every call, master state, hooks (any for the upper bound and the settings), arrival times of bytes, inter-byte time-out and history",
"Arrival times are unbounded and continuous; tests use mock ports that answer at once.",
"modbus_tk/modbus_rtu.py::RtuMaster._recv","modbus_tk/modbus_rtu.py::RtuMaster._send","modbus_tk/modbus_rtu.py::RtuMaster.set_timeout")
p("An RtuServer finds requests by silence","A running RtuServer with time-out t takes as one request the bytes up to the first silence. A request never contains a gap of t plus the time by which a read outlasts its last byte (the inter-byte time-out, at most t), and is never cut at a gap shorter than t; it is handled between t and t plus this lag after its last byte, and its response is written at that moment - unless the first byte of something else is there already - and followed by a pause of t. Frames without a gap of t, each beginning when the server is ready again (t plus lag after the one before, and if that one is answered the transmission of the response and another t), are therefore handled one by one, in order, each on the data left by the ones before. Frames separated only by the t = 3.5 characters of the Modbus serial line specification can be merged, and then both are lost.","every stream of bytes with arrival times, time-outs, data, number of requests; one run of the loop: blocking on the first byte or not","Framing depends on the arrival times of all bytes; tests write whole frames into a mock port.","modbus_tk/modbus_rtu.py::RtuServer._do_run","modbus_tk/modbus_rtu.py::RtuServer.__init__")
p("An RtuMaster and an RtuServer on a line, in time","On a line with given delays and speed, with an RtuServer of time-out t and lag g and an RtuMaster of time-out x longer than both delays, a byte, 2t and g: every call with arguments that fit returns what the specification gives for the data of the slave (or raises ModbusError with the prescribed code), the data change as specified, and any program of calls, with pauses or in a hurry, does so too; the master writes exactly one request per call, at once, the server exactly one response, between t and 2t + g after the arrival of the last byte of the request; a call that succeeds is over when the last byte of the response arrives, a refused one at most 2x later, so a program takes bounded time. When x is not longer than the delays, a byte and t - the default of both classes is the same 3.5 characters - every call fails with ModbusInvalidResponseError although the server carries it out, and the late response can be taken for the response to the next call.","every program of calls, pauses, delays, speed, time-outs satisfying the inequality, data of the slave; hooks that do nothing","It is about all timings and all programs; tests run both sides on a loopback with generous time-outs.","modbus_tk/modbus_rtu.py::RtuMaster","modbus_tk/modbus_rtu.py::RtuServer","modbus_tk/modbus.py::Master.execute")
p("On a serial line timing matters only through the pieces in which the bytes are read",
  "Whatever the installed hooks do and whenever the bytes of a line arrive: any number of calls of RtuServer's loop leaves the same memories, writes the same messages, ends with the same exception or none and leaves the same bytes unread as on a line without time that delivers the same bytes, in the same order, in some pieces. In any history of an RtuMaster (open, close, execute, set_timeout with a number, changes of handle_local_echo, pauses of any length, exceptions caught) each call returns or raises, and the master writes and leaves unread, the same as on such a line without time. So everything proved for all pieces (C31, C32, C64, ...) holds for all timings.",
  "all hooks, histories of calls, numbers of server rounds, contents of the databank, byte arrival times, time-outs, settings",
  "arrival times of bytes form an infinite space; a test fixes one schedule",
  "modbus_rtu.py: RtuServer._do_run, RtuMaster._send, RtuMaster._recv, RtuMaster._do_open, RtuMaster._do_close", "modbus.py: Master.execute, Master.open, Master.close")
p("Time matters to a TCP master only through the order of arrivals and the waits that run out",
  "Take any program that uses a TcpMaster or an RtuOverTcpMaster (open, close, execute, a positive set_timeout, doing nothing for a while; exceptions caught), with any hooks installed, and any times at which connections are accepted or refused and segments, ends and breaks of a connection arrive. Every call returns or raises exactly what the same call returns or raises in the model without a clock on connections on which the same segments, ends and breaks arrive in the same order with silences inserted, except that a connection that is not accepted in time raises a time-out instead of another OSError; the bytes sent on the current connection and the transaction identifiers are the same. Hence whatever is proved without a clock for all arrivals holds at any speed.",
  "all programs, hooks, arguments, positive time-outs, connection and arrival times, any number of connections",
  "timing is continuous and external; a test fixes one schedule",
  "modbus_tcp.py: TcpMaster._do_open, TcpMaster._do_close, TcpMaster._send, TcpMaster._recv, TcpMaster.set_timeout", "modbus_rtu_over_tcp.py: RtuOverTcpMaster._recv", "utils.py: flush_socket", "modbus.py: Master.execute, Master.open, Master.close")
p("Requests act on one block, whatever the layout; what is written is read back",
  "Whatever blocks a slave has - add_block may have accepted overlapping ones (C02) - a well-formed request acts on the cells of exactly one block of the table: the first one, in the order of the list, that contains the whole range. Reads (functions 1-4, 23) answer the cells of that block; writes (5, 6, 15, 16, 22, 23) store the values there, and no other cell of any block of any table changes; if no block contains the range the answer is exception 2 and nothing changes. Hence after a write of coils or registers a read of the same range answers exactly what was sent, even if blocks overlap (a read of another range that includes the same address may not: a register can have several values). The assumption (well-formed blocks, registers in the range of the slave's signedness) holds after every history of add_block, remove_block, remove_all_blocks, set_values with such values, and requests of any bytes under any hooks; on signed slaves without function 22.",
  "all slaves, lists of blocks (disjoint or not), addresses, quantities, values, signed and unsigned; all histories",
  "a test has one layout; overlapping layouts arise only from particular orders of add_block calls",
  "modbus.py: Slave._get_block_and_offset, Slave.handle_request, Slave._read_registers, Slave._read_digital, Slave._write_multiple_registers, Slave._write_multiple_coils, Slave._write_single_register, Slave._write_single_coil, Slave._mask_write_register, Slave._read_write_multiple_registers, Slave.add_block")
p("The peer gets whole messages",
  "The requests a TCP server handles are exactly the messages the master handed to send(), also when the operating system accepts only a part of a message in one call of send(); a response that was cut in this way is never returned as data.",
  "all sequences of messages, all numbers of bytes accepted by the system for each, all segmentations and schedules",
  "a partial send depends on the state of the operating system's buffers",
  T+"::TcpMaster._send", T+"::TcpServer._do_run", T+"::TcpMaster._recv")
p("A late response is never taken for the response to a later call",
  "If execute() ended with an exception before its response arrived, and the response arrives later, no later execute() of the master returns it as its own result (for TCP: within the next 65535 requests of the process).",
  "all histories of calls of the master and of other masters in the process, all times of arrival, TCP, RTU and RTU over TCP",
  "needs a response to arrive in a particular window after a time-out",
  M+"::Master.execute", T+"::TcpQuery.build_request", T+"::TcpMaster._send", R+"::RtuMaster._send", O+"::RtuOverTcpMaster._recv")
p("A TcpMaster and a TcpServer on a network that takes time","On an established connection on which nothing is on its way (old bytes may be waiting at the master, at most 2048), with a network that carries messages in any segments after any delays - gaps shorter than a second to the server, shorter than the master's time-out x to the master: the master sends exactly one request per call; the server answers it exactly once, when its last byte has arrived, and the data of the slaves change as specified; if the first byte of the response arrives less than x after the call began, execute() returns (or raises) what the specification gives for the data at that point, at the moment the last byte arrives; if not, execute() raises a time-out exactly x after it began, although the request was carried out. After late responses have arrived the connection is as good as before: in any history of calls, prompt and late ones mixed, every prompt call gets its own answer, and every late one has been carried out exactly once. A master and a freshly started server get into this state by open().","every program of calls to any slaves, pauses, routes of the messages (segmentations, delays), time-outs, data; hooks that do nothing; other connections of the server idle","It is about all timings, segmentations and histories; tests run both sides on a loopback.",T+"::TcpMaster",T+"::TcpServer._do_run",M+"::Master.execute",U+"::flush_socket")
p("Cells may hold any Python objects",
  "set_values stores whatever objects it is given, and get_values returns these objects. A bit read (functions 1, 2) answers 1 exactly for the objects Python takes for true. A register read (3, 4, 23) answers the words of the cells if all of them are integers that fit into 16 bits of the slave's signedness; otherwise struct.error leaves handle_request: there is no answer, and nothing is stored, not even by function 23. Function 22 on an object that is not an integer raises TypeError and keeps the object. The other writes (5, 6, 15, 16) replace the objects of their range by integers, whatever they were, and every other cell keeps its object. Whatever bytes a request has and whatever the hooks answer, it stores nothing but integers and moves no block; and apart from these failures a slave cannot be told from one whose cells hold integers (numbers for the objects, zero for the false ones).",
  "all slaves, layouts, objects in the cells, request bytes, hooks that act on nothing, numberings of the objects",
  "a test uses a few types of objects and a few requests; the claim is about all objects in all cells",
  M+"::ModbusBlock", M+"::Slave.set_values", M+"::Slave.get_values", M+"::Slave._read_digital", M+"::Slave._read_registers", M+"::Slave._mask_write_register", M+"::Slave._read_write_multiple_registers", M+"::Slave.handle_request")
p("Hook functions may act on the data",
  "Hook functions that change registers, other slaves or the program around them, instead of only answering: (before) the functions of handle_request and of handle_..._request run before a request is looked at, and it is executed on the data as they left it, with the answer the slave gives on these data; on_exception functions run afterwards, exactly when the answer is an exception response, and get its code; (instead) a handle_request function that answers replaces the slave; (refusing) a handle_..._request function that raises ModbusError(c) makes the answer the exception response with code c, and the request is not executed; (watching) functions that leave the data alone and do not raise have no influence on any answer or on the data; (announced) a setitem function is called once for each register of function 16, in order, with block, index and value, before it is stored; (stored last) a setitem function cannot replace the value that is stored: functions 5 and 6 store the value of the request whatever the function changed, and so do functions 15, 16 and 23 if the function does not touch the coils or registers of the request; function 22 stores the masked value of what the register held when the request was handled; function 23 answers with the values before it stores; (fresh) if a function stores current measurements by set_values before each read of holding registers, every request of every history is answered with the values measured when it is handled.",
  "all functions and what they do, all slaves, layouts, requests and histories; setitem functions that do not add or remove blocks during a write",
  "a hook function is an arbitrary program run in the middle of the library",
  H+"::call_hooks", M+"::ModbusBlock.__setitem__", M+"::Slave.handle_request", M+"::Slave._read_holding_registers", M+"::Slave._write_multiple_registers", M+"::Slave._write_single_register", M+"::Slave.set_values")
p("data_format is a text of the struct module, with all its notation and value types",
  "The data_format of Master.execute is a text: repeat counts, white space, the byte order prefixes, native alignment, codes for integers, bools, floats, characters and byte strings. (same) A text that stands for a list of integer codes, including the texts the library builds itself, makes execute do what it does with that list of codes, so everything said of integer formats holds of texts; (any) for every function whose response carries values, the call with data_format=t does what the call with returns_raw=True does and then returns struct.unpack(t, data) - in particular a text that is no format or of another size is noticed only after the request was executed; (reading) registers are unpacked from their bytes, high byte first; (writing) a write with a format is sent only if struct.pack succeeds with at most 255 bytes, otherwise the call raises and nothing is sent; an even number of bytes does what the write of these registers does, on every channel; at a server exactly the formats of 2, 4, ..., 246 bytes at existing registers are written, all others leave its memory unchanged and raise ModbusError; (two formats) values written with one format and read with another are struct.unpack(u, struct.pack(t, values)); (kept) with the same format they come back as far as the codes keep them; (notation) a count repeats a code, white space is ignored, ! is >, = is the byte order of the machine, no prefix is @; (native) on a machine that puts the low byte first, words without a prefix come back with swapped bytes; (coils) with a format, a coil read takes the lowest eight bits of every number unpacked.",
  "all texts, values, machines (byte order, size of long, floats), function codes, channels, servers and states",
  "there are infinitely many formats and values, and the text is used in three places (size, packing, unpacking) that must agree",
  M+"::Master.execute")
p("Lost messages and retries",
  "A call of `Master.execute` hands at most one message to the transport, and exactly one if it returns: the library never repeats a request on its own, so a slave executes it at most once. A caller who repeats a call after a time-out or a socket error until it gets an answer, over a link that may lose any requests and any responses, gets the same result and leaves the same memory in the slave as one call over a perfect link, however often the slave has executed the request; only function 23 (read/write multiple registers) may give back the values its own first execution wrote.",
  "all calls, hooks, transports, all programs of calls, all patterns of lost requests and responses, all memories",
  "The pattern of losses is unbounded and chosen by the network; tests use a loop-back link that loses nothing.",
  M+"::Master.execute",M+"::Slave._write_multiple_registers",M+"::Slave._read_write_multiple_registers",M+"::Slave._mask_write_register")
p("The life of the simulator",
  "Whatever the console, the RPC clients and the scheduler do, a simulator executes the commands it takes from its queue one at a time and answers each once; the console writes, and RPC clients get, answers in order, none twice; without RPC clients the k-th answer on the console is the one to the k-th line typed. The console reads a line only when the one before has been answered; while commands are executed the RPC server is up, and the console unless an answer has not come in time. In Python 2, and in Python 3 without RPC requests, a started simulator ends only because of a command starting with `quit`; in Python 3 no RPC client gets an answer and no line typed after an RPC request is executed. When `close` has returned, the Modbus server was stopped and the RPC server has ended; `close` returns unless a client that has connected to the RPC port says nothing, in which case neither happens; when the console thread could not be started, `close` raises and the server keeps running. At the end of stdin the console goes on with empty commands, which change nothing.",
  "all commands, all clients, all schedules of the three threads, all points of failure of the start, both Python versions",
  "Three threads, two queues, time-outs and clients interleave without bound; tests never start the simulator.",
  S+"::Simulator.start",S+"::Simulator._handle",S+"::Simulator.close",S+"::ConsoleInterface.run",S+"::RpcHandler.handle",S+"::RpcInterface.close",S+"::run_simulator")
p("The verbose mode",
  "Without set_verbose(True) neither a master nor a server logs messages. With it, and with a log handler that does not fail, every call and every request has exactly the result and the effects it has without; the log of a master gets one line `-> ` for the message it hands to the transport and one line `<- ` for the response as the after_recv hooks left it; the log of a server gets one line `-->` for each request as it arrived and one line `<--` for each non-empty response as it is sent; the bytes can be read off the lines. A handler that raises is not caught: if the `-> ` line fails the request is not sent, if the `<- ` line fails the call raises although it was carried out; if the `-->` line fails the request is not looked at, if the `<--` line fails it was executed and there is no response.",
  "all calls, requests, hooks, transports, data, log handlers that fail at any point of the history",
  "the log handler is an arbitrary part of the environment, and its failures can hit every call",
  M+"::Master.execute", M+"::Master.set_verbose", M+"::Server._handle", M+"::Server.set_verbose", U+"::get_log_buffer", U+"::LogitHandler.emit", U+"::ConsoleHandler.emit")
p("Hook functions of a master may act and make calls",
  "Functions installed for modbus.Master.before_send and after_recv may themselves call execute on the same master (if they remember that they are being called): a call then does exactly what the calls of the first function, the call itself and the calls of the second function would do one after the other, whatever these functions do with the results; an exception (other than KeyError) of the first function means that the request is not sent, of the second that the result is lost. Functions that leave the master alone change nothing, or, if they answer, act as plain hook functions. A function that calls without remembering makes every call raise RecursionError, and nothing is sent. A function of after_send that calls the same TCP master makes the interrupted call raise although the slave has executed it; its own calls are executed once each and return the right answer or raise (over RTU the two can get each other's answer).",
  "all hook functions of these forms (adaptive programs of calls), all calls and histories of calls, all memories, TCP and RTU, all timings of the responses, all recursion limits",
  "hook functions may do anything at three points of every call, and nested calls share the link and the transaction ids; the timing of the first response decides what the nested call receives",
  M+"::Master.execute", H+"::call_hooks", U+"::threadsafe_function", T+"::TcpMaster._send")
p("The web interface shows what the slaves hold and what was stored",
  "The page of a reading function shows every value the slave holds in the asked range once, in order, in lines of 16, with heading plus column the address, or the exception code of the slave; the polled data gives each value under the id of its cell; the page of all holding registers shows exactly the registers covered by the stored requests of function 3 for this master and slave; bit displays show the bits. Reading changes no memory (asked for a writing function, the page writes 0). The list shows exactly the stored TCP masters by increasing id, a new one gets a number never given before and no requests; masters and requests stay until they are deleted and their numbers never come back; pages show the stored requests in order and a restart changes nothing, if requests are deleted through their own master. RTU masters cannot be used.",
  "all histories of page requests, all starting databases in order, all memories, addresses, lengths, numbers of values, all 16-bit values and beyond",
  "pages depend on the whole history of added and deleted rows; the table is a loop with a running counter over results of any length",
  "hmi/master_webhmi.py::App", "hmi/master_webhmi.py::Master", "hmi/master_webhmi.py::Persistence", "hmi/master_webhmi.py::show_results", "hmi/master_webhmi.py::show_results_all_hr", "hmi/master_webhmi.py::get_json_data", "hmi/master_webhmi.py::get_all_json_data", "hmi/templates/master_results.tpl", "hmi/templates/master_results_all_hr.tpl", "hmi/templates/master_index.tpl")
p("A simulator with commands of its own, and a program that writes into a simulator",
  "Custom simulator (examples/mysimu.py): cv <address> <values> does slave.set_values('foo', address, values) on slave 1 after the rule (a value above 30 for register 0 brings a 1 for register 1) and answers the values; when it is accepted the registers hold them; cv 0 without values is an error that changes nothing; set_pi <address> stores two registers that carry the four bytes of the float in order, and answers them; every other line is answered as by a plain simulator. The rule is not an invariant: cv 1 0 breaks it. System monitor: of the calls of collect the first and then every (10 * rate)-th refreshes, whatever errors occur; a refresh does what set_values('Cpu', i, (load,)) for the first ten processors would do, up to the first error.",
  "all reachable simulators, command lines, addresses, values, hooks; all refresh rates, numbers of calls, lists of processors and loads, errors of the system",
  "commands and Modbus requests may come in any order before a command; the period of the monitor is a counter over any number of calls",
  "examples/mysimu.py::MySimulator", "examples/modbus_system_monitor.py::SystemDataCollector", S+"::Simulator.add_command", C+"::SimulatorRpcClient.set_values")
p("The example servers with a console: every line does its API call, and the server runs until quit or an error",
  "In the two example servers (examples/tcpslave_example.py, rtuslave_example.py), each typed line add_slave, add_block, set_values, get_values performs exactly the API call with these arguments on the running server and writes the result (the values as a Python tuple); any other line is reported as unknown and changes nothing.  The program reads lines until one begins with quit or raises an exception, reads no line after that, and then and only then calls server.stop(), once.  The databank is the same as after the same lines typed to the simulator.  (Unlike the simulator, an error in a line ends the program and the server; at the end of the standard input it never ends.)",
  "all states of the server that lines and Modbus requests can reach, all ids, names, addresses, values, line ends; all sequences of lines and everything the server threads do in between",
  "the lines and the state they meet are unbounded; a test types a few of them",
  "examples/tcpslave_example.py::main", "examples/rtuslave_example.py::main", M+"::Server.add_slave", M+"::Slave.set_values", M+"::Slave.get_values")
p("Hook functions of a server may act on the data and on the databank",
  "Hook functions of a server that change registers, slaves or the program around them: (around) the functions of before_handle_request run first, and the request - or the one they return instead - is handled on the databank and the data as they left them, so that slaves they added answer and slaves they removed do not; the functions of after_handle_request run last, with the response, which they may replace; (watching) functions of any hooks that change neither data nor databank, do not raise and return None where an answer counts have no influence on any answer of any history; (logging) a program that notes what these two functions are given sees every request and every answer, in order, once; (broadcast) a broadcast is given to every slave in turn, each on the data as the previous one and its functions left them, and is not answered, if the functions leave the databank alone.  (A function that adds or removes a slave during a broadcast ends it: the remaining slaves are not reached and two bytes that are no frame are sent as an answer.)",
  "all functions and what they do, all databanks, requests and histories, both protocols",
  "the functions and the histories are unbounded; tests install a hook or two that print",
  M+"::Server._handle", M+"::Databank.handle_request", "modbus_tk/hooks.py::call_hooks")
p("Log lines of a server change nothing, and a log that fails costs at most an answer",
  "The lines that a server, its databank and its slaves write about requests (wrong quantities, exceptions, broadcasts, failures, the verbose dumps) never change what a request does or how it is answered as long as they can be written: the memory, the response or exception are those without a log, and the lines are determined: none for a request that is answered normally; the wrong quantity, if that is it, and the text of the exception for an exception response; one for a failure; one for a slave that is not there if error_on_missing_slave is set; one per slave for a broadcast, showing the answer the slave would have given. If the handler of the log raises (a full disk, a closed stream), a request to one slave still has exactly its effect on the memory, a request answered normally is still answered with the same bytes, and any other request ends with its usual answer, with 'slave device failure', or with the exception of the handler, which the server loop catches. A broadcast reaches its slaves in order, and all of them unless a line could not be written; it is then answered, although a broadcast must not be.",
  "every request, hook functions, protocol, databank, memory, log contents, verbosity and every handler of the log, which may raise at any line depending on the lines so far",
  "a test has one handler that does not raise; the handler may fail at any of the lines in any of the places",
  M+"::Slave._read_registers", M+"::Slave._read_write_multiple_registers", M+"::Slave.handle_request", M+"::Databank.handle_request", M+"::Server._handle")
p("A TCP server whose log fails",
  "The lines a TCP server and its thread write (connections, disconnections, requests that cannot be handled, responses that cannot be sent, connections that go wrong, the end) never change anything as long as they can be written: the life of the server is the one without a log, and the log holds one line for a new connection, one for a client that has gone, for a request those of C96 and one more if it could not be handled or its response could not be sent. Whatever lines cannot be written, a round touches no connection that had nothing to read when it began; and if the lines about new connections and about connections that go wrong can be written, the server survives the loss of all others: it never stops, keeps its listening socket, and every socket it has registered is open. These two are needed: without the first the listening socket is closed and nobody can connect any more, without the second the thread ends; a full disk also makes it impossible to start the server again, and if the line about the end cannot be written the stopped server keeps its port.",
  "every handler of the log, which may raise at any line depending on the lines so far, all histories of all clients, every databank; hook functions arbitrary for the first two parts",
  "a test has a log that works; the handler may fail at any line at any moment of any history of the connections",
  T+"::TcpServer._do_run", T+"::TcpServer._do_exit", M+"::Server._run_server")
p("The log of an RTU server",
"What an RtuServer does to its line and to the memory of its slaves does not depend on its log as long as the log takes its lines, whatever arrives and whatever hook functions there are. A round that goes wrong writes one line before the on_error hook is told; a response that is withheld because another request has begun to arrive is the subject of one warning, and no other is; a thread that is stopped writes one line and closes its port; a thread that ends with an exception writes one line and can be started again. If the log can take the line about a round that went wrong, the server survives the loss of all other lines, and the effect of a request to one slave on the memory is in any case the same. The rest is false: a log that cannot take that line ends the thread with the port open and, if it cannot take the line about that either, the server can never be started again; a log that cannot take the line about the end leaves the port open.",
"every handler of the log, every content of the line, every number of rounds, every request",
"a test has a log that works; the handler may fail at any line of any run",
R+"::RtuServer._do_run", M+"::Server._run_server", R+"::RtuServer._do_exit")
p("The handlers of the log",
"create_logger raises exactly for a name other than udp, console and dummy, and sets the level in any case; every successful call adds a handler to the one logger of the library, so that after any history of calls a message of at least the current level is printed once per console handler and sent once per udp handler, and a message below it is not seen at all. A message that a handler cannot take raises into the code that logs, and the later handlers do not get it. With any handlers created in this way, as long as print and sendto work, masters in verbose mode, TCP servers and RTU servers behave exactly as without a log if the texts of the exceptions and addresses they log are ASCII; with console and dummy handlers, whatever the texts. The rest is false of the udp handler: a text that is not ASCII raises, so that a localised error message of one connection ends a TCP server; and the dump of a request of 32753 bytes or more does not fit into a datagram, so that it is not handled.",
"every history of create_logger calls, every message and level, every behaviour of print and sendto, every run of the servers and masters",
"a test has one handler, English error messages and short requests",
U+"::create_logger", U+"::LogitHandler.emit", U+"::ConsoleHandler.emit", U+"::to_data", T+"::TcpServer._do_run")
p("End to end over any layout of blocks, and with slaves that fail",
  "Between a modbus-tk master and a modbus-tk server (TCP or RTU framing, ideal link) nothing is added and nothing is lost, whatever the blocks of the slave are: execute returns the analysis of exactly the response pdu of the slave, and the memory of the server is what the slave made of it. So reads return the cells of the first block that contains the range, writes change that block only, reading the range just written returns the values written even when blocks overlap, a range no block contains raises ModbusError with code 2, and if the slave itself fails (an exception inside handle_request) execute raises ModbusInvalidResponseError.",
  "all layouts (overlapping blocks too), all values, addresses and quantities within the limits, TCP and RTU framing",
  "a test uses some layout of disjoint blocks; the claim is for every layout, every function and every stored value",
  M+"::Master.execute", M+"::Databank.handle_request", M+"::Slave.handle_request", M+"::Slave._get_block_and_offset", T+"::TcpQuery", R+"::RtuQuery")
p("Registers of signed slaves are 16-bit numbers that may be unreadable",
"On a slave with signed registers and default memory, whatever the blocks are and whatever happens to it (block operations, values set that its registers can hold, requests of any bytes, mask writes included, under any hooks), every holding register is a number from -32768 to 65535. A read of 1 to 125 holding registers that lie in a block is answered with their 16-bit words exactly if all of them are below 32768; otherwise handle_request raises struct.error; nothing changes in both cases, and a function-23 request with such a range writes nothing. A mask write makes its register unreadable exactly if the top bit of the 16-bit result is 1. Whatever a register holds, a mask write works on its 16 bits, and after functions 6 and 16 the range reads as the words written. Input registers can always be read.",
"all histories, layouts, register contents, masks and values", "Tests of signed slaves would have to combine function 22 with every other one; that masks of a broken register still work on the right bits is a statement about all 16-bit contents.",
M+"::Slave._mask_write_register", M+"::Slave._read_registers", M+"::Slave._read_write_multiple_registers", M+"::Slave._write_single_register", M+"::Slave._write_multiple_registers")
p("Several masters on one serial port, and destructors",
  "Any number of RtuMaster objects given the same serial port behave, as long as none of them is closed or dropped, like one single master making all the calls in the same order - every call returns or raises the same and the port ends in the same state -, whichever of them opened the port; constructing one more only resets the time-out of the port for all of them. Dropping the last reference to a master never raises and does to the line exactly what close() does, on any transport and after any history; the destructor of an RtuServer closes its port. Closing or dropping a master that has opened the port closes it for all: each other master that had opened it is useless from then on, each of its execute calls raises and writes nothing, and close() and open() on it change nothing, until a master that has not opened the port opens it.",
  "all numbers of masters, sequences of operations, arguments, hooks, and states of the port",
  "a test drops or closes one master in one order; the claim ranges over all interleavings of any number of masters and operations", M+"::Master.__del__", R+"::RtuMaster", R+"::RtuServer.__del__")
p("Closing a master from other threads",
  "open and close take no lock, execute does. (1) An RtuMaster that one thread closes, nobody opens by hand and any number of threads use: whenever no close is in progress, a master that counts as open has an open port (and conversely, if the port was closed at first and no execute is in progress), and then the next execute, alone on a working device, returns. (2) If several threads close while others execute, or if open is called by hand as well, an RtuMaster may end up counting as open with a closed port although no method but the last has raised, and then no execute ever returns again, whatever open, close and execute calls follow. (3) A TcpMaster always recovers: in every state an execute that runs alone on a working network sends its request on a connected socket and returns. (4) But a close that returns while a call is in progress may leave the connection up and the master counting as closed, and further close calls leave it so. (5) Threads that only close: as soon as one has ended the port (connection) is closed, when all have the master counts as closed; RtuMaster.close never raises, TcpMaster.close may.",
  "all numbers of threads, all interleavings of the attribute accesses and device operations, all outcomes of the device",
  "races between two attribute accesses show up in one schedule out of thousands", M+"::Master.open", M+"::Master.close", R+"::RtuMaster", T+"::TcpMaster", U+"::threadsafe_function")
p("Interrupted calls of a master",
  "When execute of a master is ended from outside - KeyboardInterrupt or any other exception that falls between any two of its actions -, in any number of threads and any number of times: the lock of execute is free as soon as no execute is in progress; an RtuMaster that nobody opens by hand and that one thread (not interrupted in it) closes never counts as open with a closed port while no close is in progress; a TcpMaster that is only used through execute has closed every socket it has made except the last one; and the next execute that runs alone on a working line or network returns, for the TcpMaster having sent its request on a connected socket. An interrupt inside RtuMaster.close, after the port was closed and before the flag is cleared, makes the master useless for ever.",
  "all numbers of threads, interleavings, points of interruption, outcomes of the device",
  "an interrupt can fall between any two steps of any thread", M+"::Master.execute", M+"::Master.close", R+"::RtuMaster", T+"::TcpMaster", U+"::threadsafe_function")
p("The log of a TCP master, and of a TCP server that ends",
  "execute of a TcpMaster or RtuOverTcpMaster, verbose or not, with a log handler that never raises, returns or raises what it does without a log and leaves the same state, the log only grows; it gets the line 'Error while flushing the socket' exactly when the old socket could not be emptied and was replaced. A handler that raises on this line makes _send raise before it connects again: a master that has lost its connection then never sends again, whatever calls follow, although without the handler its next call would connect again and succeed. A server that ends closes all its sockets except those whose close raises and writes one line for each of these; its list of sockets is empty; but if the handler raises on such a line, the remaining sockets stay open and the server keeps its listening socket.",
  "all calls and arguments, connections, states, handlers, registries, sockets whose close raises",
  "log handlers and the states of a connection are unbounded", T+"::TcpMaster", T+"::TcpServer", M+"::Master.execute", U+"::flush_socket")
p("RTU over TCP end to end",
  "An RtuOverTcpMaster that reaches modbus-tk RTU slaves through a gateway, which passes the bytes on in segments of any size: a call that the slave accepts returns exactly what the specification prescribes for the slave's memory; a call that it refuses raises the slave's exception if the call asks for nothing (a read of nothing, Read Exception Status), otherwise the exception response is swallowed and the call ends in a time-out; a call to a number that no device has ends in a time-out and changes nothing. In all cases the memory is changed as prescribed and the master is ready for the next call, so that any program of calls gives this for each of its calls.",
  "all programs of calls with arguments that fit, slave memories, segmentations, quiet hooks",
  "the master reads byte by byte to a length computed from the request; programs and segmentations are unbounded", O+"::RtuOverTcpMaster", T+"::TcpMaster", M+"::Master.execute", R+"::RtuQuery", M+"::Server")
p("The log of a WorkerThread, and of the constructors of RtuMaster and RtuServer",
  "Whatever the handlers of the library's logger do - they may raise at every line -, a WorkerThread calls the three functions, and start and stop answer, as without a log; in particular the exit function is called exactly once when the thread ends. Nothing is written as long as neither the init function nor the main function has raised; otherwise the log is the one line 'error: ' with the text of the exception, which was raised in this execution, or it is empty because the handler raised. The thread ends with an exception exactly if the exit function or the handler raised: the handler's exception if the exit function did not raise. RtuMaster(...) and RtuServer(...) write one line, saying whether the port is open, and do what they do without a log; if the handler raises there is no new object and the port is as before.",
  "every interleaving of any number of callers of start and stop with the thread, every outcome of every call of the functions, every handler, every port",
  "the handler may raise at any line and the exception text may be anything; the thread and its callers may interleave in any way for any number of rounds",
  U+"::WorkerThread", R+"::RtuMaster", R+"::RtuServer")
p("The example programs with a master: what they show",
  "A program of queries written as examples/tcpmaster_example.py and rtumaster_example.py (any list of calls, over TCP or RTU, against a modbus-tk slave) writes 'connected' and then one line for each call that is answered, the tuple of exactly the values the specification gives; the first refused call is reported with its exception code, no later call is made, the program ends without exception and the memory is the one the calls made leave. The query of the examples shows the three holding registers 0 to 2, or code 2 if they are not covered. Any exception other than ModbusError ends the program. (False, a finding: 'connected' does not mean that there is a connection - it is written before the master connects.)",
  "every list of calls that fit their fields, every slave and memory, both transports, every failing link",
  "the programs are only ever run by hand against one slave; the lines depend on every value and on which call is refused",
  "examples/tcpmaster_example.py::main", "examples/rtumaster_example.py::main", M+"::Master.execute")
p("Interrupted calls on a slave",
  "When add_block, remove_block or set_values of a Slave is ended from outside (KeyboardInterrupt) at any point, masters and the users of all other block names find the slave either as before the call or as the complete call would have left it; after an interrupted remove_all_blocks every table is as before or empty, and as soon as one was emptied no block has a name. After any program of calls, each complete or interrupted anywhere, one complete remove_all_blocks leaves the same tables, all empty, and every well-formed add_block is accepted. (The name of the call itself may be left half done, a finding: an interrupted add_block can leave a name without a block, for which every access raises the exception 'Bug?' and add_block raises DuplicatedKeyError, and which becomes a second name of the next block added at this address; an interrupted remove_block can leave a block that masters still read and write but remove_block does not know.)",
  "every call, every point of interruption, every slave, every hook function; for the repair every program of complete and interrupted calls",
  "the interrupt may fall between any two actions of any call, and what it leaves depends on the calls before and after",
  M+"::Slave.add_block", M+"::Slave.remove_block", M+"::Slave.remove_all_blocks", M+"::Slave.set_values")
p("Interrupted start and stop","However start() and stop() of a server are interrupted (Ctrl-C at any point, also during join() or while Thread.start waits) and whatever the overridden methods and the on_exception hook raise, SystemExit included: at most one thread serves at any time; every thread calls _do_init once, then _do_run as long as it returns, then _do_exit once, and nothing after a call that raised; when a complete stop() returns (or raises), no method is called any more until the next start(); a stop() that has cleared the event stops the server even if it is interrupted while it waits. An interrupted start() has either started the server or has no effect on the next start(). Findings: start() after a stop() interrupted during a round raises RuntimeError and yet keeps the old thread serving; a SystemExit in a server thread leaves a server that can never be started again.",
  "all histories of calls of one controlling thread, all points of interruption, all outcomes of the methods, all schedules",
  "points of interruption and schedules cannot be enumerated by tests", M+"::Server.start", M+"::Server.stop", M+"::Server._run_server", M+"::Server._make_thread")
p("Interrupted start and stop of a worker thread",
  "If calls of start() or stop() of a WorkerThread are ended by KeyboardInterrupt (or another exception that is not an Exception) at any of their actions, then still: the functions of the worker are called in the order init, main until it raises or a stop is seen, exit; exit is called not more than once, nothing after it, and it has been called as soon as the thread has ended. A stop() that returns after waiting has waited for the exit function. A stop() interrupted during its wait still stops the worker: as long as nobody calls start(), at most one further call of main. A start() interrupted before the thread is started can be repeated. False as one would expect it: start() after an interrupted stop() raises RuntimeError and yet sets the worker going again.",
  "all workers with or without init and exit functions, all numbers of calling threads, all interleavings, all places of interruption",
  "The place of a Ctrl-C is between any two actions of any thread: a test does not choose it, and cannot enumerate interleavings of unbounded length.",
  U+"::WorkerThread.start", U+"::WorkerThread.stop", U+"::WorkerThread._run")
out=os.path.join(os.path.dirname(os.path.dirname(os.path.abspath(__file__))),"properties.jsonl")
with open(out,"w") as f:
    for x in P: f.write(json.dumps(x)+"\n")
print(len(P))
