# Formal model of modbus-tk in Lean 4 - design

Source: `/repo` (modbus-tk 1.1.5, read as text, never run).  Everything is modelled with **Python 3** semantics (the code also supports
Python 2; where they differ Python 3 is meant, except for the RPC part of the simulator, which only works in Python 2 and is modelled so; `SimLife` has both).

## Layout

| under `lean/Verif/` | contents |
|---|---|
| `Py.lean` | the fragment of Python used: exceptions as values, computations with state and exceptions (`PyM`), slices, bit operations on unbounded integers, `struct`, dictionaries |
| `Model/*.lean` | the model, function by function, with file:line citations |
| `Spec/*.lean` | small specifications that do not refer to the model: Modbus pdus and tables, the master's calls, bitwise CRC, frames |
| `Lemmas/*.lean` | helper lemmas |
| `Props/*.lean` | the property theorems, with concrete cases that meet their hypotheses |

`Spec/Abs.lean` is the bridge between model states and specification tables; `Spec/Calls.lean` tells how a call of the specification is
written with `Master.execute`.

## Trusted base

* Lean 4.33.0's kernel.  The axioms the theorems depend on (`#print axioms` of every theorem named in MANIFEST.json): `propext`,
  `Classical.choice`, `Quot.sound`, or fewer.  No axioms of our own, no compiled-code tactics; concrete cases are evaluated by the kernel
  (`decide`, `decide +kernel`, `rfl`).
* The faithfulness of the model to `/repo` (by reading; cited definition by definition) and of `Py.lean` to CPython.
* The models of the environment: `Model/Socket.lean` (TCP sockets as event streams), `Model/Serial.lean` (pyserial), `Model/Locks.lean`
  (RLocks and atomic steps), the event and thread objects in `Model/Worker.lean`, `Model/ServerThread.lean`, `Model/RtuStop.lean`.

### What is modelled

| file of `/repo/modbus_tk` | modelled | in |
|---|---|---|
| `modbus.py` | `Master` (`open`, `close`, `execute` for all function codes), `ModbusBlock`, `Slave`, `Databank`, `Server` (`_handle`, `start`, `stop`, `_run_server`, `_make_thread`) | `Model/Master`, `MasterHooks` (`execute` with hooks that act), `Verbose` (with `set_verbose`), `Format` (`execute` with format texts), `Slave`, `Handlers` (the handlers of `Slave` over any kind of cells and hooks), `ActingHooks`, `Databank`, `CutCalls`, `ServerThread`, `ServerInterrupts`, `Threads` |
| `modbus_tcp.py` | `TcpMbap`, `TcpQuery`, `TcpMaster` (`_do_open`, `_do_close`, `_send`, `_recv`), `TcpServer` (`_do_init`, `_do_run`, `_do_exit`), `set_timeout`, `get_timeout`; the same with a clock | `Model/Query`, `TcpMaster`, `TcpServer`, `Clocked`, `ClockedServer` |
| `modbus_rtu.py` | `RtuQuery`, `RtuMaster` (`_do_open`, `_do_close`, `_send`, `_recv`), `RtuServer` (`_do_init`, `_do_run`, `_do_exit`, `close`, `stop`); constructor, `set_timeout`, `_send`, `_recv` and `_do_run` with a clock | `Model/Query`, `Rtu`, `RtuStop`, `ClockedRtu` |
| `modbus_rtu_over_tcp.py` | `RtuOverTcpMaster._recv`; with a gateway | `Model/TcpMaster`, `Gateway` |
| `hooks.py` | all | `Model/Hooks`, `LiveHooks` (hook functions that change the registry) |
| `utils.py` | `threadsafe_function`, `flush_socket`, `get_log_buffer`, `create_logger` and the handlers of the log, `swap_bytes`, `calculate_crc`, `calculate_rtu_inter_char`, `WorkerThread` | `Model/Utils`, `LogHandlers`, `Locks`, `TcpMaster`, `Worker`, `WorkerInterrupts` |
| `simulator.py` | the commands, `_handle`, `CompositeServer`, the queues, `RpcHandler`; `start` and `close`, the console and the RPC thread | `Model/Simulator`, `SimQueues`, `SimLife`, `Composite` |
| `simulator_rpc_client.py` | all | `Model/Simulator` |
| `pymodbusclient.py` | all | `Model/PyClient` |
| `../hmi/master_webhmi.py`, `../hmi/templates` | the database, `Master`, `App`, all routes; the data the templates and their scripts show (not the HTML, not bottle) | `Model/WebHmi` |
| `../examples/mysimu.py`, `../examples/modbus_system_monitor.py` | `MySimulator`, `SystemDataCollector` | `Model/Examples` |
| `../examples/tcpslave_example.py`, `../examples/rtuslave_example.py` | `main` (the loop of the console) | `Model/SlaveExample` |
| `../examples/tcpmaster_example.py`, `../examples/rtumaster_example.py` | `main` | `Model/MasterExample` |
| `defines.py`, `exceptions.py` | constants, exception classes | `Model/Slave`, `Py` |

### What is not modelled, and simplifications

* Cell values, arguments and results are mathematical integers, except in `Model/Handlers`, where a cell holds an integer or any other object (C85): of that
  only the truth value matters; objects with `__index__` or an operator `&` of their own are not modelled.  `struct` formats are taken in parsed form (byte order and list of (size, signedness)), except in
  `Model/Format` (C87), where they are texts with counts, white space, prefixes, native alignment and the codes `x c b B ? h H i I l L q Q e f d s`, over an arbitrary type of floats;
  the codes `n N p P F D`, non-ASCII texts and the limit on sizes are not modelled.
* Hook functions are functions of the message they get; they answer None, bytes or raise.  They do not modify library objects, except in
  `ActingHooks` (they may change the memory of slaves while `Slave.handle_request` runs, C86), `ActingServer` (they may also change the databank while a server handles a request, C95), `LiveHooks` (registry) and in the lock models (hooks that call the library back).  The first argument (the object) of a hook is only
  passed as "an object".
* Logging other than the verbose mode (`Model/Verbose`, C90) and the lines of `Slave`, `Databank` and `Server._handle` (`Model/Logged`, C96) and of `TcpServer`, `RtuServer` and `Server._run_server` (`Model/LoggedServer`, C97; `Model/LoggedRtu`, C98), of `TcpMaster._send` and `TcpServer._do_exit` (`Model/LoggedTcp`, C105) and of `WorkerThread` and the constructors of `RtuMaster` and `RtuServer` (`Model/LoggedWorker`, C107), that is other than the lines of modbus.py, modbus_tcp.py, modbus_rtu.py and utils.py, exception texts, docstrings and the other files of `examples/` are not modelled; nor are Windows specifics and `setup.py`.  Destructors are modelled as operations that may happen at any time between calls (`Model/SharedLine`, C102), not when the interpreter collects an object.
* Time is modelled for the TCP masters (`Model/Clocked`: the events of the peer carry times) and the TCP server (`Model/ClockedServer`), where only waiting
  takes time, and for the RTU master and server (`Model/ClockedRtu`), where waiting, transmitting and sleeping take time.  In all other models time-outs are events.
  `calculate_rtu_inter_char` is modelled over exact rationals.  The serial port of `ClockedRtu` follows the documentation of pyserial: `timeout` counts from the call of `read`,
  `inter_byte_timeout` from the last byte; drivers may be less exact.
* `sock.send` takes the whole message, except in C82 (the sender ignores what it took, so only the peer sees a difference).  `select` reports sockets exactly when they are readable (spurious readiness is discussed below).
* Exceptions that are not subclasses of `Exception` (KeyboardInterrupt, SystemExit) do not occur, except in `Model/Interrupts` (C104, masters), `Model/CutCalls` (C109, slaves; an action there is one dictionary or list operation) `Model/ServerInterrupts` (C110, `Server.start`, `stop` and the server thread) and `Model/WorkerInterrupts` (C111, `WorkerThread.start` and `stop`).
* `Model/CloseRace` and `Model/Interrupts` (C103, C104) are transition systems written from the code of `open`, `close`, `_do_open`, `_do_close`, `_send`, `_recv`: contents of messages and hooks are left out, `flush_socket`, and setting the options of a socket, are single actions.
* A computation that would not end is reported as the pseudo exception `nonTermination` by the functions with fuel; for each of them a
  theorem shows that the fuel is enough or that running out of it means a real infinite loop.

## Properties

Status *partial* means that the property as stated in `properties.jsonl` is false of the code: a theorem named `..._false...` proves that
from a concrete reachable case, and theorems named `..._partial` say what does hold.  *proved* claims may have `_false` theorems, too:
they show that a hypothesis cannot be dropped.

| id | property | status | how | theorems (files) |
|---|---|---|---|---|
@TABLE@

## Findings in the code

Blocks and slaves
* An `add_block` that is interrupted (Ctrl-C) between its two stores leaves a name without a block, an interrupted `remove_block` a block without a name; only `remove_all_blocks` repairs this (C109).
* `add_block` stops its overlap check at the first block behind the new one, so overlapping blocks are accepted (C02); blocks of equal start
  address make names ambiguous (C04).  A register that lies in two blocks has two values: which one is read depends on the range of the request (C81).
* Truncated payloads of functions 15, 16 and 23 write the part that arrived before the error (C14).  Mask write on a signed slave may store
  a value that cannot be read any more (C10, C15).  Function 23 reads before it writes (C11).
* Slaves sharing a memory dictionary have separate locks (C42).

Databank and framing
* A request that cannot be decoded is answered by two unframed bytes (C22); a function code of 128 or more makes `struct.error` escape; an
  empty pdu is answered 0x81 0x04.  A broadcast stops at the first slave that raises (C20).  `error_on_missing_slave` makes no difference.
  TCP unit 0 is a broadcast.  Broadcasts are not atomic between servers (C61); the loop holds no lock, so `add_slave` or `remove_slave` meanwhile ends it with
  a RuntimeError after part of the slaves and a response is sent to the broadcast (C67).  A request that has looked up its slave acts on it even after
  `remove_slave` has returned (C67).
* A TCP header with a wrong length field is answered by the bare bytes `81 04`, which are no frame (C68).  So is a request for a table that a user-given
  memory dictionary lacks (`fc+128 04`, C69).  `remove_all_blocks` on a slave sharing a dictionary leaves the other slave's names dangling (C69).
* A TCP frame with length field 0 makes the server read one byte of the next frame (C29).

Master
* The function code of a response is not checked (C37); a custom signed format for READ_FILE_RECORD may loop (C40); DIAGNOSTIC has no usable
  defaults; `slave=None` is a TypeError; slave 0 waits for a response.  The lock of `execute` is shared by all masters.
* `RtuOverTcpMaster._recv` spins when the peer closes, and waits for bytes a short exception response does not have (C32).
* `RtuMaster._recv` with `timeout=None` is a TypeError; `close` after an external close of the port leaves the master "opened" (C50).
* Closing or dropping one of several `RtuMaster` objects on a port makes the others useless: `close` and `open` of them do not open the port again; making a new one resets the time-out of all (C102).
* `close` and `open` do not take the lock of `execute`: two threads that close, or one that opens by hand, can leave an `RtuMaster` with `_is_opened` set and the port closed, which nothing repairs; a `close` during `TcpMaster.execute` may return with the connection up and the master marked closed, because `_send` takes the closed socket for a lost connection and reconnects; two concurrent `TcpMaster.close` may raise AttributeError (C103).
* An exception from outside (Ctrl-C) that falls into `RtuMaster.close` between closing the port and clearing `_is_opened` makes the master useless for ever (C104).
* A log handler that raises on the line `Error while flushing the socket` keeps a `TcpMaster` that has lost its connection from ever connecting again (C105).
* A log handler that raises while `TcpServer._do_exit` reports a socket that does not close leaves the remaining sockets open (C105).
* On an echoing line without `handle_local_echo` write calls report success with no slave on the line (C65).
* `set_timeout(None)` and negative values are refused with an exception but stored, so every later `open` raises; time-out 0 never connects
  (C72).  `PyModbusClientTCP` has the time-out None by default, so in Python 3 none of its methods works (C72).  The time-out bounds the wait for
  every byte, not the call (C73).  `RtuMaster` replaces the time-out of the given port by 3.5 characters, and `RtuServer` answers only after
  3.5 characters of silence, so with the default settings every call of an `RtuMaster` to an `RtuServer` fails although it is carried out, and the late response may be taken for the
  response to the next call (C78).  Every exception response costs between one and two time-outs (C76).  A call of unknown response length has no limit in time unless `use_sw_timeout` is
  set (C76).  A negative `set_timeout` is stored in the RTU master although the port refuses it (C76).
* The result of `sock.send` is ignored, by the master and by the server: of a message that the system takes only in part the rest is lost, and the
  server takes the beginning of the next request for it; a wrong value may be written and acknowledged (C82).
* A late response is recognised by its transaction id over TCP, but taken for the response to the next call by RTU masters, on serial lines and over TCP (C83).
* An object in a register that is not an integer that fits makes struct.error (TypeError for function 22) leave `Slave.handle_request`, instead of an exception response (C85).
* Function 23 repeated after a lost response gives back the registers its own first execution has written (C88).
* Function 5 of `execute` takes any tuple, even the empty one, for "on" (C38).
* `flush_socket` with a limit raises after that many successful reads, without limit it spins on a closed connection (C49).

Servers
* An exception in `accept` or an `on_connect` hook closes the listening socket for ever (C47).  A failed `bind` or a raising `on_error` hook
  leaves sockets open (C63).  Clients are served one after the other by blocking reads: one that sends a byte almost every second keeps all others, and
  `stop`, waiting for up to 65534 seconds (C74).  `_do_exit` is not called when `_do_run` raises (C48).
* `Server.stop` may raise RuntimeError, and a restart may be undone, when the thread ends at the wrong moment (C48); then
  `CompositeServer.stop` leaves the other servers running (C61).  `start` after a `stop` interrupted by Ctrl-C raises and yet sets the
  server going again; a SystemExit in the server thread makes a restart impossible (C110).
* After a `WorkerThread.stop` interrupted by Ctrl-C, `start` raises RuntimeError and yet sets the worker going again (C111).
* `RtuServer.stop` may hang when the port could not be reopened, or on platforms where `cancel_read` is not sticky (C59).
* `RtuServer` can merge frames that are 3.5 characters apart, and both are lost (C77).
* A second `WorkerThread.start` during `stop` sets the event again (C54).

Logging
* The log handlers do not catch errors: a log that cannot be written (closed stdout, UDP errors, characters that are not ASCII) makes calls raise, before the request is sent or after it was
  carried out, and makes a verbose server drop the response of a request it has executed (C90).

Data formats
* A `data_format` without a prefix is in the byte order of the machine: on most machines registers come back with swapped bytes, and formats have gaps (C87).
* A `data_format` that is no format, or not of the size of the data, raises struct.error only after the request was executed (C87).
* A write with a `data_format` of an odd number of bytes is sent with a byte count that is not twice the register count; the server refuses it (C87).
* Reading coils with a `data_format` of codes larger than a byte loses all but eight bits of each number (C87).

Hooks
* A KeyError raised by a hook function is swallowed; a function that uninstalls itself makes the next one be skipped; a hook installing a
  hook at each call loops (C44).  A `handle_request` hook raising ModbusError gives UnboundLocalError; the answers of the `handle_*_request`
  hooks are ignored (C46).  `TcpServer.after_recv` sees only the header.
* A `setitem` hook that raises in the middle of a write of several registers leaves the first ones written; KeyError does not veto; an earlier
  function that answers hides the writes from later ones (C71).
* A `setitem` hook is called before the value is stored, so it cannot replace the value, only refuse it; but it can change registers of the same request stored before (C86).
* A hook function of `modbus.Master.after_send` that makes a call on the same master spoils the interrupted call: it raises although the slave has executed it; over RTU the two calls may even
  return each other's values (C91).  A hook function that calls `execute` without a guard recurses until RecursionError, before anything is sent (C91).
* A hook function calling a slave can deadlock with a server thread: `_data_lock` and the lock of `call_hooks` are taken in both orders (C43).

Simulator and clients
* Answers of more than 1024 characters are cut (C53), queries of more than 1024 characters are executed as far as they arrived (C66);
  `get_values` of no value raises (C53); the interfaces share one answer queue (C58); in Python 3 the RPC part mixes `str` and `bytes`:
  no client gets an answer, and any request - even a connection that is closed at once - ends the simulator (C89).  A client that connects to the RPC port and says nothing keeps `close` from
  stopping the Modbus server; when the console thread could not be started `close` raises and stops nothing; at the end of stdin the console spins (C89).
* No reading method of `PyModbusClientTCP` returns values in Python 3 (C57).  `get_log_buffer` of an empty buffer cuts its prefix (C55).
* The rule of `examples/mysimu.py` (register 0 above 30 means register 1 is 1) holds only right after `cv 0 ...`: `cv 1 0`, `set_values` or a Modbus write break it (C93).
* The console of `examples/tcpslave_example.py` and `rtuslave_example.py` does not contain errors: a mistyped line ends the program and stops the server; and when its standard input ends it writes "unknown command" for ever (C94).
* `examples/tcpmaster_example.py` and `rtumaster_example.py` report "connected" before anything is connected, and catch only `ModbusError`: without a server they end with a traceback after "connected" (C108).
* A hook function that adds or removes a slave while a slave handles a broadcast makes the iteration over the slaves raise: the other slaves are not reached, and the broadcast is answered with two bytes that are no frame (C95).
* A handler of the log that raises stops a broadcast halfway: the slaves after the failing line are not reached, and the broadcast is answered with two bytes that are no frame (C96).
* A handler of the log that raises takes a TCP server down: if it raises at the line about a new connection, the listening socket is closed and forgotten; if it raises while a connection goes wrong, the server thread ends without closing its sockets, and if it raises again at the line about that, `_make_thread` is not reached and the server cannot be started again; if it raises at the line about the end, the stopped server keeps its port (C97).
* A handler of the log that raises at the line about a failed round ends the thread of an RTU server with its port open, and if it raises again the server cannot be started again; one that raises at the line about the end leaves the port of a stopped server open (C98).
* `create_logger` adds a handler at every call, so every line is written as often as it was called (the simulator module calls it when it is imported); it changes the level even if it raises. The udp handler raises for texts that are not ASCII: a localised error message of one connection takes a TCP server down; in verbose mode a request of 32753 bytes or more is never handled, because its dump does not fit into a datagram (C99).
* A master can make a register of a signed slave unreadable for masters: mask write stores an unsigned word that struct cannot pack as signed; every later read of it through Modbus is answered with two bytes that are no frame, and `execute` raises ModbusInvalidResponseError until the register is written again (C100).

Web interface (`hmi/master_webhmi.py`)
* RTU masters can never be used: a missing serial port raises KeyError, the code waits for IndexError; the master is stored, adding it shows an error (C92).
* The page for reading takes any function code: with 5 or 6 opening the url writes 0 (C92).
* When a slave refuses a polled request, the handler raises NameError (`name`, `url` are not defined there), and the page keeps the old values (C92).
* A request deleted through the url of another master stays on its page; requests of a deleted master stay in the database for ever (C92).

## Checking against wrong programs

`seeded/LOG.jsonl` records edits of the model in the style of realistic bugs, the theorems that stopped checking and those that were
tightened because an edit had survived.
