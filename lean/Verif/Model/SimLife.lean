import Verif.Model.Simulator
/-
# Model of the life of the simulator: `Simulator.start` and `close`, the console thread, the RPC thread (simulator.py:86-178, 184-220, 329-382)

Three threads: the main thread (`run_simulator`), the console, and the RPC server (`SocketServer.TCPServer`, which handles one connection after the other in its own thread).
`py2` chooses between Python 2, where the RPC handler deals with `str`, and Python 3, where it puts `bytes` into the queue and cannot send `str`.
-/
namespace Modbus

/-- what is in the input queue (simulator.py:44): the console puts `str`, the RPC handler `bytes` in Python 3; the bytes are written as a text -/
inductive QItem where
  | str (t : Text)
  | bytes (t : Text)
  deriving DecidableEq

/-- where the main thread is -/
inductive MainPh where
  /-- `self.server.start()`, simulator.py:214 -/
  | startServer
  /-- `self.console.start()`, simulator.py:215 -/
  | startConsole
  /-- `self.rpc.start()`, simulator.py:216 -/
  | startRpc
  /-- the loop of `_handle`, simulator.py:331-344 -/
  | loop
  /-- `self.console.close()`, simulator.py:348 -/
  | closeConsole
  /-- `self.rpc_server.shutdown()`, simulator.py:117, 349: set the flag -/
  | closeRpc
  /-- the same: wait until `serve_forever` has returned -/
  | waitRpc
  /-- `self.server.stop()`, simulator.py:350 -/
  | stopServer
  /-- `close` has returned -/
  | done
  /-- `close` has raised -/
  | crashed
  deriving DecidableEq

/-- where the console thread is, simulator.py:164-171 -/
inductive ConsolePh where
  | notStarted
  /-- about to look at `_go` -/
  | idle
  /-- in `_check_console_input` -/
  | polled
  /-- in `outq.get(timeout=2.0)` -/
  | waiting
  | dead
  deriving DecidableEq

/-- where the RPC thread is: `serve_forever` and `RpcHandler.handle`, simulator.py:89-99, 110-112 -/
inductive RpcPh where
  | notStarted
  /-- between connections -/
  | idle
  /-- in `self.request.recv(1024)` (no time-out) -/
  | reading
  /-- in `OUTPUT_QUEUE.get(timeout=5.0)` -/
  | waiting
  | ended
  deriving DecidableEq

structure LifeSt where
  inq : List QItem
  outq : List Text
  sim : SimSt
  main : MainPh
  console : ConsolePh
  rpc : RpcPh
  /-- `ConsoleInterface._go` -/
  go : Bool
  /-- the flag of `shutdown` -/
  shutdown : Bool
  /-- `server.start` has been called, `server.stop` has not -/
  server : Bool
  /-- written to stdout -/
  printed : List Text
  /-- sent to RPC clients -/
  sent : List Text
  /-- history: the commands executed, in order -/
  handled : List Text
  /-- history: the answers put in the output queue -/
  answers : List Text
  /-- history: the lines the console has read -/
  lines : List Text

/-- what can happen -/
inductive LifeEv where
  /-- the main thread takes its next step -/
  | main
  /-- the step of the main thread raises (only the three `start` calls) -/
  | mainFails
  /-- the console thread looks at `_go`, simulator.py:166 -/
  | consolePoll
  /-- nothing was typed for half a second, simulator.py:155-157, 162 -/
  | consoleNothing
  /-- a line was typed; it is put into the queue, simulator.py:168-169 (the empty text at the end of stdin) -/
  | consoleLine (t : Text)
  /-- an answer arrives, simulator.py:170-171 -/
  | consoleGet
  /-- no answer for two seconds: `queue.Empty` ends the thread, simulator.py:170 -/
  | consoleEmpty
  /-- a client connects -/
  | rpcConnect
  /-- `recv` returns (empty: the client has closed), simulator.py:93-95 -/
  | rpcRecv (t : Text)
  /-- `recv` raises: SocketServer reports it and goes on -/
  | rpcRecvFails
  /-- an answer arrives and is sent, simulator.py:97-99; in Python 3 `send` raises TypeError on a `str` -/
  | rpcGet
  /-- no answer for five seconds: `queue.Empty`; SocketServer reports it and goes on -/
  | rpcEmpty
  /-- `serve_forever` sees the flag of `shutdown` and returns -/
  | rpcLeaves
  deriving DecidableEq

/-- a step of the main thread, simulator.py:212-220, 329-350; `none`: it is waiting -/
def mainStep (cmds : List (Text × SimCmd)) (errText : PyErr → Text) (s : LifeSt) : Option LifeSt :=
  match s.main with
  | .startServer => some { s with main := .startConsole, server := true }
  | .startConsole => some { s with main := .startRpc, console := .idle }
  | .startRpc => some { s with main := .loop, rpc := .idle }
  | .loop =>
    match s.inq with
    | [] => none
    | .bytes _ :: rest => some { s with inq := rest, main := .closeConsole } -- `cmd.strip('\r\n')` of bytes: TypeError leaves `_handle`
    | .str cmd :: rest =>
      let r := simStep cmds errText cmd s.sim
      some { s with inq := rest, outq := s.outq ++ [r.1], sim := r.2.2, main := if r.2.1 then .closeConsole else .loop,
                    handled := s.handled ++ [cmd], answers := s.answers ++ [r.1] }
  | .closeConsole => -- `join` raises RuntimeError when the thread was not started; else it waits for at most a second
    some { s with go := false, main := if s.console = .notStarted then .crashed else .closeRpc }
  | .closeRpc => some { s with shutdown := true, main := .waitRpc }
  | .waitRpc => if s.rpc = .ended then some { s with main := .stopServer } else none
  | .stopServer => some { s with main := .done, server := false }
  | .done => none
  | .crashed => none

/-- one step; `none`: not possible now -/
def lifeStep (py2 : Bool) (cmds : List (Text × SimCmd)) (errText : PyErr → Text) (s : LifeSt) : LifeEv → Option LifeSt
  | .main => mainStep cmds errText s
  | .mainFails =>
    match s.main with
    | .startServer => some { s with main := .closeConsole, server := true } -- some of the servers may be running
    | .startConsole => some { s with main := .closeConsole }
    | .startRpc => some { s with main := .closeConsole }
    | _ => none
  | .consolePoll => if s.console = .idle then some { s with console := if s.go then .polled else .dead } else none
  | .consoleNothing => if s.console = .polled then some { s with console := .idle } else none
  | .consoleLine t => if s.console = .polled then some { s with console := .waiting, inq := s.inq ++ [.str t], lines := s.lines ++ [t] } else none
  | .consoleGet =>
    match s.console, s.outq with
    | .waiting, a :: rest => some { s with console := .idle, outq := rest, printed := s.printed ++ [a] }
    | _, _ => none
  | .consoleEmpty =>
    match s.console, s.outq with
    | .waiting, [] => some { s with console := .dead }
    | _, _ => none
  | .rpcConnect => if s.rpc = .idle ∧ s.shutdown = false then some { s with rpc := .reading } else none
  | .rpcRecv t =>
    if s.rpc = .reading then
      some { s with rpc := .waiting, inq := s.inq ++ [if py2 then .str (stripChars isSpace (recv1024 t)) else .bytes (stripChars isSpace (recv1024 t))] }
    else none
  | .rpcRecvFails => if s.rpc = .reading then some { s with rpc := .idle } else none
  | .rpcGet =>
    match s.rpc, s.outq with
    | .waiting, a :: rest => some { s with rpc := .idle, outq := rest, sent := if py2 then s.sent ++ [a] else s.sent }
    | _, _ => none
  | .rpcEmpty =>
    match s.rpc, s.outq with
    | .waiting, [] => some { s with rpc := .idle }
    | _, _ => none
  | .rpcLeaves => if s.rpc = .idle ∧ s.shutdown = true then some { s with rpc := .ended } else none

/-- an execution -/
def lifeRun (py2 : Bool) (cmds : List (Text × SimCmd)) (errText : PyErr → Text) : LifeSt → List LifeEv → Option LifeSt
  | s, [] => some s
  | s, e :: es => (lifeStep py2 cmds errText s e).bind (lifeRun py2 cmds errText · es)

/-- after the constructor, simulator.py:184-206 -/
def LifeSt.init (s : SimSt) : LifeSt :=
  { inq := [], outq := [], sim := s, main := .startServer, console := .notStarted, rpc := .notStarted, go := true, shutdown := false, server := false,
    printed := [], sent := [], handled := [], answers := [], lines := [] }

end Modbus
