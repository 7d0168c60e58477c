import Verif.Model.LoggedServer
import Verif.Model.LoggedRtu
/-
# `create_logger` and the handlers of the log (utils.py:72-134)

The library has one logger, `logging.getLogger("modbus_tk")`; `create_logger` configures it.
Simplifications: a formatter is a function of the message (time, level, module and thread names, which `record_format` may ask for, are left out); creating the UDP socket does not fail;
the root logger has no handlers; a logger without handlers is silent (`logging.lastResort` writes warnings on stderr and never raises).
-/
namespace Modbus

/-- what the handlers write to: whether `print(text)` and `sendto(data, ...)` raise -/
structure LogEnv where
  print : Text → Option PyErr
  sendto : Bytes → Option PyErr

/-- `LogitHandler`, `ConsoleHandler`, `DummyHandler`, utils.py:72-110 -/
inductive LogKind where
  | udp
  | console
  | dummy
  deriving DecidableEq

/-- a handler with its formatter -/
structure LogHandler where
  kind : LogKind
  format : Text → Text

/-- the logger `modbus_tk` and what its handlers have written -/
structure LogSys where
  /-- `logger.level`, 0 is NOTSET -/
  level : Nat := 0
  handlers : List LogHandler := []
  /-- the lines printed -/
  console : List Text := []
  /-- the datagrams sent to 127.0.0.1:1975 -/
  datagrams : List Bytes := []

/-- `bytearray(string_data, 'ascii')`, utils.py:233-237; raises UnicodeEncodeError, a ValueError -/
def asciiData (t : Text) : Except PyErr Bytes :=
  if t.all (fun c => c.toNat < 128) then .ok (t.map fun c => UInt8.ofNat c.toNat) else .error .valueError

/-- `Handler.emit`, utils.py:79-81, 93-98, 108-110 -/
def emit (env : LogEnv) (hd : LogHandler) (message : Text) : PyM LogSys Unit :=
  match hd.kind with
  | .dummy => fun s => (.ok (), s)
  | .console => fun s =>
    match env.print (hd.format message) with
    | some e => (.error e, s)
    | none => (.ok (), { s with console := s.console ++ [hd.format message] })
  | .udp => fun s =>
    match asciiData (hd.format message ++ "\r\n".toList) with
    | .error e => (.error e, s)
    | .ok data =>
      match env.sendto data with
      | some e => (.error e, s)
      | none => (.ok (), { s with datagrams := s.datagrams ++ [data] })

/-- `Logger.callHandlers` of the standard library: one handler after the other; an exception is not caught -/
def callHandlers (env : LogEnv) (message : Text) : List LogHandler → PyM LogSys Unit
  | [] => fun s => (.ok (), s)
  | hd :: rest => do
    emit env hd message
    callHandlers env message rest

/-- `Logger.getEffectiveLevel`: NOTSET means the level of the root logger, WARNING -/
def LogSys.effective (s : LogSys) : Nat := if s.level = 0 then 30 else s.level

/-- `LOGGER.debug` (10), `info` (20), `warning` (30), `error` (40) -/
def logRecord (env : LogEnv) (lvl : Nat) (message : Text) : PyM LogSys Unit := fun s =>
  if lvl < s.effective then (.ok (), s) else callHandlers env message s.handlers s

/-- `create_logger(name, level, record_format)`, utils.py:113-131 -/
def createLogger (name : Text) (level : Nat) (format : Text → Text) : PyM LogSys Unit := do
  PyM.modify fun s => { s with level := level }
  if name = "udp".toList then PyM.modify fun s => { s with handlers := s.handlers ++ [⟨.udp, format⟩] }
  else if name = "console".toList then PyM.modify fun s => { s with handlers := s.handlers ++ [⟨.console, format⟩] }
  else if name = "dummy".toList then PyM.modify fun s => { s with handlers := s.handlers ++ [⟨.dummy, format⟩] }
  else PyM.raise .generic

/-- what the library sees of a configured logger: whether logging a message raises (`Model/Verbose`) -/
def LogSys.logger (s : LogSys) (env : LogEnv) (lvl : Nat) : Logger := fun _ message =>
  match (logRecord env lvl message s).1 with
  | .ok _ => none
  | .error e => some e

end Modbus
