import Verif.Model.Master
import Verif.Model.SlaveExample
/-
# Model of examples/tcpmaster_example.py and examples/rtumaster_example.py: a program of queries

The two programs differ in the master they create.  Both list further queries as comments; the model takes any list of queries.  The lines are those the
program itself writes with `logger`; the lines of the hooks of tcpmaster_example.py (which return None: they change nothing, C45) and of the verbose mode (C90)
are left out.
-/
namespace Modbus

/-- `logger.info(master.execute(...))`: the text of what `execute` returns.  `raw` is `str` of a byte string. -/
def resultText (raw : Bytes → Text) : ExecResult → Text
  | .raw data => raw data
  | .values vs => tupleText vs
  | .records rs => match rs with
    | [] => ['(', ')']
    | [r] => '(' :: (tupleText r ++ [',', ')'])
    | r :: rs => '(' :: (tupleText r ++ (rs.flatMap fun r => ',' :: ' ' :: tupleText r) ++ [')'])

/-- `logger.error("%s- Code=%d", exc, exc.get_exception_code())`, tcpmaster_example.py:66, rtumaster_example.py:49, with `str(exc)` of exceptions.py:16-19
    (`execute` raises `ModbusError` without a text) -/
def queryErrorLine (code : Int) : Text := "Modbus Error: Exception code = ".toList ++ intText code ++ "- Code=".toList ++ intText code

/-- what the program has done: its lines, the exception it ended with, the queries it did not make -/
structure MasterRun (σ : Type) where
  lines : List Text
  raised : Option PyErr
  unmade : List ExecArgs
  st : σ

/-- the queries, tcpmaster_example.py:48-63, rtumaster_example.py:36-46: one after the other until one raises -/
def queryLoop {σ : Type} (raw : Bytes → Text) (exec : ExecArgs → PyM σ ExecResult) : List ExecArgs → σ → MasterRun σ
  | [], s => ⟨[], none, [], s⟩
  | a :: rest, s =>
    match exec a s with
    | (.ok r, s') => let t := queryLoop raw exec rest s'; { t with lines := resultText raw r :: t.lines }
    | (.error e, s') => ⟨[], some e, rest, s'⟩

/-- the `except ModbusError` of tcpmaster_example.py:65-66, rtumaster_example.py:48-49: the other exceptions end the program -/
def MasterRun.handled {σ : Type} (t : MasterRun σ) : MasterRun σ :=
  match t.raised with
  | some (.modbusError code) => { t with lines := t.lines ++ [queryErrorLine code], raised := none }
  | _ => t

/-- `main`, tcpmaster_example.py:18-66, rtumaster_example.py:23-49.  `creation`: the exception with which creating the master ends (opening the serial port);
    `set_timeout(5.0)` and `set_verbose(True)` cannot fail. -/
def exampleMaster {σ : Type} (raw : Bytes → Text) (creation : Option PyErr) (exec : ExecArgs → PyM σ ExecResult) (queries : List ExecArgs) (s : σ) : MasterRun σ :=
  match creation with
  | some e => MasterRun.handled ⟨[], some e, queries, s⟩
  | none =>
    let t := queryLoop raw exec queries s
    MasterRun.handled { t with lines := "connected".toList :: t.lines }

end Modbus
