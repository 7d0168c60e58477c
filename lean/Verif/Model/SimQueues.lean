import Verif.Model.Simulator
/-
# Model of the queues between the interfaces and the simulator (simulator.py:41-47, 86-99, 164-171, 329-344)

The console and every RPC connection put a command in the one input queue and take the next answer from the one output queue.
(The RPC server handles one connection at a time, the console is another thread: an interface is a number here.)
-/
namespace Modbus

/-- what an interface is doing: nothing, or waiting in `OUTPUT_QUEUE.get(timeout=...)` for the answer to a command -/
abbrev Waiting := Option Text

structure QueueSt where
  inq : List Text
  outq : List Text
  waiting : Nat → Waiting
  sim : SimSt
  /-- the loop of `_handle` has ended -/
  ended : Bool

/-- what can happen -/
inductive QueueEv where
  /-- an idle interface puts a command (simulator.py:95, 169) -/
  | put (i : Nat) (cmd : Text)
  /-- the simulator takes a command, executes it and puts the answer (simulator.py:331-344) -/
  | handle
  /-- a waiting interface takes the answer at the head of the output queue (simulator.py:97, 170) -/
  | get (i : Nat)
  /-- `get` raises `Empty` after its timeout (simulator.py:97, 170): the connection handler ends with the exception -/
  | timeout (i : Nat)

/-- One step; the answer an interface gets is `some (command, answer)`.  `none`: the step is not possible now. -/
def queueStep (cmds : List (Text × SimCmd)) (errText : PyErr → Text) (q : QueueSt) :
    QueueEv → Option (QueueSt × Option (Text × Text))
  | .put i cmd =>
    match q.waiting i with
    | some _ => none
    | none => some ({ q with inq := q.inq ++ [cmd], waiting := fun j => if j = i then some cmd else q.waiting j }, none)
  | .handle =>
    if q.ended then none
    else match q.inq with
      | [] => none
      | cmd :: rest =>
        let r := simStep cmds errText cmd q.sim
        some ({ q with inq := rest, outq := q.outq ++ [r.1], ended := r.2.1, sim := r.2.2 }, none)
  | .get i =>
    match q.waiting i, q.outq with
    | some cmd, answer :: rest =>
      some ({ q with outq := rest, waiting := fun j => if j = i then none else q.waiting j }, some (cmd, answer))
    | _, _ => none
  | .timeout i =>
    match q.waiting i, q.outq with
    | some _, [] => some ({ q with waiting := fun j => if j = i then none else q.waiting j }, none)
    | _, _ => none

/-- an execution: the final state and the answers the interfaces got, in order -/
def queueRun (cmds : List (Text × SimCmd)) (errText : PyErr → Text) : QueueSt → List QueueEv → Option (QueueSt × List (Text × Text))
  | q, [] => some (q, [])
  | q, e :: es =>
    match queueStep cmds errText q e with
    | none => none
    | some (q', got) =>
      match queueRun cmds errText q' es with
      | none => none
      | some (q'', gots) => some (q'', got.toList ++ gots)

end Modbus
