import Verif.Py
/-
# Serial ports

The run-time environment of the RTU transports: what a pyserial `Serial` object does.  Part of the trusted base, not
library code.

What `read` returns depends on the line, the inter-byte time-out and the time-out: it may return any non-empty part of
the next bytes, not more than asked for, or nothing when the time-out elapses.  The bytes on the line are therefore given
in chunks of arbitrary sizes: one `read` never returns bytes of two chunks.  (Every sequence of results of `read` calls is
that of some chunking.)
-/
namespace Modbus

/-- something that happens on the line -/
inductive SerialEvent where
  /-- bytes arrive -/
  | chunk (bs : Bytes)
  /-- nothing arrives for longer than the time-out -/
  | silence
  /-- the device fails: the next operation raises -/
  | fail
  deriving DecidableEq, Repr

/-- a `serial.Serial` object -/
structure Port where
  isOpen : Bool := true
  /-- received and not read -/
  buf : Bytes := []
  /-- what will happen on the line, in this order -/
  future : List SerialEvent := []
  /-- how many events of `future` happen before each of the next operations that look at the input without waiting
      (`reset_input_buffer`, `in_waiting`); none when exhausted -/
  sched : List Nat := []
  /-- results of the next calls of `open()`: true - success (also when exhausted) -/
  opens : List Bool := []
  /-- `timeout`, in some unit; `none` is Python's None: wait for ever -/
  timeout : Option Nat := some 1
  /-- what was written -/
  written : List Bytes := []
  /-- durations measured by the next calls of `time.time()` after a read -/
  clock : List Nat := []
  deriving DecidableEq, Repr

/-- the next event happens -/
def Port.arrive (s : Port) : Port :=
  match s.future with
  | .chunk bs :: ev => { s with buf := s.buf ++ bs, future := ev }
  | .silence :: ev => { s with future := ev }
  | _ => s

/-- `n` events happen (a failure stays to be reported) -/
def Port.arriveN : Nat → Port → Port
  | 0, s => s
  | n+1, s => arriveN n s.arrive

/-- waiting for bytes; `blocking`: without time-out.  When nothing happens any more, a read without time-out ends only by
    `cancel_read()`, and then returns nothing. -/
def Port.readWait (n : Nat) (blocking : Bool) (s : Port) : List SerialEvent → Except PyErr Bytes × Port
  | [] => (.ok [], { s with future := [] })
  | .chunk [] :: ev => readWait n blocking s ev
  | .chunk (b :: bs) :: ev => (.ok ((b :: bs).take n), { s with buf := (b :: bs).drop n, future := ev })
  | .silence :: ev => if blocking then readWait n blocking s ev else (.ok [], { s with future := ev })
  | .fail :: ev => (.error .osError, { s with future := ev })

/-- `serial.read(n)` -/
def portRead (n : Nat) : PyM Port Bytes := fun s =>
  if ¬ s.isOpen then (.error .osError, s)
  else match s.buf with
  | b :: bs => (.ok ((b :: bs).take n), { s with buf := (b :: bs).drop n })
  | [] => Port.readWait n s.timeout.isNone s s.future

/-- `serial.reset_input_buffer()`: what has arrived is dropped -/
def portResetInput : PyM Port Unit := fun s =>
  if ¬ s.isOpen then (.error .osError, s)
  else (.ok (), { Port.arriveN (s.sched.headD 0) s with sched := s.sched.tail, buf := [] })

/-- `serial.in_waiting` -/
def portInWaiting : PyM Port Nat := fun s =>
  if ¬ s.isOpen then (.error .osError, s)
  else
    let s' := { Port.arriveN (s.sched.headD 0) s with sched := s.sched.tail }
    (.ok s'.buf.length, s')

/-- `serial.reset_output_buffer()`, `serial.flush()`: raise on a closed port -/
def portCheck : PyM Port Unit := fun s => if ¬ s.isOpen then (.error .osError, s) else (.ok (), s)

/-- `serial.write(data)` (everything is written or an exception is raised) -/
def portWrite (data : Bytes) : PyM Port Unit := fun s =>
  if ¬ s.isOpen then (.error .osError, s) else (.ok (), { s with written := s.written ++ [data] })

/-- `serial.open()` on a closed port -/
def portOpen : PyM Port Unit := fun s =>
  if s.isOpen then (.error .osError, s)
  else match s.opens with
  | false :: rest => (.error .osError, { s with opens := rest })
  | rest => (.ok (), { s with isOpen := true, opens := rest.tail })

/-- `serial.close()` -/
def portClose : PyM Port Unit := fun s => (.ok (), { s with isOpen := false })

/-- `time.time() - start_time` -/
def portDuration : PyM Port Nat := fun s => (.ok (s.clock.headD 0), { s with clock := s.clock.tail })

end Modbus
