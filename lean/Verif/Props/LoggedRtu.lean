import Verif.Model.LoggedRtu
import Verif.Props.Logged
import Verif.Props.Rtu
import Verif.Props.LoggedServer
/-
# C98: the log of an RTU server
-/
namespace Modbus

theorem beyond_rOnHeap {α : Type} {f : PyM (Heap × List Text) α} {g : PyM Heap α} (hf : Beyond f g) : Beyond (rOnHeap f) (RtuSrv.onHeap g) := by
  intro c log
  obtain ⟨lines, e⟩ := hf c.heap log
  exact ⟨lines, by simp only [rOnHeap, RtuSrv.onHeap, e]⟩

theorem beyond_a_line {τ : Type} {lg : Logger} (hc : lg.Calm) (L : Text) : Beyond (τ := τ) (logLine lg L) (pure ()) := by
  intro t log
  exact ⟨[L], by simp only [logLine_apply, hc log L]; rfl⟩

theorem beyond_rtuAnswer {L : RtuLog} (hc : L.lg.Calm) (R : Registry) (db : Databank) (request : Bytes) : Beyond (lRtuAnswer L R db request) (rtuAnswer R db request) := by
  refine beyond_bind (beyond_lift _) (fun rv => beyond_bind (beyond_rOnHeap (fun h log => C96_calm L.verbose L.lg hc L.txt R rtuMac db _ h log)) (fun resp => beyond_bind (beyond_lift _) (fun rv' => ?_)))
  dsimp only
  generalize (if rv'.isSome then rv' else resp) = response
  have last : Beyond (τ := RtuSrv) (do let _ ← PyM.lift (callHooks R "modbus_rtu.RtuServer.after_write" (msgArg response)); return ())
      (do let _ ← PyM.lift (callHooks R "modbus_rtu.RtuServer.after_write" (msgArg response)); return ()) := beyond_bind (beyond_lift _) (fun _ => beyond_pure _)
  rcases response with _ | _ | ⟨b, bs⟩
  · exact last
  · exact last
  · refine beyond_bind (beyond_unlogged _) (fun w => ?_)
    by_cases hw : w > 0
    · rw [if_pos hw, if_pos hw]
      exact beyond_line hc _ last
    · rw [if_neg hw, if_neg hw]
      exact beyond_bind (beyond_unlogged _) (fun _ => beyond_bind (beyond_unlogged _) (fun _ => last))

theorem beyond_rtuBody {L : RtuLog} (hc : L.lg.Calm) (R : Registry) (db : Databank) : Beyond (lRtuBody L R db) (rtuBody R db) := by
  refine beyond_bind (beyond_unlogged _) (fun request => ?_)
  intro s log
  have : Beyond (do
      let request ← unlogged (RtuSrv.onPort (rtuRest (s.port.total + 1) request))
      if request = [] then return () else lRtuAnswer L R db request) (do
      let request ← RtuSrv.onPort (rtuRest (s.port.total + 1) request)
      if request = [] then return () else rtuAnswer R db request) := by
    refine beyond_bind (beyond_unlogged _) (fun request => ?_)
    by_cases hr : request = []
    · rw [if_pos hr, if_pos hr]; exact beyond_pure _
    · rw [if_neg hr, if_neg hr]; exact beyond_rtuAnswer hc R db request
  exact this s log

theorem beyond_rtuRun {L : RtuLog} (hc : L.lg.Calm) (R : Registry) (db : Databank) : Beyond (lRtuRun L R db) (rtuRun R db) :=
  beyond_try (beyond_rtuBody hc R db) (fun _ => beyond_line hc _ (beyond_bind (beyond_lift _) (fun _ => beyond_pure _)))

theorem beyond_rtuRuns {L : RtuLog} (hc : L.lg.Calm) (R : Registry) (db : Databank) (n : Nat) : Beyond (lRtuRuns L R db n) (rtuRuns R db n) := by
  induction n with
  | zero => exact beyond_pure _
  | succ n ih => exact beyond_bind (beyond_rtuRun hc R db) (fun _ => ih)

/-- **C98.** As long as its lines can be written the log of an RTU server changes nothing, whatever arrives and whatever hook functions. -/
theorem C98_calm (L : RtuLog) (hc : L.lg.Calm) (R : Registry) (db : Databank) (n : Nat) (s : RtuSrv) (log : List Text) :
    (∃ lines, lRtuRuns L R db n (s, log) = ((rtuRuns R db n s).1, ((rtuRuns R db n s).2, log ++ lines))) ∧
    ∃ lines, lRunRtu L R db n (s, log) = ((runRtu R db n s).1, ((runRtu R db n s).2, log ++ lines)) := by
  refine ⟨beyond_rtuRuns hc R db n s log, ?_⟩
  exact beyond_try (beyond_bind (beyond_unlogged _) (fun _ => beyond_bind (beyond_rtuRuns hc R db n) (fun _ => beyond_line hc _ (beyond_unlogged _))))
    (fun e => beyond_line hc _ (beyond_bind (beyond_lift _) (fun _ => beyond_pure _))) s log

/-- **C98.** If the line about a request that went wrong can be written, the server survives the loss of all others: no round raises, whatever arrives. -/
theorem C98_survives (L : RtuLog) (hw : ∀ log e, L.lg log (L.failed e) = none) (R : Registry) (hR : Quiet R) (db : Databank) (n : Nat) (s : RtuSrv) (log : List Text) :
    (lRtuRuns L R db n (s, log)).1 = .ok () := by
  have hq : ∀ n a, callHooks R n a = .ok none := hR
  have run : ∀ s log, (lRtuRun L R db (s, log)).1 = .ok () := by
    intro s log
    unfold lRtuRun PyM.tryExcept
    rcases lRtuBody L R db (s, log) with ⟨e | u, s1, log1⟩
    · simp only [PyM.bind_apply, PyM.lift_apply, logLine_apply, hw log1 e, hq]
      rfl
    · rfl
  induction n generalizing s log with
  | zero => rfl
  | succ n ih =>
    rw [lRtuRuns]
    simp only [PyM.bind_apply]
    have := run s log
    rcases hr : lRtuRun L R db (s, log) with ⟨e | u, s1, log1⟩
    · rw [hr] at this; cases this
    · exact ih s1 log1

/-- `Server._handle` without verbose dumps and hook functions is `Databank.handle_request` -/
theorem lServerHandle_plain (lg : Logger) (txt : PyErr → Text) (R : Registry) (hR : Quiet R) (mac : Mac) (db : Databank) (request : Bytes) (s : Heap × List Text) :
    lServerHandle false lg txt R mac db request s = lDbHandle lg txt R mac db request s := by
  have hq : ∀ n a, callHooks R n a = .ok none := hR
  have hrep : ∀ x : Option Bytes, replaceIfTruthy none x = x := fun _ => rfl
  unfold lServerHandle
  simp only [Bool.false_eq_true, if_false]
  simp only [PyM.bind_apply, PyM.lift_apply, hq, hrep, Option.getD_some]
  rcases lDbHandle lg txt R mac db request s with ⟨e | resp, s'⟩
  · rfl
  · rcases resp with _ | _ | ⟨b, bs⟩ <;> rfl

/-- **C98.** A request to one slave has exactly its effect on the memory, whatever lines cannot be written (without verbose dumps and hook functions). -/
theorem C98_memory (L : RtuLog) (hv : L.verbose = false) (R : Registry) (hR : Quiet R) (db : Databank) (request : Bytes) (s : RtuSrv) (log : List Text)
    (hone : ∀ sid pdu q, rtuMac.parseRequest request rtuMac.new = (.ok (sid, pdu), q) → sid ≠ 0) :
    (lRtuAnswer L R db request (s, log)).2.1.heap = (dbHandle R rtuMac db request s.heap).2 ∧ (rtuAnswer R db request s).2.heap = (dbHandle R rtuMac db request s.heap).2 := by
  have hq : ∀ n a, callHooks R n a = .ok none := hR
  have hm := C96_memory L.lg L.txt R rtuMac db request s.heap log hone
  constructor
  · unfold lRtuAnswer
    simp only [PyM.bind_apply, PyM.lift_apply, hq, rOnHeap, Option.getD_none, hv, lServerHandle_plain _ _ R hR]
    rcases hd : lDbHandle L.lg L.txt R rtuMac db request (s.heap, log) with ⟨_ | resp, h1, l1⟩
    · rw [hd] at hm; exact hm
    · rw [hd] at hm
      subst hm
      dsimp only
      simp only [Option.isSome_none, Bool.false_eq_true, if_false]
      rcases resp with _ | _ | ⟨b, bs⟩
      · rfl
      · rfl
      · simp only [PyM.bind_apply, unlogged_apply, RtuSrv.onPort]
        rcases portInWaiting s.port with ⟨_ | w, p⟩
        · rfl
        · dsimp only
          by_cases hw : w > 0
          · simp only [if_pos hw, PyM.bind_apply, logLine_apply]
            cases L.lg l1 pendingLine <;> rfl
          · simp only [if_neg hw, PyM.bind_apply, unlogged_apply, RtuSrv.onPort]
            rcases portWrite (b :: bs) p with ⟨_ | w, p1⟩
            · rfl
            · dsimp only
              rcases portCheck p1 with ⟨_ | w, p2⟩ <;> rfl
  · unfold rtuAnswer
    simp only [PyM.bind_apply, PyM.lift_apply, hq, RtuSrv.onHeap, Option.getD_none, serverHandle_quiet hR]
    rcases hd : dbHandle R rtuMac db request s.heap with ⟨_ | resp, h1⟩
    · rfl
    · dsimp only
      simp only [Option.isSome_none, Bool.false_eq_true, if_false]
      rcases resp with _ | _ | ⟨b, bs⟩
      · rfl
      · rfl
      · simp only [PyM.bind_apply, RtuSrv.onPort]
        rcases portInWaiting s.port with ⟨_ | w, p⟩
        · rfl
        · dsimp only
          by_cases hw : w > 0
          · simp only [if_pos hw]; rfl
          · simp only [if_neg hw, PyM.bind_apply, RtuSrv.onPort]
            rcases portWrite (b :: bs) p with ⟨_ | w, p1⟩
            · rfl
            · dsimp only
              rcases portCheck p1 with ⟨_ | w, p2⟩ <;> rfl

/-- **C98.** The lines for a request whose response is `r`: those of handling it (`C96`) and, if another request has begun to arrive, one warning — then and only then nothing is written on the
    line.  A handler that cannot take the warning raises into the round. -/
theorem C98_reply_lines (L : RtuLog) (hv : L.verbose = false) (R : Registry) (hR : Quiet R) (db : Databank) (request r : Bytes) (s : RtuSrv) (log log1 : List Text) (h1 : Heap) (w : Nat) (p : Port)
    (hd : lDbHandle L.lg L.txt R rtuMac db request (s.heap, log) = (.ok (some r), (h1, log1))) (hr : r ≠ []) (hp : portInWaiting s.port = (.ok w, p)) :
    (w = 0 → lRtuAnswer L R db request (s, log) = (.ok (), ({ s with heap := h1, port := { p with written := p.written ++ [r] } }, log1))) ∧
    (w ≠ 0 → L.lg log1 "Not sending response because there is new request pending".toList = none →
      lRtuAnswer L R db request (s, log) = (.ok (), ({ s with heap := h1, port := p }, log1 ++ ["Not sending response because there is new request pending".toList]))) ∧
    (∀ x, w ≠ 0 → L.lg log1 "Not sending response because there is new request pending".toList = some x →
      lRtuAnswer L R db request (s, log) = (.error x, ({ s with heap := h1, port := p }, log1))) := by
  have hq : ∀ n a, callHooks R n a = .ok none := hR
  have hopen : p.isOpen = true := by
    unfold portInWaiting at hp
    split at hp
    · cases hp
    · next ho =>
      cases hp
      show (Port.arriveN (s.port.sched.headD 0) s.port).isOpen = true
      rw [arriveN_rest]
      simpa using ho
  have start : lRtuAnswer L R db request (s, log) = (do
      (if w > 0 then logLine L.lg pendingLine else do
        unlogged (RtuSrv.onPort (portWrite r))
        unlogged (RtuSrv.onPort portCheck) : PyM (RtuSrv × List Text) Unit)
      return ()) ({ s with heap := h1, port := p }, log1) := by
    unfold lRtuAnswer
    simp only [PyM.bind_apply, PyM.lift_apply, hq, rOnHeap, Option.getD_none, hv, lServerHandle_plain _ _ R hR, hd, Option.isSome_none, Bool.false_eq_true, if_false]
    rcases r with _ | ⟨b, bs⟩
    · exact absurd rfl hr
    · simp only [PyM.bind_apply, unlogged_apply, RtuSrv.onPort, hp]
      by_cases hw : w > 0
      · simp only [if_pos hw, PyM.bind_apply, logLine_apply]
        cases L.lg log1 pendingLine <;> rfl
      · simp only [if_neg hw, PyM.bind_apply, unlogged_apply, RtuSrv.onPort]
        rcases portWrite (b :: bs) p with ⟨_ | w, p1⟩
        · rfl
        · dsimp only
          rcases portCheck p1 with ⟨_ | w, p2⟩ <;> rfl
  unfold pendingLine at start
  generalize "Not sending response because there is new request pending".toList = line at start ⊢
  refine ⟨fun hw => ?_, fun hw hl => ?_, fun x hw hl => ?_⟩
  · rw [start, if_neg (by omega)]
    simp only [PyM.bind_apply, unlogged_apply, RtuSrv.onPort, portWrite, portCheck, hopen, not_true_eq_false, if_false]
    rfl
  · rw [start, if_pos (by omega)]
    simp only [PyM.bind_apply, logLine_apply, hl]
    rfl
  · rw [start, if_pos (by omega)]
    simp only [PyM.bind_apply, logLine_apply, hl]

/-- **C98.** A round that goes wrong writes one line, before the hook is told. -/
theorem C98_error_line (L : RtuLog) (R : Registry) (db : Databank) (s s1 : RtuSrv) (log log1 : List Text) (e : PyErr) (hb : lRtuBody L R db (s, log) = (.error e, (s1, log1)))
    (hl : L.lg log1 ("Error while handling request, Exception occurred: ".toList ++ L.txt e) = none) :
    lRtuRun L R db (s, log) =
      ((callHooks R "modbus_rtu.RtuServer.on_error" (.exc e [])).map (fun _ => ()), (s1, log1 ++ ["Error while handling request, Exception occurred: ".toList ++ L.txt e])) := by
  unfold lRtuRun PyM.tryExcept RtuLog.failed
  rw [hb]
  dsimp only
  generalize "Error while handling request, Exception occurred: ".toList ++ L.txt e = line at hl ⊢
  simp only [PyM.bind_apply, PyM.lift_apply, logLine_apply, hl]
  cases callHooks R "modbus_rtu.RtuServer.on_error" (.exc e []) <;> rfl

/-- **C98.** A round in which nothing goes wrong writes no such line. -/
theorem C98_fine (L : RtuLog) (R : Registry) (db : Databank) (s : RtuSrv) (log : List Text) (hb : (lRtuBody L R db (s, log)).1 = .ok ()) :
    lRtuRun L R db (s, log) = lRtuBody L R db (s, log) := by
  unfold lRtuRun PyM.tryExcept
  rcases hx : lRtuBody L R db (s, log) with ⟨e | u, t⟩
  · rw [hx] at hb; cases hb
  · rfl

/-- **C98 is false of the error line.** If the line about a request that went wrong cannot be written, the exception of the log leaves the round, whatever hook functions: the hook is not told. -/
theorem C98_false_round (L : RtuLog) (R : Registry) (db : Databank) (s s1 : RtuSrv) (log log1 : List Text) (e x : PyErr) (hb : lRtuBody L R db (s, log) = (.error e, (s1, log1)))
    (hl : L.lg log1 ("Error while handling request, Exception occurred: ".toList ++ L.txt e) = some x) (n : Nat) :
    lRtuRuns L R db (n + 1) (s, log) = (.error x, (s1, log1)) := by
  rw [lRtuRuns]
  have : lRtuRun L R db (s, log) = (.error x, (s1, log1)) := by
    unfold lRtuRun PyM.tryExcept RtuLog.failed
    rw [hb]
    dsimp only
    generalize "Error while handling request, Exception occurred: ".toList ++ L.txt e = line at hl ⊢
    simp only [PyM.bind_apply, logLine_apply, hl]
  simp only [PyM.bind_apply, this]

/-- **C98.** A thread that is stopped writes one line and closes its port (without hook functions). -/
theorem C98_stop_line (L : RtuLog) (R : Registry) (hR : Quiet R) (db : Databank) (n : Nat) (s s1 : RtuSrv) (log log1 : List Text)
    (h1 : (do unlogged (rtuInit R); lRtuRuns L R db n : PyM (RtuSrv × List Text) Unit) (s, log) = (.ok (), (s1, log1)))
    (hl : L.lg log1 "<class 'modbus_tk.modbus_rtu.RtuServer'> has stopped".toList = none) :
    lRunRtu L R db n (s, log) = (.ok (), ({ s1 with port := { s1.port with isOpen := false } }, log1 ++ ["<class 'modbus_tk.modbus_rtu.RtuServer'> has stopped".toList])) := by
  have hq : ∀ n a, callHooks R n a = .ok none := hR
  have hexit : rtuExit R s1 = (.ok (), { s1 with port := { s1.port with isOpen := false } }) := by
    unfold rtuExit
    by_cases ho : s1.port.isOpen
    · rw [if_pos ho]
      simp only [PyM.bind_apply, PyM.lift_apply, hq, RtuSrv.onPort, portClose]
      rfl
    · rw [if_neg ho]
      rcases s1 with ⟨h, ⟨⟩, t, b⟩
      simp at ho
      subst ho
      rfl
  unfold lRunRtu PyM.tryExcept rtuStopped
  generalize "<class 'modbus_tk.modbus_rtu.RtuServer'> has stopped".toList = line at hl ⊢
  simp only [PyM.bind_apply, unlogged_apply] at h1 ⊢
  rcases hin : rtuInit R s with ⟨y | u, t⟩
  · rw [hin] at h1; cases h1
  · rw [hin] at h1
    dsimp only at h1 ⊢
    rw [h1]
    simp only [logLine_apply, hl, unlogged_apply, hexit]

/-- **C98 is false of the line `has stopped`.** If it cannot be written the port stays as it is — open —, although the thread has ended. -/
theorem C98_false_stop (L : RtuLog) (R : Registry) (db : Databank) (n : Nat) (s s1 : RtuSrv) (log log1 : List Text) (x : PyErr)
    (h1 : (do unlogged (rtuInit R); lRtuRuns L R db n : PyM (RtuSrv × List Text) Unit) (s, log) = (.ok (), (s1, log1)))
    (hl : L.lg log1 "<class 'modbus_tk.modbus_rtu.RtuServer'> has stopped".toList = some x) :
    (lRunRtu L R db n (s, log)).2.1 = s1 := by
  unfold lRunRtu PyM.tryExcept rtuStopped
  generalize "<class 'modbus_tk.modbus_rtu.RtuServer'> has stopped".toList = line at hl ⊢
  simp only [PyM.bind_apply, unlogged_apply] at h1 ⊢
  rcases hin : rtuInit R s with ⟨y | u, t⟩
  · rw [hin] at h1; cases h1
  · rw [hin] at h1
    dsimp only at h1 ⊢
    rw [h1]
    simp only [logLine_apply, hl]
    cases L.lg log1 (L.ended x) with
    | some y => rfl
    | none =>
      simp only [PyM.lift_apply]
      cases callHooks R "modbus.Server.on_exception" (.exc x []) <;> rfl

/-- **C98.** A thread that ends with an exception — the port could not be opened, a round could not be logged — writes one line and leaves the port as it is; the server can be started again unless the
    hook raises.  **False** if that line cannot be written either: the exception of the log leaves `_run_server`, there is no new thread. -/
theorem C98_end_line (L : RtuLog) (R : Registry) (db : Databank) (n : Nat) (s s1 : RtuSrv) (log log1 : List Text) (e : PyErr)
    (h1 : (do unlogged (rtuInit R); lRtuRuns L R db n : PyM (RtuSrv × List Text) Unit) (s, log) = (.error e, (s1, log1))) :
    (L.lg log1 ("server error: ".toList ++ L.txt e) = none → lRunRtu L R db n (s, log) =
      ((callHooks R "modbus.Server.on_exception" (.exc e [])).map (fun _ => ()), (s1, log1 ++ ["server error: ".toList ++ L.txt e]))) ∧
    (∀ x, L.lg log1 ("server error: ".toList ++ L.txt e) = some x → lRunRtu L R db n (s, log) = (.error x, (s1, log1))) := by
  have fin : lRunRtu L R db n (s, log) = (do
      logLine L.lg (L.ended e)
      let _ ← PyM.lift (callHooks R "modbus.Server.on_exception" (.exc e []))
      return () : PyM (RtuSrv × List Text) Unit) (s1, log1) := by
    unfold lRunRtu PyM.tryExcept
    simp only [PyM.bind_apply, unlogged_apply] at h1 ⊢
    rcases hin : rtuInit R s with ⟨y | u, t⟩
    · rw [hin] at h1
      cases h1
      rfl
    · rw [hin] at h1
      dsimp only at h1 ⊢
      rw [h1]
  rw [fin]
  unfold RtuLog.ended
  generalize "server error: ".toList ++ L.txt e = line
  simp only [PyM.bind_apply, PyM.lift_apply, logLine_apply]
  constructor
  · intro hl
    simp only [hl]
    cases callHooks R "modbus.Server.on_exception" (.exc e []) <;> rfl
  · intro x hl
    simp only [hl]

/-! ## Instances -/

/-- the log of the examples, with a handler that cannot write lines with a given start -/
def exRtuLog (t : Text) (verbose : Bool := false) : RtuLog := ⟨failsAt t, exText, verbose⟩

-- the whole log of the server of `exRtuSrv`
example : (lRunRtu ⟨fun _ _ => none, exText, true⟩ [] exTwo.st.db 10 (exRtuSrv, [])).2.2 =
    ["-->1-6-0-11-0-7-185-202".toList, "<--1-6-0-11-0-7-185-202".toList, "-->1-3-0-11-0-1-245-201".toList, "invalid request: ?".toList,
     "-->1-3-0-11-0-1-245-200".toList, "<--1-3-2-0-7-249-134".toList, "<class 'modbus_tk.modbus_rtu.RtuServer'> has stopped".toList] := by decide +kernel

-- the hypotheses of `C98_survives`: the log cannot take the lines of requests that go wrong, but that of the round
example : ∀ log e, (exRtuLog "invalid".toList).lg log ((exRtuLog "invalid".toList).failed e) = none := fun _ _ => rfl
-- the server goes on: the last request is answered although the request with the wrong CRC could not be logged
example : (lRtuRuns (exRtuLog "invalid".toList) [] exTwo.st.db 10 (exRtuSrv, [])).2.1.port.written = [[1, 6, 0, 11, 0, 7, 185, 202], [1, 3, 2, 0, 7, 249, 134]] ∧
    (lRtuRuns (exRtuLog "invalid".toList) [] exTwo.st.db 10 (exRtuSrv, [])).2.2 = ["Error while handling request, Exception occurred: ?".toList] := by decide +kernel

/-- a request, and the beginning of the next one while it is handled -/
def exPending : RtuSrv := exRtuOn [2] [.chunk [1, 6, 0, 11, 0, 7, 185, 202], .silence, .silence, .chunk [1, 3], .chunk [0, 11, 0, 1, 245, 200]]
-- the warning
example : (lRtuRuns ⟨fun _ _ => none, exText, false⟩ [] exTwo.st.db 2 (exPending, [])).2.2 = [pendingLine] := by decide +kernel
-- and if it cannot be written: the line of the round; the next request is served
example : (lRtuRuns (exRtuLog "Not".toList) [] exTwo.st.db 2 (exPending, [])).2.2 = ["Error while handling request, Exception occurred: ?".toList] ∧
    (lRtuRuns (exRtuLog "Not".toList) [] exTwo.st.db 2 (exPending, [])).2.1.port.written = [[1, 3, 2, 0, 7, 249, 134]] := by decide +kernel

-- the hypotheses of `C98_memory` and `C98_reply_lines`
example : (rtuMac.parseRequest [1, 6, 0, 11, 0, 7, 185, 202] rtuMac.new).1 = .ok (1, [6, 0, 11, 0, 7]) := by decide +kernel
example : (lDbHandle (exRtuLog "x".toList).lg exText [] rtuMac exTwo.st.db [1, 6, 0, 11, 0, 7, 185, 202] (exPending.heap, [])).1 = .ok (some [1, 6, 0, 11, 0, 7, 185, 202]) := by decide +kernel
example : (portInWaiting { exRtuSrv.port with buf := [1] }).1 = .ok 1 ∧ (portInWaiting exRtuSrv.port).1 = .ok 0 := by decide

/-- **C98 is false of a full disk.** After the request with the wrong CRC nothing can be logged any more: the thread ends, the last request is not answered, the port stays open and the server cannot be
    started again. -/
theorem C98_false_full : ∃ (L : RtuLog) (n : Nat) (s : RtuSrv), L.lg.Foreign ∧
    (runRtu [] exTwo.st.db n s).1 = .ok () ∧ (runRtu [] exTwo.st.db n s).2.port.written = [[1, 6, 0, 11, 0, 7, 185, 202], [1, 3, 2, 0, 7, 249, 134]] ∧
    (runRtu [] exTwo.st.db n s).2.port.isOpen = false ∧
    (lRunRtu L [] exTwo.st.db n (s, [])).1 = .error .osError ∧ (lRunRtu L [] exTwo.st.db n (s, [])).2.1.port.written = [[1, 6, 0, 11, 0, 7, 185, 202]] ∧
    (lRunRtu L [] exTwo.st.db n (s, [])).2.1.port.isOpen = true := by
  refine ⟨⟨failsAfter 0, exText, false⟩, 10, exRtuSrv, ?_, ?_, ?_, ?_, ?_, ?_, ?_⟩
  · intro log line e he
    replace he : (if 0 ≤ log.length then some PyErr.osError else none) = some e := he
    rw [if_pos (Nat.zero_le _)] at he
    cases he; exact ⟨fun c => PyErr.noConfusion, PyErr.noConfusion, PyErr.noConfusion⟩
  all_goals decide +kernel

-- the hypotheses of `C98_error_line`, `C98_false_round`: a port that is closed while the request is handled
example : (lRtuBody (exRtuLog "x".toList) [] exTwo.st.db ({ exRtuSrv with port := { exRtuSrv.port with isOpen := false, opens := [false] } }, [])).1 = .error .osError := by decide +kernel
-- `C98_stop_line`, `C98_false_stop`: the server of `exRtuSrv` is stopped, with its port open
example : ((do unlogged (rtuInit []); lRtuRuns (exRtuLog "<".toList) [] exTwo.st.db 10 : PyM (RtuSrv × List Text) Unit) (exRtuSrv, [])).1 = .ok () := by decide +kernel
example : (lRunRtu (exRtuLog "<".toList) [] exTwo.st.db 10 (exRtuSrv, [])).2.1.port.isOpen = true ∧ (lRunRtu (exRtuLog "x".toList) [] exTwo.st.db 10 (exRtuSrv, [])).2.1.port.isOpen = false := by
  decide +kernel
-- `C98_end_line`: a port that cannot be opened
example : (lRunRtu (exRtuLog "x".toList) [] exTwo.st.db 10 ({ exRtuSrv with port := { exRtuSrv.port with isOpen := false, opens := [false] } }, [])).2.2 = ["server error: ?".toList] := by
  decide +kernel
example : (lRunRtu (exRtuLog "server".toList) [] exTwo.st.db 10 ({ exRtuSrv with port := { exRtuSrv.port with isOpen := false, opens := [false] } }, [])).1 = .error .osError := by
  decide +kernel

end Modbus
