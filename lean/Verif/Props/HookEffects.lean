import Verif.Lemmas.HookCongr
import Verif.Props.EndToEnd
import Verif.Lemmas.TcpServer
/-
# Properties C45, C46: hooks that watch, hooks that replace messages
-/
namespace Modbus

/-! ## C45: hooks that only watch -/

/-- Every installed function returns None and does not raise. -/
def Observers (R : Registry) : Prop := ∀ name fs, (name, fs) ∈ R → ∀ f ∈ fs, ∀ a, f.fn a = .ok none

theorem observers_quiet {R : Registry} (h : Observers R) : callHooks R = callHooks [] := by
  funext name a
  unfold callHooks
  cases hg : Dict.get? R name with
  | none => rfl
  | some fs =>
    have hmem := h name fs (get?_mem hg)
    have : ∀ fs : List Hook, (∀ f ∈ fs, ∀ a, f.fn a = .ok none) → callLoop fs a = .ok none := by
      intro fs
      induction fs with
      | nil => intro _; rfl
      | cons f fs ih =>
        intro hf
        rw [callLoop, hf f (List.mem_cons_self ..) a]
        exact ih fun f hm => hf f (List.mem_cons_of_mem _ hm)
    simp only [this fs hmem]
    rfl

/-- **C45.** With functions that only watch, a slave answers and stores exactly what it does without hooks. -/
theorem C45_slave {R : Registry} (h : Observers R) (sl : Slave) (pdu : Bytes) (broadcast : Bool) (mem : Heap) :
    handleRequest R sl pdu broadcast mem = handleRequest [] sl pdu broadcast mem := by
  rw [handleRequest_congr (observers_quiet h)]

/-- **C45.** ... also `set_values` -/
theorem C45_set_values {R : Registry} (h : Observers R) (name : String) (address : Int) (v : Values) (sl : Slave) (mem : Heap) :
    setValues R name address v sl mem = setValues [] name address v sl mem := by
  rw [setValues_congr (observers_quiet h)]

/-- **C45.** ... the databank and the server's request handling, on all slaves -/
theorem C45_server {R : Registry} (h : Observers R) (mac : Mac) (db : Databank) (request : Bytes) (mem : Heap) :
    dbHandle R mac db request mem = dbHandle [] mac db request mem ∧
    serverHandle R mac db request mem = serverHandle [] mac db request mem := by
  rw [dbHandle_congr (observers_quiet h), serverHandle_congr (observers_quiet h)]
  exact ⟨rfl, rfl⟩

/-- **C45.** ... `execute` of a master, over any link -/
theorem C45_master {R : Registry} (h : Observers R) (mac : Mac) {σ : Type} (ch : Chan σ) (a : ExecArgs) (s : MasterSt σ) :
    execute R mac ch a s = execute [] mac ch a s := by
  rw [execute_congr (observers_quiet h)]

/-- **C45.** ... the links themselves: TCP, serial, RTU over TCP -/
theorem C45_transports {R : Registry} (h : Observers R) (cfg : RtuCfg) :
    tcpChan R = tcpChan [] ∧ rtuChan R cfg = rtuChan [] cfg ∧ rtuOverTcpChan R = rtuOverTcpChan [] := by
  rw [tcpChan_congr (observers_quiet h), rtuChan_congr (observers_quiet h), rtuOverTcpChan_congr (observers_quiet h)]
  exact ⟨rfl, rfl, rfl⟩

/-- **C45.** ... and whole runs of the TCP server with any clients, and of the serial server -/
theorem C45_servers {R : Registry} (h : Observers R) (db : Databank) (rounds : List Round) (s : Srv) (n : Nat) (t : RtuSrv) :
    srvRounds R db rounds s = srvRounds [] db rounds s ∧ rtuRuns R db n t = rtuRuns [] db n t := by
  rw [srvRounds_congr (observers_quiet h), rtuRuns_congr (observers_quiet h)]
  exact ⟨rfl, rfl⟩

/-! ## C46: hooks that replace messages -/

/-- The functions under `nameBefore` answer `f`, those under `nameAfter` answer `g` (None: keep the message), no other function
    answers anything. -/
structure Replaces (R : Registry) (nameBefore nameAfter : String) (f g : Bytes → Option Bytes) : Prop where
  before : ∀ m, callHooks R nameBefore (.msg m) = .ok (f m)
  after : ∀ m, callHooks R nameAfter (.msg m) = .ok (g m)
  others : ∀ n a, n ≠ nameBefore → n ≠ nameAfter → callHooks R n a = .ok none

/-- a link on which the messages sent are replaced by `f` and those received by `g` -/
def Chan.replacing {σ : Type} (f g : Bytes → Option Bytes) (ch : Chan σ) : Chan σ where
  doOpen := ch.doOpen
  doClose := ch.doClose
  send := fun m => ch.send ((f m).getD m)
  recv := fun n => do
    let m ← ch.recv n
    return (g m).getD m

/-- **C46.** `modbus.Master.before_send` and `modbus.Master.after_recv`: `execute` does what it does without hooks on a link that
    replaces the request by the first and the response by the second. -/
theorem C46_master {R : Registry} {f g : Bytes → Option Bytes} (h : Replaces R "modbus.Master.before_send" "modbus.Master.after_recv" f g)
    (mac : Mac) {σ : Type} (ch : Chan σ) (a : ExecArgs) (s : MasterSt σ) :
    execute R mac ch a s = execute [] mac (ch.replacing f g) a s := by
  have h3 : callHooks R "modbus.Master.after_send" .obj = .ok none := h.others _ _ (by decide) (by decide)
  have h0 : ∀ n a, callHooks [] n a = .ok none := fun _ _ => rfl
  have hopen : masterOpen (ch.replacing f g) = masterOpen ch := rfl
  simp only [execute, PyM.bind_apply, hopen]
  cases hs : masterOpen ch s with
  | mk r s1 =>
    cases r with
    | error e => rfl
    | ok u =>
      simp only [PyM.lift_apply]
      cases hp : prepare a with
      | error e => rfl
      | ok p =>
        simp only
        cases a.slave with
        | none => rfl
        | some slave =>
          simp only [PyM.bind_apply]
          cases hb : buildRequest mac p.pdu slave s1 with
          | mk r s2 =>
            cases r with
            | error e => rfl
            | ok rq =>
              obtain ⟨request, q⟩ := rq
              simp only [PyM.lift_apply, h.before, h0, h3, Option.getD_none]
              have hsend : onLink ((ch.replacing f g).send request) = onLink (ch.send ((f request).getD request)) := rfl
              rw [hsend]
              cases hsd : onLink (ch.send ((f request).getD request)) s2 with
              | mk r s3 =>
                cases r with
                | error e => rfl
                | ok u =>
                  simp only [onLink, Chan.replacing, PyM.bind_apply]
                  cases hrc : ch.recv p.expectedLength s3.link with
                  | mk r l =>
                    cases r with
                    | error e => rfl
                    | ok m => simp only [PyM.pure_apply, h.after, h0]

/-- **C46.** `modbus_tcp.TcpMaster.before_send` and `after_recv`: the same at the level of the TCP link. -/
theorem C46_tcp_master {R : Registry} {f g : Bytes → Option Bytes}
    (h : Replaces R "modbus_tcp.TcpMaster.before_send" "modbus_tcp.TcpMaster.after_recv" f g) :
    tcpChan R = (tcpChan []).replacing f g := by
  have h0 : ∀ n a, callHooks [] n a = .ok none := fun _ _ => rfl
  have ho := fun n a h1 h2 => h.others n a h1 h2
  have e1 : tcpDoOpen R = tcpDoOpen [] := by
    funext s
    simp only [tcpDoOpen, ho "modbus_tcp.TcpMaster.before_connect" .obj (by decide) (by decide),
      ho "modbus_tcp.TcpMaster.after_connect" .obj (by decide) (by decide), h0]
  have e2 : tcpDoClose R = tcpDoClose [] := by
    funext s
    simp only [tcpDoClose, ho "modbus_tcp.TcpMaster.before_close" .obj (by decide) (by decide),
      ho "modbus_tcp.TcpMaster.after_close" .obj (by decide) (by decide), h0]
  have e3 : tcpSend R = fun m => tcpSend [] ((f m).getD m) := by
    funext m s
    simp only [tcpSend, PyM.bind_apply, PyM.lift_apply, h.before, h0, e1, Option.getD_none]
  have e4 : tcpRecv R = fun n => do let m ← tcpRecv [] n; return (g m).getD m := by
    funext n s
    simp only [tcpRecv, PyM.bind_apply, PyM.lift_apply, h0, Option.getD_none]
    cases onSock (tcpRecvLoop 65542 [] 255) s with
    | mk r l => cases r with
      | error e => rfl
      | ok m => simp only [h.after, PyM.pure_apply]
  simp only [tcpChan, Chan.replacing, e1, e2, e3, e4]

/-- **C46.** `modbus_rtu.RtuMaster.before_send` and `after_recv`: the same for the serial link. -/
theorem C46_rtu_master {R : Registry} {f g : Bytes → Option Bytes} (cfg : RtuCfg)
    (h : Replaces R "modbus_rtu.RtuMaster.before_send" "modbus_rtu.RtuMaster.after_recv" f g) :
    rtuChan R cfg = (rtuChan [] cfg).replacing f g := by
  have h0 : ∀ n a, callHooks [] n a = .ok none := fun _ _ => rfl
  have ho := fun n a h1 h2 => h.others n a h1 h2
  have e1 : rtuDoOpen R = rtuDoOpen [] := by
    funext s
    simp only [rtuDoOpen, ho "modbus_rtu.RtuMaster.before_open" .obj (by decide) (by decide), h0]
  have e2 : rtuDoClose R = rtuDoClose [] := by
    funext s
    simp only [rtuDoClose, ho "modbus_rtu.RtuMaster.after_close" .obj (by decide) (by decide), h0]
  have e3 : rtuSend R cfg = fun m => rtuSend [] cfg ((f m).getD m) := by
    funext m s
    simp only [rtuSend, PyM.bind_apply, PyM.lift_apply, h.before, h0, Option.getD_none]
  have e4 : rtuRecv R cfg = fun n => do let m ← rtuRecv [] cfg n; return (g m).getD m := by
    funext n s
    simp only [rtuRecv, PyM.bind_apply, PyM.lift_apply, PyM.get_apply, h0, Option.getD_none]
    cases rtuRecvLoop cfg n (s.total + 1) [] 0 s with
    | mk r l => cases r with
      | error e => rfl
      | ok m => simp only [h.after, PyM.pure_apply]
  simp only [rtuChan, Chan.replacing, e1, e2, e3, e4]

/-- **C46.** `RtuOverTcpMaster`: the request hook is that of `TcpMaster`, the response hook its own. -/
theorem C46_rtu_over_tcp_master {R : Registry} {f g : Bytes → Option Bytes}
    (h : Replaces R "modbus_tcp.TcpMaster.before_send" "modbus_rtu_over_tcp.RtuOverTcpMaster.after_recv" f g) :
    rtuOverTcpChan R = (rtuOverTcpChan []).replacing f g := by
  have h0 : ∀ n a, callHooks [] n a = .ok none := fun _ _ => rfl
  have ho := fun n a h1 h2 => h.others n a h1 h2
  have e1 : tcpDoOpen R = tcpDoOpen [] := by
    funext s
    simp only [tcpDoOpen, ho "modbus_tcp.TcpMaster.before_connect" .obj (by decide) (by decide),
      ho "modbus_tcp.TcpMaster.after_connect" .obj (by decide) (by decide), h0]
  have e2 : tcpDoClose R = tcpDoClose [] := by
    funext s
    simp only [tcpDoClose, ho "modbus_tcp.TcpMaster.before_close" .obj (by decide) (by decide),
      ho "modbus_tcp.TcpMaster.after_close" .obj (by decide) (by decide), h0]
  have e3 : tcpSend R = fun m => tcpSend [] ((f m).getD m) := by
    funext m s
    simp only [tcpSend, PyM.bind_apply, PyM.lift_apply, h.before, h0, e1, Option.getD_none]
  have e4 : rtuOverTcpRecv R = fun n => do let m ← rtuOverTcpRecv [] n; return (g m).getD m := by
    funext n s
    simp only [rtuOverTcpRecv, PyM.bind_apply, PyM.lift_apply, h0, Option.getD_none]
    cases onSock (rtuOverTcpRecvLoop n 256 []) s with
    | mk r l => cases r with
      | error e => rfl
      | ok m => simp only [h.after, PyM.pure_apply]
  simp only [rtuOverTcpChan, Chan.replacing, e1, e2, e3, e4]

/-- **C46.** A value returned by `modbus.Slave.handle_request` is the answer of the slave; the request has no other effect. -/
theorem C46_slave {R : Registry} {pdu v : Bytes} (h : callHooks R "modbus.Slave.handle_request" (.msg pdu) = .ok (some v))
    (sl : Slave) (broadcast : Bool) (mem : Heap) : handleRequest R sl pdu broadcast mem = (.ok v, mem) := by
  simp only [handleRequest, h]; rfl

/-- a non-empty answer replaces the message, None and the empty string do not -/
def orElse (answer : Option Bytes) (m : Bytes) : Bytes :=
  match answer with
  | some (b :: bs) => b :: bs
  | _ => m

/-- **C46.** `modbus.Server.before_handle_request` and `after_handle_request`: the databank sees the request the first one answers
    (an empty answer does not count), the client gets the response the second one answers. -/
theorem C46_server {R : Registry} {f : Bytes → Option Bytes} {g : Option Bytes → Option Bytes}
    (hf : ∀ m, callHooks R "modbus.Server.before_handle_request" (.msg m) = .ok (f m))
    (hg : ∀ m, callHooks R "modbus.Server.after_handle_request" (.msg m) = .ok (g (some m))) (hn : callHooks R "modbus.Server.after_handle_request" .noMsg = .ok (g none))
    (ho : ∀ n a, n ≠ "modbus.Server.before_handle_request" → n ≠ "modbus.Server.after_handle_request" → callHooks R n a = .ok none)
    (mac : Mac) (db : Databank) (request : Bytes) (mem : Heap) :
    serverHandle R mac db request mem =
      let r := dbHandle [] mac db (orElse (f request) request) mem
      (r.1.map fun response => match g response with | some (b :: bs) => some (b :: bs) | _ => response, r.2) := by
  replace hg : ∀ m, callHooks R "modbus.Server.after_handle_request" (msgArg m) = .ok (g m) := by intro m; cases m with | none => exact hn | some m => exact hg m
  have hslave : ∀ sl pdu b, handleRequest R sl pdu b = handleRequest [] sl pdu b := by
    intro sl pdu b
    have h0 : ∀ n a, callHooks [] n a = .ok none := fun _ _ => rfl
    have hn : ∀ n, n ≠ "modbus.Server.before_handle_request" → n ≠ "modbus.Server.after_handle_request" → ∀ a, callHooks R n a = callHooks [] n a :=
      fun n h1 h2 a => ho n a h1 h2
    have h1 : ∀ n, n ≠ "modbus.Server.before_handle_request" → n ≠ "modbus.Server.after_handle_request" → ∀ a, callHook_ R n a = callHook_ [] n a := by
      intro n g1 g2 a; simp only [callHook_, hn n g1 g2]
    have h2 : setItem R = setItem [] := by
      funext b i v s; simp only [setItem, hn "modbus.ModbusBlock.setitem" (by decide) (by decide)]
    have h3 : writeRegsLoop R = writeRegsLoop [] := by
      funext c b off pdu base n
      induction n with
      | zero => rfl
      | succ n ih => funext i count; simp only [writeRegsLoop, h2, ih]
    have h5 : writeCoilsInner R = writeCoilsInner [] := by
      funext b off q bv i js
      induction js with
      | nil => rfl
      | cons j js ih => funext count; simp only [writeCoilsInner, h2, ih]
    have h4 : writeCoilsOuter R = writeCoilsOuter [] := by
      funext c b off q pdu is
      induction is with
      | nil => rfl
      | cons i is ih => funext count; simp only [writeCoilsOuter, h5, ih]
    have e1 : readCoils R = readCoils [] := by funext sl pdu; simp only [readCoils, h1 "modbus.Slave.handle_read_coils_request" (by decide) (by decide)]
    have e2 : readDiscreteInputs R = readDiscreteInputs [] := by
      funext sl pdu; simp only [readDiscreteInputs, h1 "modbus.Slave.handle_read_discrete_inputs_request" (by decide) (by decide)]
    have e3 : readHoldingRegisters R = readHoldingRegisters [] := by
      funext sl pdu; simp only [readHoldingRegisters, h1 "modbus.Slave.handle_read_holding_registers_request" (by decide) (by decide)]
    have e4 : readInputRegisters R = readInputRegisters [] := by
      funext sl pdu; simp only [readInputRegisters, h1 "modbus.Slave.handle_read_input_registers_request" (by decide) (by decide)]
    have e5 : readExceptionStatus R = readExceptionStatus [] := by
      funext sl pdu; simp only [readExceptionStatus, h1 "modbus.Slave.handle_read_exception_status_request" (by decide) (by decide)]
    have e6 : readWriteMultipleRegisters R = readWriteMultipleRegisters [] := by
      funext sl pdu; simp only [readWriteMultipleRegisters, h1 "modbus.Slave.handle_read_write_multiple_registers_request" (by decide) (by decide), h3]
    have e7 : maskWriteRegister R = maskWriteRegister [] := by
      funext sl pdu; simp only [maskWriteRegister, h1 "modbus.Slave.handle_mask_write_register_request" (by decide) (by decide), h2]
    have e8 : writeMultipleRegisters R = writeMultipleRegisters [] := by
      funext sl pdu; simp only [writeMultipleRegisters, h1 "modbus.Slave.handle_write_multiple_registers_request" (by decide) (by decide), h3]
    have e9 : writeMultipleCoils R = writeMultipleCoils [] := by
      funext sl pdu; simp only [writeMultipleCoils, h1 "modbus.Slave.handle_write_multiple_coils_request" (by decide) (by decide), h4]
    have e10 : writeSingleRegister R = writeSingleRegister [] := by
      funext sl pdu; simp only [writeSingleRegister, h1 "modbus.Slave.handle_write_single_register_request" (by decide) (by decide), h2]
    have e11 : writeSingleCoil R = writeSingleCoil [] := by
      funext sl pdu; simp only [writeSingleCoil, h1 "modbus.Slave.handle_write_single_coil_request" (by decide) (by decide), h2]
    have e12 : fnCodeMap R = fnCodeMap [] := by
      funext sl fc; simp only [fnCodeMap, e1, e2, e3, e4, e5, e6, e7, e8, e9, e10, e11]
    have e13 : dispatch R = dispatch [] := by
      funext sl fc pdu b
      simp only [dispatch, e12, h1 "modbus.Slave.on_handle_broadcast" (by decide) (by decide)]
    simp only [handleRequest, e13, hn "modbus.Slave.handle_request" (by decide) (by decide),
      h1 "modbus.Slave.on_exception" (by decide) (by decide)]
  have hdb : dbHandle R = dbHandle [] := by
    funext mac db request
    have e1 : broadcastLoop R = broadcastLoop [] := by
      funext pdu l
      induction l with
      | nil => rfl
      | cons p l ih => obtain ⟨i, sl⟩ := p; simp only [broadcastLoop, hslave, ih]
    have e2 : dbBody R = dbBody [] := by funext mac db q i pdu; simp only [dbBody, e1, hslave]
    have e3 : dbExcept R = dbExcept [] := by
      funext pdu e
      have : callHook_ R "modbus.Databank.on_error" = callHook_ [] "modbus.Databank.on_error" := by
        funext a; simp only [callHook_, ho "modbus.Databank.on_error" a (by decide) (by decide)]; rfl
      cases e <;> simp only [dbExcept, this]
    simp only [dbHandle, e2, e3]
  have hreq : (replaceIfTruthy (f request) (some request)).getD [] = orElse (f request) request := by
    cases f request with
    | none => rfl
    | some v => cases v <;> rfl
  simp only [serverHandle, PyM.bind_apply, PyM.lift_apply, hf, hreq, hdb]
  cases dbHandle [] mac db (orElse (f request) request) mem with
  | mk r mem' =>
    cases r with
    | error e => rfl
    | ok response =>
      simp only [hg, PyM.pure_apply, Except.map]
      cases g response with
      | none => rfl
      | some v => cases v <;> rfl

/-- **C46.** `modbus_tcp.TcpServer.before_send`: the client gets the answer of the function instead of the response. -/
theorem C46_tcp_server_send {R : Registry} {m : Bytes} {v : Option Bytes}
    (h : callHooks R "modbus_tcp.TcpServer.before_send" (.msg m) = .ok v)
    (ha : ∀ a, ∃ w, callHooks R "modbus_tcp.TcpServer.after_send" a = .ok w) (c : Conn) :
    srvSend R m c = srvSend [] (v.getD m) c := by
  simp only [srvSend, PyM.tryExcept_apply, PyM.bind_apply, PyM.lift_apply, h,
    show ∀ n a, callHooks [] n a = .ok none from fun _ _ => rfl, Option.getD_none]
  cases Conn.onSock (sockSend (v.getD m)) c with
  | mk r c' =>
    cases r with
    | error e => rfl
    | ok u =>
      obtain ⟨w, hw⟩ := ha (.msg (v.getD m))
      simp only [hw]

/-- **C46.** `modbus_tcp.TcpServer.after_recv`: the function is given the first seven bytes of the request.  What it answers takes
    their place: its length field (which is that of the client if it answers None) says how many bytes are read in addition, and the
    request that is handled consists of its answer and these bytes; nothing more is read. -/
theorem C46_tcp_server_recv {R : Registry} {head : Bytes} {v : Option Bytes} (hh : head.length = 7)
    (h : callHooks R "modbus_tcp.TcpServer.after_recv" (.msg head) = .ok v) (q : Bytes) (hq : q = v.getD head) (hq6 : 6 ≤ q.length)
    (more rest : Bytes) (hm : more.length = announced q + 6 - q.length)
    (db : Databank) (timed : Bool) (c : Conn) (ho : c.sock.closed = false) (hb : c.sock.buf ≠ [])
    (hs : c.sock.stream = head ++ more ++ rest) :
    ∃ k, k.stream = rest ∧ k.later = c.sock.later ∧ k.sent = c.sock.sent ∧ k.closed = false ∧
      srvClient R db timed c = (srvAnswer R db (q ++ more) >>= fun _ => pure false) ⟨c.heap, k⟩ := by
  obtain ⟨b, bs, hbuf⟩ : ∃ b bs, c.sock.buf = b :: bs := by
    cases hb' : c.sock.buf with
    | nil => exact absurd hb' hb
    | cons b bs => exact ⟨b, bs, rfl⟩
  have hpeek : sockPeek timed c.sock = (.ok [b], c.sock) := by
    unfold sockPeek
    rw [if_neg (by simp [ho]), hbuf]
  rcases srvReadLoop_spec 7 8 [] c.sock ho (by omega) (by simp) with
    ⟨e, k1, f1, f2, f3, f4, f5, f6⟩ | ⟨x, k1, f1, f2, f3, f4⟩ | ⟨x, k1, f1, f2, f3, f4, f5, f6, f7⟩
  · rw [hs] at f5; simp at f5; omega
  · simp only [List.nil_append] at f1 f3 f4
    have hx7 : x.length = 7 := by
      rcases f4 with f4 | f4
      · subst f4; simp at f3
      · omega
    have hx : x = head ∧ k1.stream = more ++ rest := by
      have e := f2.stream
      rw [hs, List.append_assoc] at e
      have := List.append_inj e (by omega)
      exact ⟨this.1.symm, this.2.symm⟩
    obtain ⟨rfl, hk1⟩ := hx
    have ho1 : k1.closed = false := by rw [f2.closed]; exact ho
    have hann := announced_lt q
    rcases srvReadLoop_spec (announced q + 6) 65543 q k1 ho1 (by omega) (by omega) with
      ⟨e, k2, g1, g2, g3, g4, g5, g6⟩ | ⟨y, k2, g1, g2, g3, g4⟩ | ⟨y, k2, g1, g2, g3, g4, g5, g6, g7⟩
    · rw [hk1] at g5; simp at g5; omega
    · have hy : y.length = more.length := by
        rcases g4 with g4 | g4
        · subst g4; simp at g3 ⊢; omega
        · rw [List.length_append] at g4; omega
      have e := g2.stream
      rw [hk1] at e
      obtain ⟨rfl, hk2⟩ := List.append_inj e (by omega)
      have hread := f2.trans g2
      refine ⟨k2, hk2.symm, hread.later, hread.sent, by rw [hread.closed]; exact ho, ?_⟩
      simp only [srvClient, PyM.bind_apply, Conn.onSock, hpeek, List.length_cons, List.length_nil, Nat.zero_add,
        if_false, f1, PyM.lift_apply, h, ← hq, if_true, getRequestLength_ok hq6, g1, one_ne_zero]
    · rw [g6, hk1] at g7; simp at g7; omega
  · rw [f6, hs] at f7; simp at f7; omega

/-- A function that raises the length field by one: the byte after the frame of the client becomes a part of the request. -/
example :
    let R : Registry := [("modbus_tcp.TcpServer.after_recv", [⟨1, fun
      | .msg m => .ok (some (m.set 5 (m.getD 5 0 + 1)))
      | _ => .ok none⟩])]
    callHooks R "modbus_tcp.TcpServer.after_recv" (.msg [0, 1, 0, 0, 0, 6, 9]) = .ok (some [0, 1, 0, 0, 0, 7, 9]) ∧
      announced [0, 1, 0, 0, 0, 7, 9] = 7 := by
  refine ⟨rfl, rfl⟩

/-- **C46.** `modbus_rtu.RtuServer.after_read` and `before_write`: the serial server handles the request the first one answers and
    writes the response the second one answers (which may be given although there is none). -/
theorem C46_rtu_server {R : Registry} {f : Bytes → Option Bytes} {g : Option Bytes → Option Bytes}
    (hf : ∀ m, callHooks R "modbus_rtu.RtuServer.after_read" (.msg m) = .ok (f m))
    (hg : ∀ m, callHooks R "modbus_rtu.RtuServer.before_write" (.msg m) = .ok (g (some m))) (hn : callHooks R "modbus_rtu.RtuServer.before_write" .noMsg = .ok (g none))
    (hw : ∀ a, ∃ w, callHooks R "modbus_rtu.RtuServer.after_write" a = .ok w)
    (db : Databank) (request : Bytes) (s : RtuSrv) :
    rtuAnswer R db request s =
      match RtuSrv.onHeap (serverHandle R rtuMac db ((f request).getD request)) s with
      | (.error e, s1) => (.error e, s1)
      | (.ok response, s1) =>
        match (g response).or response with
        | some (b :: bs) =>
          (do let waiting ← RtuSrv.onPort portInWaiting
              if waiting > 0 then pure ()
              else do
                RtuSrv.onPort (portWrite (b :: bs))
                RtuSrv.onPort portCheck) s1
        | _ => (.ok (), s1) := by
  replace hg : ∀ m, callHooks R "modbus_rtu.RtuServer.before_write" (msgArg m) = .ok (g m) := by intro m; cases m with | none => exact hn | some m => exact hg m
  have hor : ∀ (x y : Option Bytes), (if x.isSome then x else y) = x.or y := by intro x y; cases x <;> rfl
  simp only [rtuAnswer, PyM.bind_apply, PyM.lift_apply, hf]
  cases RtuSrv.onHeap (serverHandle R rtuMac db ((f request).getD request)) s with
  | mk r s1 =>
    cases r with
    | error e => rfl
    | ok response =>
      simp only [hg, hor]
      cases (g response).or response with
      | none =>
        obtain ⟨w, hw⟩ := hw (msgArg none)
        simp only [PyM.pure_apply, hw]; rfl
      | some v =>
        cases v with
        | nil =>
          obtain ⟨w, hw⟩ := hw (msgArg (some []))
          simp only [PyM.pure_apply, hw]; rfl
        | cons b bs =>
          obtain ⟨w, hw⟩ := hw (msgArg (some (b :: bs)))
          simp only [PyM.bind_apply]
          cases RtuSrv.onPort portInWaiting s1 with
          | mk r s2 =>
            cases r with
            | error e => rfl
            | ok n =>
              simp only
              by_cases hn : n > 0
              · simp only [hn, if_true, PyM.pure_apply, hw]; rfl
              · simp only [hn, if_false, PyM.bind_apply]
                cases RtuSrv.onPort (portWrite (b :: bs)) s2 with
                | mk r s3 =>
                  cases r with
                  | error e => rfl
                  | ok u =>
                    simp only
                    cases RtuSrv.onPort portCheck s3 with
                    | mk r s4 => cases r <;> (simp only [hw]; try rfl)

/-- The functions under `modbus.Slave.handle_read_coils_request` and its likes are documented to return a modified response.  What
    they return is ignored: this one answers, and the coil is read nevertheless. -/
theorem C46_false_read_hooks :
    (handleRequest [("modbus.Slave.handle_read_coils_request", [⟨1, fun _ => .ok (some [1, 1, 255])⟩])]
        ⟨1, true, [], 0⟩ [1, 0, 0, 0, 1] false
        ⟨fun r => if r = 0 then [⟨0, [0], 1⟩] else [], fun _ => [(1, 0), (2, 1), (3, 2), (4, 3)], 4, 1⟩).1 = .ok [1, 1, 0] := by
  decide +kernel

/-! ## Non-vacuity -/

/-- a function that changes the unit id of requests to 2, and one that watches everything -/
def exReplace : Registry :=
  [("modbus.Master.before_send", [⟨1, fun _ => .ok none⟩, ⟨2, fun | .msg m => .ok (some (m.set 6 2)) | _ => .ok none⟩])]

example : Replaces exReplace "modbus.Master.before_send" "modbus.Master.after_recv" (fun m => some (m.set 6 2)) (fun _ => none) where
  before := fun _ => rfl
  after := fun _ => rfl
  others := fun n a h1 _ => by simp [exReplace, callHooks, Dict.get?, Ne.symm h1]

def exObservers : Registry := [("modbus.Master.before_send", [⟨1, fun _ => .ok none⟩]), ("modbus.Slave.handle_request", [⟨1, fun _ => .ok none⟩])]
example : Observers exObservers := by
  intro name fs h f hf a
  simp only [exObservers, List.mem_cons, List.not_mem_nil, or_false, Prod.mk.injEq] at h
  rcases h with ⟨_, rfl⟩ | ⟨_, rfl⟩ <;> (simp only [List.mem_singleton] at hf; subst hf; rfl)

/-- A function that answers a value is not transparent: the request of `C45_master` would need `Observers`. -/
example : callHooks exReplace ≠ callHooks [] := by
  intro h
  have := congrFun (congrFun h "modbus.Master.before_send") (.msg [])
  cases this

end Modbus
