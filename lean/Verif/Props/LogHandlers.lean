import Verif.Model.LogHandlers
import Verif.Props.LoggedRtu
import Verif.Props.Utils
/-
# C99: the handlers of the log
-/
namespace Modbus

/-- a text of ASCII characters -/
def Plain (t : Text) : Prop := ∀ c ∈ t, c.toNat < 128

instance (t : Text) : Decidable (Plain t) := inferInstanceAs (Decidable (∀ c ∈ t, c.toNat < 128))

theorem Plain.append {a b : Text} (ha : Plain a) (hb : Plain b) : Plain (a ++ b) := fun c hc => (List.mem_append.mp hc).elim (ha c) (hb c)

theorem digit_plain {c : Char} (h : IsDigit c) : c.toNat < 128 := by
  obtain ⟨d, hd, rfl⟩ := h
  have : d ∈ List.range 10 := List.mem_range.mpr hd
  revert this d
  decide

theorem plain_natText (n : Nat) : Plain (natText n) := fun c hc => digit_plain (natText_digits n c hc)

theorem plain_intText (i : Int) : Plain (intText i) := fun c hc => by
  rcases intText_chars i c hc with rfl | h
  · decide
  · exact digit_plain h

theorem plain_fold (buff : Bytes) : ∀ pre : Text, Plain pre → Plain (buff.foldl (fun log i => log ++ (natText i.toNat ++ "-".toList)) pre) := by
  induction buff with
  | nil => exact fun _ h => h
  | cons b bs ih => exact fun pre h => ih _ (h.append ((plain_natText _).append (by decide)))

theorem plain_dump {pre : Text} (h : Plain pre) (buff : Bytes) : Plain (getLogBuffer pre buff) := fun c hc => plain_fold buff pre h c (List.dropLast_subset _ hc)

/-! ## The logger -/

/-- the handler a call of `create_logger` with this name adds -/
def kindOf (name : Text) : Option LogKind :=
  if name = "udp".toList then some .udp else if name = "console".toList then some .console else if name = "dummy".toList then some .dummy else none

/-- a call of `create_logger` -/
structure CreateCall where
  name : Text
  level : Nat := 10
  format : Text → Text

/-- calls of `create_logger`, whose exceptions somebody catches -/
def creates : List CreateCall → LogSys → LogSys
  | [], s => s
  | c :: cs, s => creates cs (createLogger c.name c.level c.format s).2

/-- the handlers some calls should have added -/
def added (cs : List CreateCall) : List LogHandler := cs.filterMap fun c => (kindOf c.name).map fun k => ⟨k, c.format⟩

theorem createLogger_spec (c : CreateCall) (s : LogSys) :
    createLogger c.name c.level c.format s =
      match kindOf c.name with
      | some k => (.ok (), { s with level := c.level, handlers := s.handlers ++ [⟨k, c.format⟩] })
      | none => (.error .generic, { s with level := c.level }) := by
  unfold createLogger kindOf
  simp only [PyM.bind_apply, PyM.modify]
  by_cases h1 : c.name = "udp".toList
  · simp only [if_pos h1]; rfl
  · simp only [if_neg h1]
    by_cases h2 : c.name = "console".toList
    · simp only [if_pos h2]; rfl
    · simp only [if_neg h2]
      by_cases h3 : c.name = "dummy".toList
      · simp only [if_pos h3]; rfl
      · simp only [if_neg h3]; rfl

/-- **C99.** `create_logger` raises exactly for a name that is not one of `udp`, `console`, `dummy`, and has set the level by then. -/
theorem C99_create (c : CreateCall) (s : LogSys) :
    (createLogger c.name c.level c.format s).1 = (if c.name ∈ ["udp".toList, "console".toList, "dummy".toList] then .ok () else .error .generic) ∧
    (createLogger c.name c.level c.format s).2.level = c.level := by
  rw [createLogger_spec]
  unfold kindOf
  by_cases h1 : c.name = "udp".toList
  · rw [if_pos h1, if_pos (by rw [h1]; simp)]; exact ⟨rfl, rfl⟩
  · rw [if_neg h1]
    by_cases h2 : c.name = "console".toList
    · rw [if_pos h2, if_pos (by rw [h2]; simp)]; exact ⟨rfl, rfl⟩
    · rw [if_neg h2]
      by_cases h3 : c.name = "dummy".toList
      · rw [if_pos h3, if_pos (by rw [h3]; simp)]; exact ⟨rfl, rfl⟩
      · rw [if_neg h3, if_neg (by simp only [List.mem_cons, List.not_mem_nil, or_false, not_or]; exact ⟨h1, h2, h3⟩)]; exact ⟨rfl, rfl⟩

/-- **C99.** Handlers accumulate: after any calls the logger has the handlers it had and one for every call with a known name, in order; the level is that of the last call, even a failed one. -/
theorem C99_accumulate (cs : List CreateCall) (s : LogSys) :
    (creates cs s).handlers = s.handlers ++ added cs ∧ (creates cs s).level = ((cs.map (·.level)).getLast?).getD s.level ∧
    (creates cs s).console = s.console ∧ (creates cs s).datagrams = s.datagrams := by
  induction cs generalizing s with
  | nil => simp [creates, added]
  | cons c cs ih =>
    rw [creates]
    obtain ⟨h1, h2, h3, h4⟩ := ih (createLogger c.name c.level c.format s).2
    rw [createLogger_spec] at h1 h2 h3 h4 ⊢
    have hl : ∀ d : Nat, ((c.level :: cs.map (·.level)).getLast?).getD d = ((cs.map (·.level)).getLast?).getD c.level := by
      intro d
      rw [List.getLast?_cons]
      rfl
    cases hk : kindOf c.name with
    | none =>
      rw [hk] at h1 h2 h3 h4
      refine ⟨?_, ?_, h3, h4⟩
      · rw [h1]; simp [added, hk]
      · rw [h2, List.map_cons, hl]
    | some k =>
      rw [hk] at h1 h2 h3 h4
      refine ⟨?_, ?_, h3, h4⟩
      · rw [h1]; simp [added, hk]
      · rw [h2, List.map_cons, hl]

/-- what a handler makes of a message: nothing, a line or a datagram; or it raises -/
def LogHandler.takes (env : LogEnv) (hd : LogHandler) (m : Text) : Option PyErr :=
  match hd.kind with
  | .dummy => none
  | .console => env.print (hd.format m)
  | .udp => if Plain (hd.format m) then env.sendto ((hd.format m ++ ['\r', '\n']).map fun c => UInt8.ofNat c.toNat) else some .valueError

/-- the lines some handlers print for a message -/
def printed (hds : List LogHandler) (m : Text) : List Text := (hds.filter (·.kind = .console)).map fun hd => hd.format m
/-- the datagrams they send -/
def sentOut (hds : List LogHandler) (m : Text) : List Bytes := (hds.filter (·.kind = .udp)).map fun hd => (hd.format m ++ ['\r', '\n']).map fun c => UInt8.ofNat c.toNat

theorem asciiData_spec (t : Text) : asciiData (t ++ "\r\n".toList) = if Plain t then .ok ((t ++ ['\r', '\n']).map fun c => UInt8.ofNat c.toNat) else .error .valueError := by
  have hs : "\r\n".toList = ['\r', '\n'] := by decide
  rw [hs]
  unfold asciiData
  by_cases h : Plain t
  · rw [if_pos h, if_pos]
    rw [List.all_eq_true]
    intro c hc
    rcases List.mem_append.mp hc with hc | hc
    · simpa using h c hc
    · clear h; simp only [List.mem_cons, List.not_mem_nil, or_false] at hc; rcases hc with rfl | rfl <;> rfl
  · rw [if_neg h, if_neg]
    intro hall
    apply h
    intro c hc
    have := List.all_eq_true.mp hall c (List.mem_append_left _ hc)
    simpa using this

theorem emit_spec (env : LogEnv) (hd : LogHandler) (m : Text) (s : LogSys) :
    emit env hd m s = match hd.takes env m with
      | some e => (.error e, s)
      | none => (.ok (), { s with console := s.console ++ printed [hd] m, datagrams := s.datagrams ++ sentOut [hd] m }) := by
  unfold emit LogHandler.takes printed sentOut
  rcases hd with ⟨k, f⟩
  cases k with
  | dummy => simp
  | console =>
    dsimp only
    cases env.print (f m) <;> simp
  | udp =>
    dsimp only
    rw [asciiData_spec]
    by_cases h : Plain (f m)
    · simp only [if_pos h]
      cases env.sendto _ <;> simp
    · simp only [if_neg h]

theorem callHandlers_ok (env : LogEnv) (m : Text) (hds : List LogHandler) (s : LogSys) (h : ∀ hd ∈ hds, hd.takes env m = none) :
    callHandlers env m hds s = (.ok (), { s with console := s.console ++ printed hds m, datagrams := s.datagrams ++ sentOut hds m }) := by
  induction hds generalizing s with
  | nil => simp [callHandlers, printed, sentOut]
  | cons hd rest ih =>
    rw [callHandlers]
    simp only [PyM.bind_apply, emit_spec, h hd (List.mem_cons_self ..)]
    rw [ih _ (fun x hx => h x (List.mem_cons_of_mem _ hx))]
    simp [printed, sentOut, List.filter_cons]
    constructor <;> split <;> simp

theorem callHandlers_fail (env : LogEnv) (m : Text) (pre : List LogHandler) (hd : LogHandler) (post : List LogHandler) (s : LogSys) (e : PyErr) (h : ∀ hd ∈ pre, hd.takes env m = none)
    (he : hd.takes env m = some e) :
    callHandlers env m (pre ++ hd :: post) s = (.error e, { s with console := s.console ++ printed pre m, datagrams := s.datagrams ++ sentOut pre m }) := by
  induction pre generalizing s with
  | nil =>
    rw [List.nil_append, callHandlers]
    simp only [PyM.bind_apply, emit_spec, he]
    simp [printed, sentOut]
  | cons x pre ih =>
    rw [List.cons_append, callHandlers]
    simp only [PyM.bind_apply, emit_spec, h x (List.mem_cons_self ..)]
    rw [ih _ (fun x hx => h x (List.mem_cons_of_mem _ hx))]
    simp [printed, sentOut, List.filter_cons]
    constructor <;> split <;> simp

/-- **C99.** A message below the level does nothing; a message that all handlers take is printed once by every `console` handler and sent once by every `udp` handler, followed by `\r\n`, as ASCII. -/
theorem C99_delivery (env : LogEnv) (lvl : Nat) (m : Text) (s : LogSys) :
    (lvl < s.effective → logRecord env lvl m s = (.ok (), s)) ∧
    (s.effective ≤ lvl → (∀ hd ∈ s.handlers, hd.takes env m = none) →
      logRecord env lvl m s = (.ok (), { s with console := s.console ++ printed s.handlers m, datagrams := s.datagrams ++ sentOut s.handlers m })) := by
  constructor
  · intro h; unfold logRecord; rw [if_pos h]
  · intro h ht; unfold logRecord; rw [if_neg (by omega)]; exact callHandlers_ok env m _ s ht

/-- **C99 (levels).** A level that was set is the least level of the messages delivered; as long as no level is set (or after it was set to 0) warnings (30) and errors (40) are delivered, and
    debug (10) and info (20) messages are not. -/
theorem C99_levels (env : LogEnv) (m : Text) (s : LogSys) (ht : ∀ hd ∈ s.handlers, hd.takes env m = none) :
    let out : LogSys := { s with console := s.console ++ printed s.handlers m, datagrams := s.datagrams ++ sentOut s.handlers m }
    (∀ lvl, s.level ≠ 0 → logRecord env lvl m s = (.ok (), if s.level ≤ lvl then out else s)) ∧
    (∀ lvl ∈ [10, 20], s.level = 0 → logRecord env lvl m s = (.ok (), s)) ∧ (∀ lvl ∈ [30, 40], s.level = 0 → logRecord env lvl m s = (.ok (), out)) := by
  have d := fun lvl => C99_delivery env lvl m s
  refine ⟨fun lvl h => ?_, fun lvl h h0 => ?_, fun lvl h h0 => ?_⟩
  · have e : s.effective = s.level := if_neg h
    by_cases hl : s.level ≤ lvl
    · rw [if_pos hl]; exact (d lvl).2 (by omega) ht
    · rw [if_neg hl]; exact (d lvl).1 (by omega)
  · have e : s.effective = 30 := if_pos h0
    refine (d lvl).1 ?_
    simp only [List.mem_cons, List.not_mem_nil, or_false] at h
    omega
  · have e : s.effective = 30 := if_pos h0
    refine (d lvl).2 ?_ ht
    simp only [List.mem_cons, List.not_mem_nil, or_false] at h
    omega

/-- **C99 (what goes wrong).** The first handler that cannot take a message raises into the code that logs; the handlers after it do not get the message. -/
theorem C99_failure (env : LogEnv) (lvl : Nat) (m : Text) (s : LogSys) (pre post : List LogHandler) (hd : LogHandler) (e : PyErr) (hs : s.handlers = pre ++ hd :: post) (hl : s.effective ≤ lvl)
    (hp : ∀ x ∈ pre, x.takes env m = none) (he : hd.takes env m = some e) :
    logRecord env lvl m s = (.error e, { s with console := s.console ++ printed pre m, datagrams := s.datagrams ++ sentOut pre m }) := by
  unfold logRecord
  rw [if_neg (by omega)]
  have := callHandlers_fail env m pre hd post s e hp he
  rw [← hs] at this
  exact this

/-! ## The library with a handler that takes ASCII lines -/

/-- every line of ASCII characters can be written -/
def Logger.TakesPlain (lg : Logger) : Prop := ∀ log line, Plain line → lg log line = none

/-- the handler that takes everything -/
def takesAll : Logger := fun _ _ => none

theorem takesAll_calm : takesAll.Calm := fun _ _ => rfl

theorem line_plain {τ : Type} {lg : Logger} (h : lg.TakesPlain) {line : Text} (hp : Plain line) : logLine (τ := τ) lg line = logLine takesAll line := by
  funext s
  rw [logLine_apply, logLine_apply, h s.2 line hp]
  rfl

section
variable {lg : Logger} (hlg : lg.TakesPlain) {txt : PyErr → Text} (htxt : ∀ e, Plain (txt e))
include hlg

theorem readRegisters_plain : lReadRegisters lg = lReadRegisters takesAll := by
  funext sl bt pdu
  have e : ∀ q, logLine (τ := Heap) lg ("quantity_of_x is ".toList ++ intText q) = logLine takesAll ("quantity_of_x is ".toList ++ intText q) :=
    fun q => line_plain hlg (Plain.append (by decide) (plain_intText q))
  unfold lReadRegisters
  simp only [e]

theorem readWrite_plain : lReadWriteMultipleRegisters lg = lReadWriteMultipleRegisters takesAll := by
  funext R sl pdu
  have e : ∀ q, logLine (τ := Heap) lg ("quantity_of_x_to_read is ".toList ++ intText q) = logLine takesAll ("quantity_of_x_to_read is ".toList ++ intText q) :=
    fun q => line_plain hlg (Plain.append (by decide) (plain_intText q))
  unfold lReadWriteMultipleRegisters
  simp only [e]

theorem dispatch_plain : lDispatch lg = lDispatch takesAll := by
  funext R sl fc pdu bc
  have e : ∀ r, logLine (τ := Heap) lg (broadcastLine r) = logLine takesAll (broadcastLine r) :=
    fun r => line_plain hlg (Plain.append (by decide) (plain_dump (by decide) r))
  unfold lDispatch lFnCodeMap lReadInputRegisters lReadHoldingRegisters
  simp only [e, readRegisters_plain hlg, readWrite_plain hlg]

include htxt

theorem handleRequest_plain : lHandleRequest lg txt = lHandleRequest takesAll txt := by
  funext R sl pdu bc
  have e : ∀ c, logLine (τ := Heap) lg (txt c) = logLine takesAll (txt c) := fun c => line_plain hlg (htxt c)
  unfold lHandleRequest
  simp only [e, dispatch_plain hlg]

theorem dbBody_plain : lDbBody lg txt = lDbBody takesAll txt := by
  funext R mac db q sid pdu
  have loop : ∀ sls, lBroadcastLoop lg txt R pdu sls = lBroadcastLoop takesAll txt R pdu sls := by
    intro sls
    induction sls with
    | nil => rfl
    | cons x rest ih => rw [lBroadcastLoop, lBroadcastLoop, handleRequest_plain hlg htxt, ih]
  unfold lDbBody
  simp only [loop, handleRequest_plain hlg htxt]

theorem dbExcept_plain : lDbExcept lg txt = lDbExcept takesAll txt := by
  funext R pdu e
  have e1 : ∀ c, logLine (τ := Heap) lg ("invalid request: ".toList ++ txt c) = logLine takesAll ("invalid request: ".toList ++ txt c) := fun c => line_plain hlg (Plain.append (by decide) (htxt c))
  have e2 : ∀ c, logLine (τ := Heap) lg ("handle request failed: ".toList ++ txt c) = logLine takesAll ("handle request failed: ".toList ++ txt c) :=
    fun c => line_plain hlg (Plain.append (by decide) (htxt c))
  unfold lDbExcept
  simp only [e1, e2]

theorem serverHandle_plain (verbose : Bool) : lServerHandle verbose lg txt = lServerHandle verbose takesAll txt := by
  funext R mac db request
  have e1 : ∀ r, logLine (τ := Heap) lg (getLogBuffer "-->".toList r) = logLine takesAll (getLogBuffer "-->".toList r) := fun r => line_plain hlg (plain_dump (by decide) r)
  have e2 : ∀ r, logLine (τ := Heap) lg (getLogBuffer "<--".toList r) = logLine takesAll (getLogBuffer "<--".toList r) := fun r => line_plain hlg (plain_dump (by decide) r)
  unfold lServerHandle lDbHandle
  simp only [e1, e2, dbBody_plain hlg htxt, dbExcept_plain hlg htxt]

end

/-- the log of a server with another handler -/
def SrvLog.with (L : SrvLog) (lg : Logger) : SrvLog := { L with lg := lg }
def RtuLog.with (L : RtuLog) (lg : Logger) : RtuLog := { L with lg := lg }

section
variable (L : SrvLog) (hlg : L.lg.TakesPlain) (htxt : ∀ e, Plain (L.txt e)) (haddr : ∀ i, Plain (L.addr i))
include hlg htxt haddr

theorem srvClient_plain : lSrvClient L = lSrvClient (L.with takesAll) := by
  funext R db i timed
  have e1 : ∀ i e, logLine (τ := Conn) L.lg (L.sending i e) = logLine takesAll ((L.with takesAll).sending i e) :=
    fun i e => line_plain hlg ((((show Plain "Error while sending on socket ".toList by decide).append (plain_intText i)).append (by decide)).append (htxt e))
  have e2 : ∀ e, logLine (τ := Conn) L.lg (L.handling e) = logLine takesAll ((L.with takesAll).handling e) :=
    fun e => line_plain hlg ((show Plain "Error while handling a request, Exception occurred: ".toList by decide).append (htxt e))
  have e3 : ∀ i, logLine (τ := Conn) L.lg (L.disconnected i) = logLine takesAll ((L.with takesAll).disconnected i) :=
    fun i => line_plain hlg ((plain_intText i).append (by decide))
  have hh : lServerHandle L.verbose L.lg L.txt = lServerHandle L.verbose takesAll L.txt := serverHandle_plain hlg htxt _
  unfold lSrvClient lSrvAnswer lSrvSend
  simp only [e1, e2, e3, hh]
  rfl

theorem srvLoop_plain (R : Registry) (db : Databank) (acc : Option (Except PyErr Unit)) (is : List Nat) (s : Srv × List Text) :
    lSrvLoop L R db acc is s = lSrvLoop (L.with takesAll) R db acc is s := by
  have e1 : ∀ i, logLine (τ := Srv) L.lg (L.connected i) = logLine takesAll ((L.with takesAll).connected i) :=
    fun i => line_plain hlg ((((haddr i).append (by decide)).append (plain_intText i)).append (by decide))
  have e2 : ∀ i e, logLine (τ := Srv) L.lg (L.processing i e) = logLine takesAll ((L.with takesAll).processing i e) :=
    fun i e => line_plain hlg ((((show Plain "Error while processing data on socket ".toList by decide).append (plain_intText i)).append (by decide)).append (htxt e))
  have hone : lSrvOne L R db acc = lSrvOne (L.with takesAll) R db acc := by
    funext i s
    unfold lSrvOne lSrvAccept
    simp only [e1, srvClient_plain L hlg htxt haddr]
    rfl
  have hex : lSrvExcept L R = lSrvExcept (L.with takesAll) R := by
    funext i e
    unfold lSrvExcept
    simp only [e2]
    rfl
  induction is generalizing s with
  | nil => rfl
  | cons i rest ih =>
    rw [lSrvLoop, lSrvLoop]
    simp only [hone, hex, ih]

theorem srvRounds_plain (R : Registry) (db : Databank) (rounds : List Round) (s : Srv × List Text) : lSrvRounds L R db rounds s = lSrvRounds (L.with takesAll) R db rounds s := by
  induction rounds generalizing s with
  | nil => rfl
  | cons rd rest ih =>
    rw [lSrvRounds, lSrvRounds]
    unfold lSrvRun
    simp only [srvLoop_plain L hlg htxt haddr, ih]

end

/-- **C99.** With a handler that takes ASCII lines a TCP server does exactly what it does without a log, if the texts of the exceptions and addresses that occur are ASCII. -/
theorem C99_tcp_server (L : SrvLog) (hlg : L.lg.TakesPlain) (htxt : ∀ e, Plain (L.txt e)) (haddr : ∀ i, Plain (L.addr i)) (R : Registry) (db : Databank) (bound : Bool) (rounds : List Round)
    (s : Srv) (log : List Text) :
    ∃ lines, lRunServer L R db bound rounds (s, log) = ((runServer R db bound rounds s).1, ((runServer R db bound rounds s).2, log ++ lines)) := by
  have e1 : logLine (τ := Srv) L.lg "<class 'modbus_tk.modbus_tcp.TcpServer'> has stopped".toList = logLine takesAll "<class 'modbus_tk.modbus_tcp.TcpServer'> has stopped".toList :=
    line_plain hlg (by decide)
  have e2 : ∀ e, logLine (τ := Srv) L.lg ("server error: ".toList ++ L.txt e) = logLine takesAll ("server error: ".toList ++ L.txt e) :=
    fun e => line_plain hlg (Plain.append (by decide) (htxt e))
  have hr : lSrvRounds L R db rounds = lSrvRounds (L.with takesAll) R db rounds := funext (srvRounds_plain L hlg htxt haddr R db rounds)
  have : lRunServer L R db bound rounds = lRunServer (L.with takesAll) R db bound rounds := by
    unfold lRunServer
    simp only [e1, e2, hr]
    rfl
  rw [this]
  exact (C97_calm (L.with takesAll) takesAll_calm R db bound rounds s log).2

/-- **C99.** The same for an RTU server. -/
theorem C99_rtu_server (L : RtuLog) (hlg : L.lg.TakesPlain) (htxt : ∀ e, Plain (L.txt e)) (R : Registry) (db : Databank) (n : Nat) (s : RtuSrv) (log : List Text) :
    ∃ lines, lRunRtu L R db n (s, log) = ((runRtu R db n s).1, ((runRtu R db n s).2, log ++ lines)) := by
  have e0 : logLine (τ := RtuSrv) L.lg pendingLine = logLine takesAll pendingLine := line_plain hlg (by decide)
  have e1 : logLine (τ := RtuSrv) L.lg rtuStopped = logLine takesAll rtuStopped := line_plain hlg (by decide)
  have e2 : ∀ e, logLine (τ := RtuSrv) L.lg (L.ended e) = logLine takesAll ((L.with takesAll).ended e) :=
    fun e => line_plain hlg ((show Plain "server error: ".toList by decide).append (htxt e))
  have e3 : ∀ e, logLine (τ := RtuSrv) L.lg (L.failed e) = logLine takesAll ((L.with takesAll).failed e) :=
    fun e => line_plain hlg ((show Plain "Error while handling request, Exception occurred: ".toList by decide).append (htxt e))
  have hh : lServerHandle L.verbose L.lg L.txt = lServerHandle L.verbose takesAll L.txt := serverHandle_plain hlg htxt _
  have hrun : lRtuRun L R db = lRtuRun (L.with takesAll) R db := by
    unfold lRtuRun lRtuBody lRtuAnswer
    simp only [e0, e3, hh]
    rfl
  have hruns : lRtuRuns L R db n = lRtuRuns (L.with takesAll) R db n := by
    induction n with
    | zero => rfl
    | succ n ih => rw [lRtuRuns, lRtuRuns, hrun, ih]
  have : lRunRtu L R db n = lRunRtu (L.with takesAll) R db n := by
    unfold lRunRtu
    simp only [e1, e2, hruns]
    rfl
  rw [this]
  exact (C98_calm (L.with takesAll) takesAll_calm R db n s log).2

/-- **C99.** And a verbose master, whatever the texts of exceptions. -/
theorem C99_master {σ : Type} (lg : Logger) (hlg : lg.TakesPlain) (R : Registry) (mac : Mac) (ch : Chan σ) (a : ExecArgs) (s : MasterSt (σ × List Event)) (log : List Text) :
    ∃ lines, executeV true lg R mac ch.logged a (s, log) = ((execute R mac ch.logged a s).1, ((execute R mac ch.logged a s).2, log ++ lines)) := by
  have e1 : ∀ r, logLine (τ := MasterSt (σ × List Event)) lg (getLogBuffer "-> ".toList r) = logLine takesAll (getLogBuffer "-> ".toList r) := fun r => line_plain hlg (plain_dump (by decide) r)
  have e2 : ∀ r, logLine (τ := MasterSt (σ × List Event)) lg (getLogBuffer "<- ".toList r) = logLine takesAll (getLogBuffer "<- ".toList r) := fun r => line_plain hlg (plain_dump (by decide) r)
  have : executeV true lg R mac ch.logged a = executeV true takesAll R mac ch.logged a := by
    unfold executeV
    simp only [e1, e2]
  rw [this]
  obtain ⟨sent, received, h, -⟩ := C90_master takesAll takesAll_calm R mac ch a s log
  exact ⟨_, by rw [h, List.append_assoc]⟩

/-- what a logger does not take is what one of its handlers does not take -/
theorem logger_none {s : LogSys} {env : LogEnv} {lvl : Nat} {m : Text} : (∀ log, s.logger env lvl log m = none) ↔ lvl < s.effective ∨ ∀ hd ∈ s.handlers, hd.takes env m = none := by
  have key : ∀ log, s.logger env lvl log m = match (logRecord env lvl m s).1 with
      | .ok _ => none
      | .error e => some e := fun _ => rfl
  by_cases hl : lvl < s.effective
  · simp only [key, (C99_delivery env lvl m s).1 hl, hl, true_or]; simp
  · by_cases hall : ∀ hd ∈ s.handlers, hd.takes env m = none
    · simp only [key, (C99_delivery env lvl m s).2 (by omega) hall]; exact ⟨fun _ => .inr hall, fun _ _ => trivial⟩
    · have : ∃ pre hd post e, s.handlers = pre ++ hd :: post ∧ (∀ x ∈ pre, x.takes env m = none) ∧ hd.takes env m = some e := by
        clear key hl
        generalize s.handlers = hds at hall
        induction hds with
        | nil => exact absurd (fun _ h => by cases h) hall
        | cons x rest ih =>
          cases hx : x.takes env m with
          | some e => exact ⟨[], x, rest, e, rfl, by simp, hx⟩
          | none =>
            obtain ⟨pre, hd, post, e, h1, h2, h3⟩ := ih (fun h => hall (fun y hy => by
              rcases List.mem_cons.mp hy with rfl | hy
              · exact hx
              · exact h y hy))
            refine ⟨x :: pre, hd, post, e, by rw [h1]; rfl, fun y hy => ?_, h3⟩
            rcases List.mem_cons.mp hy with rfl | hy
            · exact hx
            · exact h2 y hy
      obtain ⟨pre, hd, post, e, h1, h2, h3⟩ := this
      simp only [key, C99_failure env lvl m s pre post hd e h1 (by omega) h2 h3, hl, hall]
      simp

/-- **C99.** Whatever calls of `create_logger` were made, with formatters that keep ASCII lines ASCII: as long as `print` and `sendto` work, no ASCII line raises. -/
theorem C99_takes (cs : List CreateCall) (hf : ∀ c ∈ cs, ∀ t, Plain t → Plain (c.format t)) (env : LogEnv) (hp : ∀ t, env.print t = none) (hs : ∀ d, env.sendto d = none) (lvl : Nat) :
    ((creates cs {}).logger env lvl).TakesPlain := by
  intro log line hl
  refine logger_none.mpr (.inr fun hd hm => ?_) log
  rw [(C99_accumulate cs {}).1, List.nil_append] at hm
  obtain ⟨c, hc, hk⟩ := List.mem_filterMap.mp hm
  cases hkk : kindOf c.name with
  | none => rw [hkk] at hk; cases hk
  | some k =>
    rw [hkk] at hk
    cases hk
    unfold LogHandler.takes
    cases k with
    | dummy => rfl
    | console => exact hp _
    | udp => dsimp only; rw [if_pos (hf c hc line hl)]; exact hs _

/-- **C99.** Handlers other than `udp` take every line, as long as `print` works: nothing the library logs can raise. -/
theorem C99_calm (cs : List CreateCall) (hc : ∀ c ∈ cs, c.name ≠ "udp".toList) (env : LogEnv) (hp : ∀ t, env.print t = none) (lvl : Nat) : ((creates cs {}).logger env lvl).Calm := by
  intro log line
  refine logger_none.mpr (.inr fun hd hm => ?_) log
  rw [(C99_accumulate cs {}).1, List.nil_append] at hm
  obtain ⟨c, hcm, hk⟩ := List.mem_filterMap.mp hm
  have := hc c hcm
  unfold kindOf at hk
  rw [if_neg this] at hk
  unfold LogHandler.takes
  split at hk
  · cases hk; exact hp _
  · split at hk
    · cases hk; rfl
    · cases hk

/-- **C99 is false of `udp` and other texts.** A `udp` handler raises for exactly the lines that are, as formatted, not ASCII, even if every datagram can be sent. -/
theorem C99_false_udp (format : Text → Text) (env : LogEnv) (hs : ∀ d, env.sendto d = none) (log : List Text) (m : Text) :
    (creates [{ name := "udp".toList, format := format }] {}).logger env 40 log m = if Plain (format m) then none else some .valueError := by
  have h : creates [{ name := "udp".toList, format := format }] {} = { level := 10, handlers := [⟨.udp, format⟩] } := by
    rw [creates, creates, createLogger_spec]
    rfl
  rw [h]
  show (match (logRecord env 40 m { level := 10, handlers := [⟨.udp, format⟩] }).1 with
    | .ok _ => none
    | .error e => some e) = _
  unfold logRecord
  rw [show LogSys.effective { level := 10, handlers := [⟨.udp, format⟩] } = 10 from rfl, if_neg (by decide), callHandlers]
  simp only [PyM.bind_apply, emit_spec]
  unfold LogHandler.takes
  dsimp only
  by_cases hp : Plain (format m)
  · simp only [if_pos hp, hs]
    rfl
  · simp only [if_neg hp]

theorem dump_length (pre : Text) (buff : Bytes) :
    pre.length + 2 * buff.length ≤ (buff.foldl (fun log i => log ++ (natText i.toNat ++ "-".toList)) pre).length ∧
    (buff.foldl (fun log i => log ++ (natText i.toNat ++ "-".toList)) pre).length ≤ pre.length + 4 * buff.length := by
  have hn : ∀ b : UInt8, 1 ≤ (natText b.toNat).length ∧ (natText b.toNat).length ≤ 3 := by
    intro b
    have h := b.toNat_lt
    generalize b.toNat = n at h
    have : n ∈ List.range 256 := List.mem_range.mpr h
    clear h
    revert n
    decide +kernel
  induction buff generalizing pre with
  | nil => simp
  | cons b bs ih =>
    have h1 := hn b
    have h2 := ih (pre ++ (natText b.toNat ++ "-".toList))
    have h3 : (pre ++ (natText b.toNat ++ "-".toList)).length = pre.length + (natText b.toNat).length + 1 := by simp; omega
    rw [h3] at h2
    simp only [List.foldl_cons, List.length_cons]
    omega

/-- **C99.** The size of a dump: two to four characters per byte. -/
theorem C99_dump_size (pre : Text) (buff : Bytes) : pre.length + 2 * buff.length - 1 ≤ (getLogBuffer pre buff).length ∧ (getLogBuffer pre buff).length ≤ pre.length + 4 * buff.length := by
  have h := dump_length pre buff
  unfold getLogBuffer
  rw [List.length_dropLast]
  omega

/-- datagrams of more than 65507 bytes cannot be sent -/
def udpLimit : LogEnv := ⟨fun _ => none, fun d => if d.length > 65507 then some .osError else none⟩

/-- the log of a process that called `create_logger("udp", record_format="%(message)s")` -/
def udpLog : Logger := (creates [{ name := "udp".toList, format := id }] {}).logger udpLimit 10

theorem udpLog_spec (log : List Text) (m : Text) (hp : Plain m) : udpLog log m = if m.length > 65505 then some .osError else none := by
  have h : creates [{ name := "udp".toList, format := id }] {} = { level := 10, handlers := [⟨.udp, id⟩] } := by
    rw [creates, creates, createLogger_spec]
    rfl
  unfold udpLog
  rw [h]
  show (match (logRecord udpLimit 10 m { level := 10, handlers := [⟨.udp, id⟩] }).1 with
    | .ok _ => none
    | .error e => some e) = _
  unfold logRecord
  rw [show LogSys.effective { level := 10, handlers := [⟨.udp, id⟩] } = 10 from rfl, if_neg (by decide), callHandlers]
  simp only [PyM.bind_apply, emit_spec]
  unfold LogHandler.takes
  dsimp only [id]
  rw [if_pos hp]
  by_cases hl : m.length > 65505
  · have : udpLimit.sendto ((m ++ ['\r', '\n']).map fun c => UInt8.ofNat c.toNat) = some .osError := by
      show (if _ then _ else _) = _
      rw [if_pos (by simp; omega)]
    simp only [this, if_pos hl]
  · have : udpLimit.sendto ((m ++ ['\r', '\n']).map fun c => UInt8.ofNat c.toNat) = none := by
      show (if _ then _ else _) = _
      rw [if_neg (by simp; omega)]
    simp only [this, if_neg hl]
    rfl

/-- **C99 is false of long requests.** With the verbose mode and the `udp` handler a request of 32753 bytes or more is not handled at all, whatever it is: its dump does not fit into a datagram;
    one of up to 16375 bytes is dumped. -/
theorem C99_false_long (txt : PyErr → Text) (R : Registry) (mac : Mac) (db : Databank) (request : Bytes) (h : Heap) (log : List Text) :
    (32753 ≤ request.length → lServerHandle true udpLog txt R mac db request (h, log) = (.error .osError, (h, log))) ∧
    (request.length ≤ 16375 → udpLog log (getLogBuffer "-->".toList request) = none) := by
  have hp : Plain (getLogBuffer "-->".toList request) := plain_dump (by decide) request
  have hl := C99_dump_size "-->".toList request
  have h3 : "-->".toList.length = 3 := by decide
  rw [h3] at hl
  constructor
  · intro hn
    unfold lServerHandle
    simp only [if_true, PyM.bind_apply, logLine_apply, udpLog_spec log _ hp]
    rw [if_pos (by omega)]
  · intro hn
    rw [udpLog_spec log _ hp, if_neg (by omega)]

/-! ## Instances -/

-- the simulator and its user both call `create_logger("console")`: every line is printed twice; a name that does not exist changes the level
example : (logRecord udpLimit 40 "hello".toList (creates [{ name := "console".toList, format := id }, { name := "console".toList, format := id }] {})).2.console = ["hello".toList, "hello".toList] := by
  decide +kernel
example : (logRecord udpLimit 10 "hello".toList (creates [{ name := "console".toList, format := id }, { name := "Console".toList, level := 40, format := id }] {})).2.console = [] := by decide +kernel
-- `udp` before `console`: a line that is not ASCII is not printed either
example : (logRecord udpLimit 40 "réseau".toList (creates [{ name := "udp".toList, format := id }, { name := "console".toList, format := id }] {})).2.console = [] := by decide +kernel
example : (logRecord udpLimit 40 "ok".toList (creates [{ name := "udp".toList, format := id }] {})).2.datagrams = [[111, 107, 13, 10]] := by decide +kernel

/-- **C99 is false of localised exception texts.** A server that logs by `create_logger("udp")` on a system whose error messages are not ASCII: the client of socket 2 resets its connection, and
    the server thread ends; the requests the other client sends afterwards are not answered. -/
theorem C99_false_localised : ∃ (txt : PyErr → Text) (L : SrvLog), L = ⟨udpLog, txt, fun _ => [], false⟩ ∧ ¬ Plain (txt .osError) ∧
    (srvRounds [] exTwo.st.db exRounds exSrv).1 = .ok () ∧
    (lSrvRounds L [] exTwo.st.db exRounds (exSrv, [])).1 = .error .valueError ∧
    ((lSrvRounds L [] exTwo.st.db exRounds (exSrv, [])).2.1.socks 1).sent.length = 1 ∧ ((srvRounds [] exTwo.st.db exRounds exSrv).2.socks 1).sent.length = 2 :=
  ⟨fun _ => "réinitialisé".toList, _, rfl, by decide, by decide +kernel, by decide +kernel, by decide +kernel, by decide +kernel⟩

-- the hypotheses of `C99_tcp_server`, `C99_rtu_server`, `C99_takes`
example : ∀ e, Plain (exText e) := by
  intro e
  cases e with
  | modbusError c => exact (show Plain "Modbus Error: Exception code = ".toList by decide).append (plain_intText c)
  | _ => exact (by decide)
example : ((creates [{ name := "udp".toList, format := fun t => "INFO ".toList ++ t }] {}).logger ⟨fun _ => none, fun _ => none⟩ 10).TakesPlain :=
  C99_takes _ (fun c hc t ht => by
    simp only [List.mem_singleton] at hc
    subst hc
    exact (show Plain "INFO ".toList by decide).append ht) _ (fun _ => rfl) (fun _ => rfl) _
-- the hypotheses of `C99_failure`
example : (⟨.udp, id⟩ : LogHandler).takes udpLimit "réseau".toList = some .valueError ∧ (⟨.console, id⟩ : LogHandler).takes udpLimit "réseau".toList = none := by decide +kernel

end Modbus
