import Verif.Model.Verbose
import Verif.Props.Utils
import Verif.Props.Retry
/-
# C90: the verbose mode
-/
namespace Modbus
open Spec (Call)

variable {σ : Type}

/-- the handler never raises -/
def Logger.Calm (lg : Logger) : Prop := ∀ log line, lg log line = none

/-- a computation whose steps are those of another one, and that logs besides -/
theorem unlogged_apply {τ α : Type} (f : PyM τ α) (s : τ × List Text) : unlogged f s = ((f s.1).1, ((f s.1).2, s.2)) := rfl

/-- the line of a request and of a response -/
def outLine (m : Bytes) : Text := getLogBuffer "-> ".toList m
def inLine (r : Bytes) : Text := getLogBuffer "<- ".toList r

/-- What a verbose call can come to.  `x`: what the call without the log comes to; `n`: the response length; `link`: the transport before the call sends anything. -/
inductive VCase (lg : Logger) (R : Registry) (mac : Mac) (ch : Chan σ) (link : σ) (log : List Text) (x : Except PyErr ExecResult × MasterSt σ) : Except PyErr ExecResult × MasterSt σ × List Text → Prop
  /-- the call fails before it sends -/
  | nothing (e : PyErr) (he : x.1 = .error e) (hl : x.2.link = link) : VCase lg R mac ch link log x (x.1, (x.2, log))
  /-- the first line cannot be written: nothing is sent -/
  | noOut (m : Bytes) (e : PyErr) (s' : MasterSt σ) (hg : lg log (outLine m) = some e) (hl : s'.link = link) : VCase lg R mac ch link log x (.error e, (s', log))
  /-- no response -/
  | noResponse (m : Bytes) (n : Int) (e : PyErr) (hg : lg log (outLine m) = none) (he : x.1 = .error e) (hl : x.2.link = (ch.send m link).2 ∨ x.2.link = (ch.recv n (ch.send m link).2).2) :
      VCase lg R mac ch link log x (x.1, (x.2, log ++ [outLine m]))
  /-- the second line cannot be written -/
  | noIn (m r : Bytes) (n : Int) (e : PyErr) (hg : lg log (outLine m) = none) (hg' : lg (log ++ [outLine m]) (inLine r) = some e) (hl : x.2.link = (ch.recv n (ch.send m link).2).2) :
      VCase lg R mac ch link log x (.error e, (x.2, log ++ [outLine m]))
  /-- both lines are written -/
  | both (m resp r : Bytes) (rv : Option Bytes) (n : Int) (hg : lg log (outLine m) = none) (hg' : lg (log ++ [outLine m]) (inLine r) = none) (hr : (ch.recv n (ch.send m link).2).1 = .ok resp)
      (hh : callHooks R "modbus.Master.after_recv" (.msg resp) = .ok rv) (hrv : r = rv.getD resp) (hl : x.2.link = (ch.recv n (ch.send m link).2).2) :
      VCase lg R mac ch link log x (x.1, (x.2, log ++ [outLine m, inLine r]))

theorem executeV_cases (lg : Logger) (R : Registry) (mac : Mac) (ch : Chan σ) (a : ExecArgs) (s : MasterSt σ) (log : List Text) :
    VCase lg R mac ch (masterOpen ch s).2.link log (execute R mac ch a s) (executeV true lg R mac ch a (s, log)) := by
  unfold executeV execute
  simp only [PyM.bind_apply, PyM.lift_apply, unlogged_apply]
  cases ho : masterOpen ch s with
  | mk r0 s1 =>
  cases r0 with
  | error e => exact .nothing e rfl rfl
  | ok u =>
  dsimp only
  cases prepare a with
  | error e => exact .nothing e rfl rfl
  | ok p =>
  dsimp only
  cases a.slave with
  | none => exact .nothing _ rfl rfl
  | some slave =>
  simp only [PyM.bind_apply, PyM.lift_apply, unlogged_apply, if_true]
  have hbl : (buildRequest mac p.pdu slave s1).2.link = s1.link := by
    unfold buildRequest
    rcases mac.buildRequest p.pdu slave (mac.new, s1.lastTid) with ⟨_ | _, _⟩ <;> rfl
  cases hb : buildRequest mac p.pdu slave s1 with
  | mk rb s2 =>
  rw [hb] at hbl
  cases rb with
  | error e => exact .nothing e rfl hbl
  | ok rq =>
  obtain ⟨request, q⟩ := rq
  dsimp only at hbl ⊢
  cases callHooks R "modbus.Master.before_send" (.msg request) with
  | error e => exact .nothing e rfl hbl
  | ok rv =>
  simp only [PyM.bind_apply, PyM.lift_apply, unlogged_apply]
  generalize hm : rv.getD request = m
  cases hg : lg log (outLine m) with
  | some e =>
    have hlog : logLine lg (getLogBuffer "-> ".toList m) (s2, log) = (.error e, (s2, log)) := by
      show (match lg log (outLine m) with | none => _ | some e => _) = _; rw [hg]
    rw [hlog]
    exact .noOut m e s2 hg hbl
  | none =>
  have hlog : logLine lg (getLogBuffer "-> ".toList m) (s2, log) = (.ok (), (s2, log ++ [outLine m])) := by
    show (match lg log (outLine m) with | none => _ | some e => _) = _; rw [hg]; rfl
  rw [hlog]
  simp only [PyM.bind_apply, PyM.lift_apply, unlogged_apply]
  have hs3 : (onLink (ch.send m) s2).2.link = (ch.send m s1.link).2 := by rw [← hbl]; rfl
  cases hs : onLink (ch.send m) s2 with
  | mk rs s3 =>
  rw [hs] at hs3
  cases rs with
  | error e => exact .noResponse m 0 e hg rfl (.inl hs3)
  | ok u =>
  dsimp only at hs3 ⊢
  cases callHooks R "modbus.Master.after_send" .obj with
  | error e => exact .noResponse m 0 e hg rfl (.inl hs3)
  | ok rv2 =>
  simp only [PyM.bind_apply, PyM.lift_apply, unlogged_apply]
  have hs4 : (onLink (ch.recv p.expectedLength) s3).2.link = (ch.recv p.expectedLength (ch.send m s1.link).2).2 := by rw [← hs3]; rfl
  have hs4' : (onLink (ch.recv p.expectedLength) s3).1 = (ch.recv p.expectedLength (ch.send m s1.link).2).1 := by rw [← hs3]; rfl
  cases hr : onLink (ch.recv p.expectedLength) s3 with
  | mk rr s4 =>
  rw [hr] at hs4 hs4'
  cases rr with
  | error e => exact .noResponse m p.expectedLength e hg rfl (.inr hs4)
  | ok resp =>
  dsimp only at hs4 hs4' ⊢
  cases hh : callHooks R "modbus.Master.after_recv" (.msg resp) with
  | error e => exact .noResponse m p.expectedLength e hg rfl (.inr hs4)
  | ok rv3 =>
  simp only [PyM.bind_apply, PyM.lift_apply]
  generalize hrv : rv3.getD resp = r
  cases hg' : lg (log ++ [outLine m]) (inLine r) with
  | some e =>
    have hlog' : logLine lg (getLogBuffer "<- ".toList r) (s4, log ++ [outLine m]) = (.error e, (s4, log ++ [outLine m])) := by
      show (match lg _ (inLine r) with | none => _ | some e => _) = _; rw [hg']
    rw [hlog']
    cases (mac.parseResponse r q).1 with
    | error e' => exact .noIn (x := (.error e', s4)) m r p.expectedLength e hg hg' hs4
    | ok pdu => exact .noIn (x := (analyse a p pdu, s4)) m r p.expectedLength e hg hg' hs4
  | none =>
    have hlog' : logLine lg (getLogBuffer "<- ".toList r) (s4, log ++ [outLine m]) = (.ok (), (s4, log ++ [outLine m, inLine r])) := by
      show (match lg _ (inLine r) with | none => _ | some e => _) = _; rw [hg']; simp [inLine]
    rw [hlog']
    cases (mac.parseResponse r q).1 with
    | error e' => exact .both (x := (.error e', s4)) m resp r rv3 p.expectedLength hg hg' hs4'.symm hh hrv.symm hs4
    | ok pdu => exact .both (x := (analyse a p pdu, s4)) m resp r rv3 p.expectedLength hg hg' hs4'.symm hh hrv.symm hs4

/-- **C90 (off).** Without `set_verbose(True)` nothing is logged, whatever handlers there are, and calls and requests have their effects. -/
theorem C90_off (lg : Logger) (R : Registry) (mac : Mac) (ch : Chan σ) (a : ExecArgs) (s : MasterSt σ) (log : List Text) (db : Databank) (request : Bytes) (h : Heap) :
    executeV false lg R mac ch a (s, log) = ((execute R mac ch a s).1, ((execute R mac ch a s).2, log)) ∧
    serverHandleV false lg R mac db request (h, log) = ((serverHandle R mac db request h).1, ((serverHandle R mac db request h).2, log)) := by
  constructor
  · unfold executeV execute
    simp only [PyM.bind_apply, PyM.lift_apply, unlogged_apply]
    rcases masterOpen ch s with ⟨_ | _, s1⟩
    · rfl
    dsimp only
    cases prepare a with
    | error e => rfl
    | ok p =>
      dsimp only
      cases a.slave with
      | none => rfl
      | some slave =>
        simp only [PyM.bind_apply, PyM.lift_apply, unlogged_apply]
        rcases buildRequest mac p.pdu slave s1 with ⟨_ | ⟨request, q⟩, s2⟩
        · rfl
        dsimp only
        cases callHooks R "modbus.Master.before_send" (.msg request) with
        | error e => rfl
        | ok rv =>
          simp only [PyM.bind_apply, PyM.pure_apply, Bool.false_eq_true, if_false, unlogged_apply]
          rcases onLink (ch.send (rv.getD request)) s2 with ⟨_ | _, s3⟩
          · rfl
          dsimp only
          cases callHooks R "modbus.Master.after_send" .obj with
          | error e => rfl
          | ok rv2 =>
            simp only [PyM.bind_apply, PyM.lift_apply, unlogged_apply]
            rcases onLink (ch.recv p.expectedLength) s3 with ⟨_ | resp, s4⟩
            · rfl
            dsimp only
            cases callHooks R "modbus.Master.after_recv" (.msg resp) with
            | error e => rfl
            | ok rv3 =>
              simp only [PyM.bind_apply, PyM.pure_apply, Bool.false_eq_true, if_false, PyM.lift_apply]
              cases (mac.parseResponse (rv3.getD resp) q).1 <;> rfl
  · unfold serverHandleV serverHandle
    simp only [PyM.bind_apply, PyM.pure_apply, Bool.false_eq_true, if_false, PyM.lift_apply, unlogged_apply]
    cases callHooks R "modbus.Server.before_handle_request" (.msg request) with
    | error e => rfl
    | ok rv =>
      dsimp only
      rcases dbHandle R mac db ((replaceIfTruthy rv (some request)).getD []) h with ⟨_ | resp, h1⟩
      · rfl
      dsimp only
      cases callHooks R "modbus.Server.after_handle_request" (msgArg resp) with
      | error e => rfl
      | ok rv2 =>
        dsimp only
        generalize replaceIfTruthy rv2 resp = fin
        rcases fin with _ | ⟨_ | ⟨b, bs⟩⟩ <;> rfl

/-- **C90 (what is logged by a master).** With a handler that never raises, a verbose call returns or raises what the call without log does and has the same effects; it writes one line for the
    message it hands to the transport (`-> `), if it gets that far, and one for the response as the `after_recv` hooks left it (`<- `), if there is one. -/
theorem C90_master (lg : Logger) (hc : lg.Calm) (R : Registry) (mac : Mac) (ch : Chan σ) (a : ExecArgs) (s : MasterSt (σ × List Event)) (log : List Text) :
    ∃ sent received : List Bytes,
      executeV true lg R mac ch.logged a (s, log) = ((execute R mac ch.logged a s).1, ((execute R mac ch.logged a s).2, log ++ sent.map outLine ++ received.map inLine)) ∧
      sentOf (execute R mac ch.logged a s).2.link.2 = sentOf s.link.2 ++ sent ∧ received.length ≤ sent.length ∧ sent.length ≤ 1 ∧
      (∀ v, (execute R mac ch.logged a s).1 = .ok v → received.length = 1) ∧
      (∀ r ∈ received, ∃ n st resp rv, (ch.recv n st).1 = .ok resp ∧ callHooks R "modbus.Master.after_recv" (.msg resp) = .ok rv ∧ r = rv.getD resp) := by
  have hopen := open_log ch s
  have h := executeV_cases lg R mac ch.logged a s log
  generalize execute R mac ch.logged a s = x at h ⊢
  generalize executeV true lg R mac ch.logged a (s, log) = w at h ⊢
  generalize hlk : (masterOpen ch.logged s).2.link = link at h
  rw [hlk] at hopen
  have hs1 : ∀ m, sentOf (ch.logged.send m link).2.2 = sentOf s.link.2 ++ [m] := by
    intro m
    show sentOf (link.2 ++ [.sent m]) = _
    rw [hopen]; simp [sentOf]
  have hs2 : ∀ m n, sentOf (ch.logged.recv n (ch.logged.send m link).2).2.2 = sentOf s.link.2 ++ [m] := by
    intro m n
    show sentOf ((link.2 ++ [.sent m]) ++ [.asked n]) = _
    rw [hopen]; simp [sentOf]
  cases h with
  | nothing e he hl => exact ⟨[], [], by simp, by rw [hl, hopen]; simp, by simp, by simp, by simp [he], by simp⟩
  | noOut m e s' hg hl => rw [hc] at hg; cases hg
  | noResponse m n e hg he hl => exact ⟨[m], [], by simp, by rcases hl with hl | hl <;> rw [hl]; exact hs1 m; exact hs2 m n, by simp, by simp, by simp [he], by simp⟩
  | noIn m r n e hg hg' hl => rw [hc] at hg'; cases hg'
  | both m resp r rv n hg hg' hr hh hrv hl =>
    exact ⟨[m], [r], by simp, by rw [hl]; exact hs2 m n, by simp, by simp, by simp, fun r' h' => by simp at h'; subst h'; exact ⟨n, _, resp, rv, hr, hh, hrv⟩⟩

/-- **C90 (handlers that raise, master).** A call whose first line cannot be written sends nothing; one whose second line cannot be written has all its effects (the request was sent, the response
    read) but raises; apart from this the handler has no influence. -/
theorem C90_master_raising (lg : Logger) (R : Registry) (mac : Mac) (ch : Chan σ) (a : ExecArgs) (s : MasterSt (σ × List Event)) (log : List Text) :
    ((executeV true lg R mac ch.logged a (s, log)).1 = (execute R mac ch.logged a s).1 ∧ (executeV true lg R mac ch.logged a (s, log)).2.1 = (execute R mac ch.logged a s).2) ∨
    (∃ m e, lg log (outLine m) = some e ∧ (executeV true lg R mac ch.logged a (s, log)).1 = .error e ∧ (executeV true lg R mac ch.logged a (s, log)).2.1.link.2 = s.link.2) ∨
    (∃ m r e, lg log (outLine m) = none ∧ lg (log ++ [outLine m]) (inLine r) = some e ∧ executeV true lg R mac ch.logged a (s, log) = (.error e, ((execute R mac ch.logged a s).2, log ++ [outLine m])) ∧
      sentOf (execute R mac ch.logged a s).2.link.2 = sentOf s.link.2 ++ [m]) := by
  have hopen := open_log ch s
  have h := executeV_cases lg R mac ch.logged a s log
  generalize execute R mac ch.logged a s = x at h ⊢
  generalize executeV true lg R mac ch.logged a (s, log) = w at h ⊢
  generalize hlk : (masterOpen ch.logged s).2.link = link at h
  rw [hlk] at hopen
  cases h with
  | nothing e he hl => exact .inl ⟨rfl, rfl⟩
  | noOut m e s' hg hl => exact .inr (.inl ⟨m, e, hg, rfl, by rw [hl, hopen]⟩)
  | noResponse m n e hg he hl => exact .inl ⟨rfl, rfl⟩
  | noIn m r n e hg hg' hl =>
    refine .inr (.inr ⟨m, r, e, hg, hg', rfl, ?_⟩)
    rw [hl]
    show sentOf ((link.2 ++ [.sent m]) ++ [.asked n]) = _
    rw [hopen]; simp [sentOf]
  | both m resp r rv n hg hg' hr hh hrv hl => exact .inl ⟨rfl, rfl⟩

/-- **C90 (server).** A verbose server writes a line for every request, as it arrived and before anything is done with it (`-->`), and one for every response that is not empty, as it is sent
    (`<--`).  If the first line cannot be written the request is not looked at; if the second cannot, it was executed, and there is no response; apart from this the handler has no influence. -/
theorem C90_server (lg : Logger) (R : Registry) (mac : Mac) (db : Databank) (request : Bytes) (h : Heap) (log : List Text) :
    serverHandleV true lg R mac db request (h, log) =
      (match lg log (getLogBuffer "-->".toList request) with
      | some e => (.error e, (h, log))
      | none => match serverHandle R mac db request h with
        | (.error e, h') => (.error e, (h', log ++ [getLogBuffer "-->".toList request]))
        | (.ok none, h') => (.ok none, (h', log ++ [getLogBuffer "-->".toList request]))
        | (.ok (some []), h') => (.ok (some []), (h', log ++ [getLogBuffer "-->".toList request]))
        | (.ok (some (b :: bs)), h') => match lg (log ++ [getLogBuffer "-->".toList request]) (getLogBuffer "<--".toList (b :: bs)) with
          | some e => (.error e, (h', log ++ [getLogBuffer "-->".toList request]))
          | none => (.ok (some (b :: bs)), (h', log ++ [getLogBuffer "-->".toList request] ++ [getLogBuffer "<--".toList (b :: bs)]))) := by
  unfold serverHandleV serverHandle
  simp only [PyM.bind_apply, PyM.lift_apply, unlogged_apply, if_true, PyM.pure_apply, logLine]
  cases hg : lg log (getLogBuffer "-->".toList request) with
  | some e => rfl
  | none =>
    dsimp only
    cases callHooks R "modbus.Server.before_handle_request" (.msg request) with
    | error e => rfl
    | ok rv =>
      dsimp only
      rcases dbHandle R mac db ((replaceIfTruthy rv (some request)).getD []) h with ⟨_ | resp, h1⟩
      · rfl
      dsimp only
      cases callHooks R "modbus.Server.after_handle_request" (msgArg resp) with
      | error e => rfl
      | ok rv2 =>
        dsimp only
        generalize replaceIfTruthy rv2 resp = fin
        rcases fin with _ | ⟨_ | ⟨b, bs⟩⟩
        · rfl
        · rfl
        · simp only [PyM.bind_apply, logLine]
          cases lg (log ++ [getLogBuffer "-->".toList request]) (getLogBuffer "<--".toList (b :: bs)) <;> rfl

/-- **C90 (reading the log).** The bytes can be read off the lines. -/
theorem C90_lines (m m' : Bytes) : (outLine m = outLine m' → m = m') ∧ (inLine m = inLine m' → m = m') ∧ (getLogBuffer "-->".toList m = getLogBuffer "-->".toList m' → m = m') ∧
    (getLogBuffer "<--".toList m = getLogBuffer "<--".toList m' → m = m') :=
  ⟨C55_injective _ m m', C55_injective _ m m', C55_injective _ m m', C55_injective _ m m'⟩

/-! ## Instances -/

/-- a handler that cannot write lines with a given start -/
def failsAt (start : Text) : Logger := fun _ line => if start.isPrefixOf line then some .osError else none

-- a verbose write over TCP, and what the server does with a log that fails at responses: the register is written, the answer is lost
example : (executeV true (fun _ _ => none) [] tcpMac (serverLink [] tcpMac) ((Call.writeRegister 11 5).args 1) (exNet, [])).2.2 =
    ["-> 0-0-0-0-0-6-1-6-0-11-0-5".toList, "<- 0-0-0-0-0-6-1-6-0-11-0-5".toList] := by
  decide +kernel

-- a server whose log fails at responses: the register is written, there is no response; with a log that works both lines are there
example : (serverHandleV true (failsAt "<--".toList) [] tcpMac exTwo.st.db [0, 0, 0, 0, 0, 6, 1, 6, 0, 11, 0, 5] (exTwo.st.heap, [])).1 = .error .osError ∧
    (absMem (serverHandleV true (failsAt "<--".toList) [] tcpMac exTwo.st.db [0, 0, 0, 0, 0, 6, 1, 6, 0, 11, 0, 5] (exTwo.st.heap, [])).2.1 ⟨1, true, [("a", (3, 10))], 0⟩).holding.val 11 = 5 ∧
    (serverHandleV true (failsAt "?".toList) [] tcpMac exTwo.st.db [0, 0, 0, 0, 0, 6, 1, 3, 0, 11, 0, 1] (exTwo.st.heap, [])).2.2 =
      ["-->0-0-0-0-0-6-1-3-0-11-0-1".toList, "<--0-0-0-0-0-5-1-3-2-0-0".toList] := by
  decide +kernel

-- a master whose log fails: nothing is sent
example : (executeV true (failsAt "->".toList) [] tcpMac (serverLink [] tcpMac).logged ((Call.writeRegister 11 5).args 1) (⟨false, (exNet.link, []), 65535⟩, [])).1 = .error .osError ∧
    (executeV true (failsAt "->".toList) [] tcpMac (serverLink [] tcpMac).logged ((Call.writeRegister 11 5).args 1) (⟨false, (exNet.link, []), 65535⟩, [])).2.1.link.2 = [] := by
  decide +kernel

end Modbus
