import Verif.Model.MasterExample
import Verif.Model.TcpMaster
import Verif.Props.SlaveExample
import Verif.Props.EndToEnd
/-
# C108: the example programs with a master
-/
namespace Modbus
open Spec (Call Mem)

/-! ## the specification -/

/-- what the program shows for calls on a memory, how many calls it makes, and the memory afterwards: one line for each call up to the first refused one -/
def specProgram (u : Bool) : List Call → Mem → List Text × Nat × Mem
  | [], m => ([], 0, m)
  | c :: cs, m =>
    match c.answer u m with
    | .ok vs => let r := specProgram u cs (c.after u m); (shownTuple vs :: r.1, r.2.1 + 1, r.2.2)
    | .error code => (["Modbus Error: Exception code = ".toList ++ intText code.toNat ++ "- Code=".toList ++ intText code.toNat], 1, c.after u m)

/-! ## the proof -/

variable {σ : Type}

theorem queryLoop_ok (raw : Bytes → Text) (exec : ExecArgs → PyM σ ExecResult) (a : ExecArgs) (rest : List ExecArgs) {s s' : σ} {r : ExecResult}
    (h : exec a s = (.ok r, s')) : queryLoop raw exec (a :: rest) s =
      { queryLoop raw exec rest s' with lines := resultText raw r :: (queryLoop raw exec rest s').lines } := by
  rw [queryLoop, h]

theorem queryLoop_error (raw : Bytes → Text) (exec : ExecArgs → PyM σ ExecResult) (a : ExecArgs) (rest : List ExecArgs) {s s' : σ} {e : PyErr}
    (h : exec a s = (.error e, s')) : queryLoop raw exec (a :: rest) s = ⟨[], some e, rest, s'⟩ := by
  rw [queryLoop, h]

theorem handled_cons (t : MasterRun σ) (l : Text) :
    MasterRun.handled { t with lines := l :: t.lines } = { t.handled with lines := l :: t.handled.lines } := by
  unfold MasterRun.handled
  cases h : t.raised with
  | none => simp only [h]
  | some e => cases e <;> simp only [h, List.cons_append]

/-- **C108.** Against a modbus-tk slave, over TCP or RTU, the program writes "connected", then one line for every call that is answered, with exactly the values the
    specification gives; the first refused call is reported with its code, twice in one line, and no further call is made.  The program ends without exception,
    and the memory is the one the calls made leave. -/
theorem C108_lines (raw : Bytes → Text) (R : Registry) (hR : Quiet R) (mac : Mac) (hmac : mac = tcpMac ∨ mac = rtuMac) (id : Int) (h0 : 1 ≤ id)
    (h1 : id ≤ 255) (sl : Slave) (r : Refs) (s : MasterSt Net) (hs : Ready id sl r s) (cs : List Call)
    (hc : ∀ c ∈ cs, c.Fits ∧ c.pdu.length ≤ 65534 ∧ (sl.unsigned = true ∨ ∀ a am om, c ≠ .maskWrite a am om)) :
    let t := exampleMaster raw none (execute R mac (serverLink R mac)) (cs.map fun c => c.args id) s
    let spec := specProgram sl.unsigned cs (absMem s.link.heap sl)
    t.lines = "connected".toList :: spec.1 ∧ t.raised = none ∧ t.unmade = (cs.drop spec.2.1).map (fun c => c.args id) ∧
      absMem t.st.link.heap sl = spec.2.2 := by
  intro t spec
  have ht : t = _ := handled_cons _ _
  rw [ht]
  clear ht
  suffices h : (queryLoop raw (execute R mac (serverLink R mac)) (cs.map fun c => c.args id) s).handled.lines = spec.1 ∧
      (queryLoop raw (execute R mac (serverLink R mac)) (cs.map fun c => c.args id) s).handled.raised = none ∧
      (queryLoop raw (execute R mac (serverLink R mac)) (cs.map fun c => c.args id) s).handled.unmade = (cs.drop spec.2.1).map (fun c => c.args id) ∧
      absMem (queryLoop raw (execute R mac (serverLink R mac)) (cs.map fun c => c.args id) s).handled.st.link.heap sl = spec.2.2 by
    exact ⟨congrArg _ h.1, h.2⟩
  clear t
  unfold spec
  clear spec
  induction cs generalizing s with
  | nil => exact ⟨rfl, rfl, rfl, rfl⟩
  | cons c cs ih =>
    obtain ⟨a1, a2, a3⟩ := hc c (by simp)
    obtain ⟨s', e1, e2, e3⟩ := C34_either R hR mac hmac id h0 h1 sl r s hs c a1 a2 a3
    have ih := ih s' e3 (fun c h => hc c (by simp [h]))
    rw [e2] at ih
    rw [List.map_cons]
    cases ha : c.answer sl.unsigned (absMem s.link.heap sl) with
    | ok vs =>
      rw [ha] at e1
      rw [queryLoop_ok raw _ _ _ e1, handled_cons]
      simp only [specProgram, ha, List.drop_succ_cons]
      exact ⟨by rw [ih.1, resultText, tupleText_eq], ih.2⟩
    | error code =>
      rw [ha] at e1
      rw [queryLoop_error raw _ _ _ e1]
      simp only [specProgram, ha]
      exact ⟨rfl, rfl, rfl, e2⟩

/-- **C108 (the query of the example).** The only query that is not a comment: `execute(1, READ_HOLDING_REGISTERS, 0, 3)`. -/
theorem C108_three (raw : Bytes → Text) (R : Registry) (hR : Quiet R) (mac : Mac) (hmac : mac = tcpMac ∨ mac = rtuMac) (sl : Slave) (r : Refs) (s : MasterSt Net)
    (hs : Ready 1 sl r s) :
    let t := exampleMaster raw none (execute R mac (serverLink R mac)) [(Call.readHolding 0 3).args 1] s
    let v := (absMem s.link.heap sl).holding.val
    t.raised = none ∧ t.lines = ["connected".toList,
      if (absMem s.link.heap sl).holding.covers 0 3 then
        "(".toList ++ intText (v 0 % 65536) ++ ", ".toList ++ intText (v 1 % 65536) ++ ", ".toList ++ intText (v 2 % 65536) ++ ")".toList
      else "Modbus Error: Exception code = 2- Code=2".toList] := by
  intro t v
  have h := C108_lines raw R hR mac hmac 1 (by decide) (by decide) sl r s hs [.readHolding 0 3] (by
    intro c hc
    cases List.mem_singleton.mp hc
    exact ⟨by decide, by decide, .inr (fun _ _ _ => nofun)⟩)
  refine ⟨h.2.1, h.1.trans (congrArg _ ?_)⟩
  have e0 : ((Spec.toWord 0).toNat : Int) = 0 := by decide
  have e3 : (Spec.toWord 3).toNat = 3 := by decide
  have hx : (Spec.exec sl.unsigned (absMem s.link.heap sl) (Call.toReq (.readHolding 0 3))).1 = Spec.readRegs (absMem s.link.heap sl).holding (Spec.toWord 0) (Spec.toWord 3) := rfl
  unfold v
  by_cases hb : (absMem s.link.heap sl).holding.covers 0 3 = true
  · have ha : Call.answer sl.unsigned (absMem s.link.heap sl) (.readHolding 0 3) = .ok (((absMem s.link.heap sl).holding.read 0 3).map (fun v => v % 65536)) := by
      unfold Call.answer
      rw [hx]
      simp [Spec.readRegs, e0, e3, hb]
    simp only [specProgram, ha, if_pos hb]
    simp [Spec.Table.read, shownTuple, List.range_succ]
  · have ha : Call.answer sl.unsigned (absMem s.link.heap sl) (.readHolding 0 3) = .error 2 := by
      unfold Call.answer
      rw [hx]
      simp [Spec.readRegs, e0, e3, hb]
    simp only [specProgram, ha, if_neg hb]
    decide +kernel

/-- **C108 (finding).** Only `ModbusError` is caught: any other exception - no connection, a time-out, a wrong checksum - ends the program, after the lines of the calls before. -/
theorem C108_raises (raw : Bytes → Text) (exec : ExecArgs → PyM σ ExecResult) (a : ExecArgs) (rest : List ExecArgs) (s s' : σ) (e : PyErr)
    (h : exec a s = (.error e, s')) (he : ∀ code, e ≠ .modbusError code) :
    exampleMaster raw none exec (a :: rest) s = ⟨["connected".toList], some e, rest, s'⟩ := by
  unfold exampleMaster
  dsimp only
  rw [queryLoop_error raw _ _ _ h]
  unfold MasterRun.handled
  cases e <;> first | rfl | exact absurd rfl (he _)

/-- **C108 (finding).** "connected" says nothing: the master connects with the first query.  If the connection is refused the program has written "connected", and ends with
    the exception of `connect`; if the serial port cannot be opened it ends without a line. -/
theorem C108_false_connected (raw : Bytes → Text) (R : Registry) (hR : Quiet R) (mac : Mac) (a : ExecArgs) (rest : List ExecArgs) (s : MasterSt TcpLink)
    (hs : s.isOpened = false) (hp : s.link.peers.head?.join = none) :
    ∃ s', exampleMaster raw none (execute R mac (tcpChan R)) (a :: rest) s = ⟨["connected".toList], some .osError, rest, s'⟩ := by
  have ho : ∃ s', execute R mac (tcpChan R) a s = (.error .osError, s') := by
    unfold execute
    rw [PyM.bind_apply]
    unfold masterOpen
    rw [hs]
    simp only [tcpChan, tcpDoOpen, hR _ _, Bool.false_eq_true, if_false]
    cases hl : s.link.peers with
    | nil => exact ⟨_, rfl⟩
    | cons p ps =>
      rw [hl] at hp
      cases p with
      | some k => cases hp
      | none => exact ⟨_, rfl⟩
  obtain ⟨s', ho⟩ := ho
  exact ⟨s', C108_raises raw _ a rest s s' _ ho nofun⟩

theorem C108_false_port (raw : Bytes → Text) (exec : ExecArgs → PyM σ ExecResult) (queries : List ExecArgs) (s : σ) (e : PyErr) (he : ∀ code, e ≠ .modbusError code) :
    exampleMaster raw (some e) exec queries s = ⟨[], some e, queries, s⟩ := by
  unfold exampleMaster MasterRun.handled
  cases e <;> first | rfl | exact absurd rfl (he _)

/-! ## executions -/

-- a server with holding registers 10 .. 14: a write, a read, a refused read, and a query that is not made; over TCP and over RTU
theorem C108_example : (exampleMaster (fun _ => []) none (execute [] tcpMac (serverLink [] tcpMac)) ([.writeRegisters 11 [-1, 40000], .readHolding 10 3, .readHolding 0 3, .readHolding 11 1].map
      fun c => Call.args 1 c) exNet).lines =
    ["connected".toList, "(11, 2)".toList, "(0, 65535, 40000)".toList, "Modbus Error: Exception code = 2- Code=2".toList] ∧
  (exampleMaster (fun _ => []) none (execute [] rtuMac (serverLink [] rtuMac)) ([.writeRegister 14 7, .readHolding 14 1].map fun c => Call.args 1 c) exNet).lines =
    ["connected".toList, "(14, 7)".toList, "(7,)".toList] := by
  decide +kernel

end Modbus
