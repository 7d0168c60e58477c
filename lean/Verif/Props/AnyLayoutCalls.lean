import Verif.Props.AnyLayout
import Verif.Props.EndToEnd
/-
# C100: a master and a server, whatever the blocks of the slave are

C33 and C34 are about disjoint blocks.  Here the blocks may overlap, and the slave may even fail: the transports add nothing to what `handle_request` of the slave does, and
nothing is lost in between.
-/
namespace Modbus
open Spec (word toWord ofWord bytesFor packBits wordAt bitAt Fits8 Fits16 FitsReg toByte Call tcpAdu rtuAdu)

/-! ## Specification -/

/-- the server knows slave `id`, no old response is on its way, and the counter of transactions is a 16-bit number; nothing about the blocks of the slave -/
structure Linked (id : Int) (sl : Slave) (s : MasterSt Net) : Prop where
  known : Dict.get? s.link.db.slaves id = some sl
  clean : s.link.back = []
  tid : 0 ≤ s.lastTid ∧ s.lastTid ≤ 65535

/-- the call raises ModbusError with code 2 (illegal data address), and the memory of the server is as before -/
def Refused (R : Registry) (mac : Mac) (id : Int) (c : Call) (s : MasterSt Net) : Prop :=
  ∃ s', execute R mac (serverLink R mac) (c.args id) s = (.error (.modbusError 2), s') ∧ s'.link.heap = s.link.heap ∧ s'.link.db = s.link.db

/-! ## The two transports -/

section
variable {R : Registry} {mac : Mac} {id : Int} {sl : Slave} {s : MasterSt Net}

/-- what the ideal link does with a message -/
theorem serverLink_send {request : Bytes} {l : Net} (hR : Quiet R) (hc : l.back = []) {b : Option Bytes} {h' : Heap} (hdb : dbHandle R mac l.db request l.heap = (.ok b, h')) :
    (serverLink R mac).send request l = (.ok (), { l with heap := h', back := b.getD [] }) := by
  show (match serverHandle R mac l.db request l.heap with
    | (.ok r, h) => ((Except.ok () : Except PyErr Unit), { l with heap := h, back := l.back ++ r.getD [] })
    | (.error _, h) => (.ok (), { l with heap := h })) = _
  rw [serverHandle_quiet hR, hdb]
  dsimp only
  rw [hc]
  rfl

theorem toNat_unit (h0 : 1 ≤ id) (h1 : id ≤ 255) : ((UInt8.ofNat id.toNat).toNat : Int) = id := by
  rw [UInt8.toNat_ofNat', Nat.mod_eq_of_lt (by omega)]; omega

/-- **The transports are transparent.** If the slave answers the pdu of the call by `rep`, the master analyses exactly `rep`, and the memory of the server is what the slave made of it. -/
theorem C100_transparent (hR : Quiet R) (hmac : mac = tcpMac ∨ mac = rtuMac) (h0 : 1 ≤ id) (h1 : id ≤ 255) (l : Linked id sl s) (c : Call) (hc : c.Fits) (hl : c.pdu.length ≤ 65534)
    {rep : Bytes} {h' : Heap} (hreq : handleRequest R sl c.pdu false s.link.heap = (.ok rep, h')) (hrl : rep.length ≤ 65534) :
    ∃ s', execute R mac (serverLink R mac) (c.args id) s = (analyse (c.args id) c.prepared rep, s') ∧ s'.link.heap = h' ∧ s'.link.db = s.link.db ∧ Linked id sl s' := by
  have ho := open_serverLink R mac s
  have hp := prepare_call id hc
  have hid := toNat_unit h0 h1
  rcases hmac with rfl | rfl
  · have hl' : c.prepared.pdu.length ≤ 65534 := by rw [prepared_pdu]; exact hl
    obtain ⟨q, hb, q1, q2, q3⟩ := buildRequest_tcp (pdu := c.prepared.pdu) hl' (by omega : 0 ≤ id) h1 (s := { s with isOpened := true }) l.tid
    dsimp only at hb q1
    rw [execute_main hR ho hp (args_slave c id) hb, prepared_pdu]
    generalize htid : UInt16.ofNat ((s.lastTid + 1) % 65536).toNat = tid
    rw [htid] at q1
    generalize hu : UInt8.ofNat id.toNat = unit at hid q3
    have hpr : tcpMac.parseRequest (tcpAdu tid 0 unit c.pdu) tcpMac.new = _ := tcpParseRequest_adu tid 0 unit hl (tcpMac.new : TcpQuery)
    have e4 := tcpBuildResponse_adu tid 0 unit (pdu := rep) hrl
      ({ (tcpMac.new : TcpQuery) with request := ⟨tid.toNat, (0 : UInt16).toNat, c.pdu.length + 1, unit.toNat⟩ }) ⟨_, rfl⟩
    have hdb : dbHandle R tcpMac s.link.db (tcpAdu tid 0 unit c.pdu) s.link.heap = (.ok (some (tcpAdu tid 0 unit rep)), h') :=
      dbHandle_some hpr (by omega) (by rw [hid]; exact l.known) hreq e4
    rw [serverLink_send hR l.clean hdb]
    dsimp only
    rw [Option.getD_some, serverLink_recv R tcpMac _ _ (by simp [tcpAdu, word])]
    dsimp only
    rw [show (tcpMac.parseResponse (tcpAdu tid 0 unit rep) q).1 = _ from (C24_accepts (tcpAdu tid 0 unit rep) q rep).mpr ⟨_, _, _, rfl, hrl, q1, q2, q3⟩]
    exact ⟨_, rfl, rfl, rfl, ⟨l.known, rfl, by dsimp only; omega⟩⟩
  · obtain ⟨q, hb, q1⟩ := buildRequest_rtu (pdu := c.prepared.pdu) (by omega : 0 ≤ id) h1 (s := { s with isOpened := true })
    rw [execute_main hR ho hp (args_slave c id) hb, prepared_pdu]
    generalize hu : UInt8.ofNat id.toNat = unit at hid q1
    have hpr : rtuMac.parseRequest (rtuAdu unit c.pdu) rtuMac.new = _ := rtuParseRequest_adu unit c.pdu (rtuMac.new : RtuQuery)
    have e4 := rtuBuildResponse_adu unit rep ({ (rtuMac.new : RtuQuery) with requestAddress := (unit.toNat : Int) }) rfl
    have hdb : dbHandle R rtuMac s.link.db (rtuAdu unit c.pdu) s.link.heap = (.ok (some (rtuAdu unit rep)), h') :=
      dbHandle_some hpr (by omega) (by rw [hid]; exact l.known) hreq e4
    rw [serverLink_send hR l.clean hdb]
    dsimp only
    rw [Option.getD_some, serverLink_recv R rtuMac _ _ (by simp [rtuAdu])]
    dsimp only
    rw [show (rtuMac.parseResponse (rtuAdu unit rep) q).1 = _ from ((C25_response (rtuAdu unit rep) q).1 rep).mpr ⟨_, rfl, q1⟩]
    exact ⟨_, rfl, rfl, rfl, ⟨l.known, rfl, l.tid⟩⟩

/-- **A slave that fails.** If `handle_request` of the slave raises (`struct.error` for a value that cannot be sent, for instance), the server answers two bytes that are no frame of
    the protocol (C22), and `execute` raises ModbusInvalidResponseError; what the slave had stored before it failed stays stored. -/
theorem C100_raises (hR : Quiet R) (hmac : mac = tcpMac ∨ mac = rtuMac) (h0 : 1 ≤ id) (h1 : id ≤ 255) (l : Linked id sl s) (c : Call) (hc : c.Fits) (hl : c.pdu.length ≤ 65534)
    {e : PyErr} {h' : Heap} (hreq : handleRequest R sl c.pdu false s.link.heap = (.error e, h')) (he1 : e ≠ .invalidRequest) (he2 : e ≠ .missingKey) :
    ∃ s', execute R mac (serverLink R mac) (c.args id) s = (.error .invalidResponse, s') ∧ s'.link.heap = h' ∧ s'.link.db = s.link.db ∧ Linked id sl s' := by
  have ho := open_serverLink R mac s
  have hp := prepare_call id hc
  have hid := toNat_unit h0 h1
  have hne : ∃ fc rest, c.pdu = fc :: rest ∧ fc.toNat < 128 := by
    rw [pdu_toReq]
    have := (toReq_fc_lt c).2
    cases h : c.toReq with
    | _ => rw [h] at this; exact ⟨_, _, rfl, this⟩
  obtain ⟨fc, rest, hpdu, hfc⟩ := hne
  have hex : dbExcept R c.pdu e h' = (.ok (some [fc + 128, 4]), h') := by
    have hu : unpackSingle Code.B [fc] = .ok (fc.toNat : Int) := by rw [unpackSingle_ok rfl, unpackOne_B]
    have hs : Modbus.slice (fc :: rest) 0 1 = [fc] := by simp [Modbus.slice]
    have hpk : structPack (be [Code.B, Code.B]) [(fc.toNat : Int) + 0x80, defines.SLAVE_DEVICE_FAILURE] = .ok [fc + 128, 4] := packBB_exc fc 4 hfc
    rw [hpdu]
    cases e <;> first | exact absurd rfl he1 | exact absurd rfl he2 |
      (simp only [dbExcept, PyM.bind_apply, callHook_quiet hR, List.length_cons, gt_iff_lt, Nat.zero_lt_succ, if_true, hs, hu, PyM.lift_apply, hpk]; rfl)
  rcases hmac with rfl | rfl
  · have hl' : c.prepared.pdu.length ≤ 65534 := by rw [prepared_pdu]; exact hl
    obtain ⟨q, hb, q1, q2, q3⟩ := buildRequest_tcp (pdu := c.prepared.pdu) hl' (by omega : 0 ≤ id) h1 (s := { s with isOpened := true }) l.tid
    dsimp only at hb q1
    rw [execute_main hR ho hp (args_slave c id) hb, prepared_pdu]
    generalize htid : UInt16.ofNat ((s.lastTid + 1) % 65536).toNat = tid
    generalize hu : UInt8.ofNat id.toNat = unit at hid q3
    have hpr : tcpMac.parseRequest (tcpAdu tid 0 unit c.pdu) tcpMac.new = _ := tcpParseRequest_adu tid 0 unit hl (tcpMac.new : TcpQuery)
    have hdb : dbHandle R tcpMac s.link.db (tcpAdu tid 0 unit c.pdu) s.link.heap = (.ok (some [fc + 128, 4]), h') :=
      (dbHandle_raises hpr (by omega) (by rw [hid]; exact l.known) hreq).trans hex
    rw [serverLink_send hR l.clean hdb]
    dsimp only
    rw [Option.getD_some, serverLink_recv R tcpMac _ _ (by simp)]
    dsimp only
    rw [C24_rejects [fc + 128, 4] q (fun pdu tid pid unit h => by
      have := congrArg List.length h
      simp [tcpAdu, word] at this)]
    exact ⟨_, rfl, rfl, rfl, ⟨l.known, rfl, by dsimp only; omega⟩⟩
  · obtain ⟨q, hb, q1⟩ := buildRequest_rtu (pdu := c.prepared.pdu) (by omega : 0 ≤ id) h1 (s := { s with isOpened := true })
    rw [execute_main hR ho hp (args_slave c id) hb, prepared_pdu]
    generalize hu : UInt8.ofNat id.toNat = unit at hid q1
    have hpr : rtuMac.parseRequest (rtuAdu unit c.pdu) rtuMac.new = _ := rtuParseRequest_adu unit c.pdu (rtuMac.new : RtuQuery)
    have hdb : dbHandle R rtuMac s.link.db (rtuAdu unit c.pdu) s.link.heap = (.ok (some [fc + 128, 4]), h') :=
      (dbHandle_raises hpr (by omega) (by rw [hid]; exact l.known) hreq).trans hex
    rw [serverLink_send hR l.clean hdb]
    dsimp only
    rw [Option.getD_some, serverLink_recv R rtuMac _ _ (by simp)]
    dsimp only
    rw [(C25_response [fc + 128, 4] q).2 (fun pdu a h => by
      have := congrArg List.length h
      simp [rtuAdu] at this)]
    exact ⟨_, rfl, rfl, rfl, ⟨l.known, rfl, l.tid⟩⟩

end

/-! ## Calls on a slave with any layout -/

section
variable {R : Registry} {mac : Mac} {id : Int} {sl : Slave} {s : MasterSt Net}

/-- a table with one region that holds the values -/
def rangeTable (a : Int) (vs : List Int) : Spec.Table := ⟨[(a, vs.length)], fun x => vs.getD (x - a).toNat 0⟩

theorem rangeTable_covers (a : Int) (vs : List Int) : (rangeTable a vs).covers a vs.length = true := by
  simp [rangeTable, Spec.Table.covers]

theorem rangeTable_read (a : Int) (vs : List Int) : (rangeTable a vs).read a vs.length = vs := by
  apply List.ext_getElem
  · simp [Spec.Table.read]
  · intro i h1 h2
    simp only [Spec.Table.read, rangeTable, List.getElem_map, List.getElem_range]
    rw [show (a + (i : Int) - a).toNat = i by omega]
    simp [h2]

/-- the same values in all four tables -/
def rangeMem (a : Int) (vs : List Int) : Spec.Mem := ⟨rangeTable a vs, rangeTable a vs, rangeTable a vs, rangeTable a vs⟩

/-- a reply that some memory would give is analysed as the answer that memory gives -/
theorem execute_like (hR : Quiet R) (hmac : mac = tcpMac ∨ mac = rtuMac) (h0 : 1 ≤ id) (h1 : id ≤ 255) (l : Linked id sl s) (c : Call) (hc : c.Fits) (hl : c.pdu.length ≤ 65534)
    (u : Bool) (m : Spec.Mem) {h' : Heap} (hreq : handleRequest R sl c.pdu false s.link.heap = (.ok ((Spec.exec u m c.toReq).1.encode c.toReq.fc), h')) :
    ∃ s', execute R mac (serverLink R mac) (c.args id) s = (outcome (c.answer u m), s') ∧ s'.link.heap = h' ∧ s'.link.db = s.link.db ∧ Linked id sl s' := by
  have hrl := reply_length u m c.toReq
  obtain ⟨s', e1, e2⟩ := C100_transparent hR hmac h0 h1 l c hc hl hreq (by omega)
  exact ⟨s', by rw [e1, analyse_reply u m c hc], e2⟩

theorem toWord_nat {n : Nat} (h : n ≤ 65535) : (toWord (n : Int)).toNat = n := by
  have := toWord_toNat (v := (n : Int)) ⟨by omega, by omega⟩; omega

theorem Block.cells_length {b : Block} (hw : b.WF) {a : Int} {n : Nat} (h1 : b.start ≤ a) (h2 : a + n ≤ b.start + b.size) : (b.cells a n).length = n := by
  have := hw.len
  unfold Block.cells
  simp
  omega

theorem Sound.addressed_cells {h : Heap} {r : Refs} (g : Sound h sl r) {t : Int} (ht : t ∈ [(1 : Int), 2, 3, 4]) {a : Int} {n i : Nat} {b : Block}
    (hi : addressed (blocksOf h sl t) a n = some i) (hb : (blocksOf h sl t)[i]? = some b) : (b.cells a n).length = n := by
  obtain ⟨c, g1, g2, _, g4, g5⟩ := findBlock_addressed hi
  rw [g1] at hb
  cases hb
  have T := tables g.refs
  refine Block.cells_length ?_ g4 g5
  simp only [List.mem_cons, List.not_mem_nil, or_false] at ht
  rcases ht with rfl | rfl | rfl | rfl
  · rw [T.1] at g2; exact g.wf _ (by simp) _ g2
  · rw [T.2.1] at g2; exact g.wf _ (by simp) _ g2
  · rw [T.2.2.1] at g2; exact g.wf _ (by simp) _ g2
  · rw [T.2.2.2] at g2; exact g.wf _ (by simp) _ g2

/-- **C100 (reading registers).** `execute` returns the cells of the first block that contains the range, each as an unsigned number, and nothing changes. -/
theorem C100_read_registers (hR : Quiet R) (hmac : mac = tcpMac ∨ mac = rtuMac) (h0 : 1 ≤ id) (h1 : id ≤ 255) (l : Linked id sl s) {r : Refs} (g : Sound s.link.heap sl r)
    (a : Int) (ha : Fits16 a) (n : Nat) (hn : 1 ≤ n ∧ n ≤ 125) {i : Nat} {b : Block} :
    (addressed (blocksOf s.link.heap sl 3) a n = some i → (blocksOf s.link.heap sl 3)[i]? = some b →
      ∃ s', execute R mac (serverLink R mac) ((Call.readHolding a n).args id) s = (.ok (.values ((b.cells a n).map fun v => v % 65536)), s') ∧
        s'.link.heap = s.link.heap ∧ s'.link.db = s.link.db ∧ Linked id sl s') ∧
    (addressed (blocksOf s.link.heap sl 4) a n = some i → (blocksOf s.link.heap sl 4)[i]? = some b →
      ∃ s', execute R mac (serverLink R mac) ((Call.readInput a n).args id) s = (.ok (.values ((b.cells a n).map fun v => v % 65536)), s') ∧
        s'.link.heap = s.link.heap ∧ s'.link.db = s.link.db ∧ Linked id sl s') := by
  have hn16 := toWord_nat (n := n) (by omega)
  have ha16 := toWord_toNat ha
  have fits : Fits16 (n : Int) := ⟨by omega, by omega⟩
  constructor
  · intro hi hb
    have hcl := g.addressed_cells (by simp) hi hb
    have hq := C81_read_registers hR g 3 (.inl rfl) (toWord a) (toWord n) (by omega) (i := i) (b := b) (by rw [ha16, hn16]; exact hi) hb
    rw [ha16, hn16] at hq
    have cov := rangeTable_covers a (b.cells a n)
    have rd := rangeTable_read a (b.cells a n)
    rw [hcl] at cov rd
    have hex : (Spec.exec true (rangeMem a (b.cells a n)) (Call.readHolding a n).toReq).1 = .ok (UInt8.ofNat (2 * n) :: (b.cells a n).flatMap fun v => word (toWord v)) := by
      simp only [Call.toReq, Spec.exec, Spec.readRegs, rangeMem, ha16, hn16, cov, rd]
      rw [if_neg (by omega), if_neg (by simp)]
    obtain ⟨s', e1, e2⟩ := execute_like hR hmac h0 h1 l (.readHolding a n) ⟨ha, fits⟩ (C38_length (.readHolding a n) ⟨ha, fits⟩ (by simp)) true (rangeMem a (b.cells a n))
      (h' := s.link.heap) (by rw [hex]; exact hq)
    refine ⟨s', ?_, e2⟩
    rw [e1]
    simp only [Call.answer, hex, outcome]
    simp only [rangeMem, Int.toNat_natCast, rd]
  · intro hi hb
    have hcl := g.addressed_cells (by simp) hi hb
    have hq := C81_read_registers hR g 4 (.inr rfl) (toWord a) (toWord n) (by omega) (i := i) (b := b) (by rw [ha16, hn16]; exact hi) hb
    rw [ha16, hn16] at hq
    have cov := rangeTable_covers a (b.cells a n)
    have rd := rangeTable_read a (b.cells a n)
    rw [hcl] at cov rd
    have hex : (Spec.exec true (rangeMem a (b.cells a n)) (Call.readInput a n).toReq).1 = .ok (UInt8.ofNat (2 * n) :: (b.cells a n).flatMap fun v => word (toWord v)) := by
      simp only [Call.toReq, Spec.exec, Spec.readRegs, rangeMem, ha16, hn16, cov, rd]
      rw [if_neg (by omega), if_neg (by simp)]
    obtain ⟨s', e1, e2⟩ := execute_like hR hmac h0 h1 l (.readInput a n) ⟨ha, fits⟩ (C38_length (.readInput a n) ⟨ha, fits⟩ (by simp)) true (rangeMem a (b.cells a n))
      (h' := s.link.heap) (by rw [hex]; exact hq)
    refine ⟨s', ?_, e2⟩
    rw [e1]
    simp only [Call.answer, hex, outcome]
    simp only [rangeMem, Int.toNat_natCast, rd]

/-- **C100 (reading bits).** -/
theorem C100_read_bits (hR : Quiet R) (hmac : mac = tcpMac ∨ mac = rtuMac) (h0 : 1 ≤ id) (h1 : id ≤ 255) (l : Linked id sl s) {r : Refs} (g : Sound s.link.heap sl r)
    (a : Int) (ha : Fits16 a) (n : Nat) (hn : 1 ≤ n ∧ n ≤ 2000) {i : Nat} {b : Block} :
    (addressed (blocksOf s.link.heap sl 1) a n = some i → (blocksOf s.link.heap sl 1)[i]? = some b →
      ∃ s', execute R mac (serverLink R mac) ((Call.readCoils a n).args id) s = (.ok (.values ((b.cells a n).map fun v => if v ≠ 0 then 1 else 0)), s') ∧
        s'.link.heap = s.link.heap ∧ s'.link.db = s.link.db ∧ Linked id sl s') ∧
    (addressed (blocksOf s.link.heap sl 2) a n = some i → (blocksOf s.link.heap sl 2)[i]? = some b →
      ∃ s', execute R mac (serverLink R mac) ((Call.readDiscrete a n).args id) s = (.ok (.values ((b.cells a n).map fun v => if v ≠ 0 then 1 else 0)), s') ∧
        s'.link.heap = s.link.heap ∧ s'.link.db = s.link.db ∧ Linked id sl s') := by
  have hn16 := toWord_nat (n := n) (by omega)
  have ha16 := toWord_toNat ha
  have fits : Fits16 (n : Int) := ⟨by omega, by omega⟩
  constructor
  · intro hi hb
    have hcl := g.addressed_cells (by simp) hi hb
    have hq := C81_read_bits hR g 1 (.inl rfl) (toWord a) (toWord n) (by omega) (i := i) (b := b) (by rw [ha16, hn16]; exact hi) hb
    rw [ha16, hn16] at hq
    have cov := rangeTable_covers a (b.cells a n)
    have rd := rangeTable_read a (b.cells a n)
    rw [hcl] at cov rd
    have hex : (Spec.exec true (rangeMem a (b.cells a n)) (Call.readCoils a n).toReq).1 = .ok (UInt8.ofNat (bytesFor n) :: packBits ((b.cells a n).map fun v => v != 0)) := by
      simp only [Call.toReq, Spec.exec, Spec.readBits, rangeMem, ha16, hn16, cov, rd]
      rw [if_neg (by omega), if_neg (by simp)]
    obtain ⟨s', e1, e2⟩ := execute_like hR hmac h0 h1 l (.readCoils a n) ⟨ha, fits⟩ (C38_length (.readCoils a n) ⟨ha, fits⟩ (by simp)) true (rangeMem a (b.cells a n))
      (h' := s.link.heap) (by rw [hex]; exact hq)
    refine ⟨s', ?_, e2⟩
    rw [e1]
    simp only [Call.answer, hex, outcome]
    simp only [rangeMem, Int.toNat_natCast, rd]
  · intro hi hb
    have hcl := g.addressed_cells (by simp) hi hb
    have hq := C81_read_bits hR g 2 (.inr rfl) (toWord a) (toWord n) (by omega) (i := i) (b := b) (by rw [ha16, hn16]; exact hi) hb
    rw [ha16, hn16] at hq
    have cov := rangeTable_covers a (b.cells a n)
    have rd := rangeTable_read a (b.cells a n)
    rw [hcl] at cov rd
    have hex : (Spec.exec true (rangeMem a (b.cells a n)) (Call.readDiscrete a n).toReq).1 = .ok (UInt8.ofNat (bytesFor n) :: packBits ((b.cells a n).map fun v => v != 0)) := by
      simp only [Call.toReq, Spec.exec, Spec.readBits, rangeMem, ha16, hn16, cov, rd]
      rw [if_neg (by omega), if_neg (by simp)]
    obtain ⟨s', e1, e2⟩ := execute_like hR hmac h0 h1 l (.readDiscrete a n) ⟨ha, fits⟩ (C38_length (.readDiscrete a n) ⟨ha, fits⟩ (by simp)) true (rangeMem a (b.cells a n))
      (h' := s.link.heap) (by rw [hex]; exact hq)
    refine ⟨s', ?_, e2⟩
    rw [e1]
    simp only [Call.answer, hex, outcome]
    simp only [rangeMem, Int.toNat_natCast, rd]

/-- **C100 (writing registers).** The call returns address and count, and the values are stored in the first block that contains the range, and nowhere else. -/
theorem C100_write_registers (hR : Quiet R) (hmac : mac = tcpMac ∨ mac = rtuMac) (h0 : 1 ≤ id) (h1 : id ≤ 255) (l : Linked id sl s) {r : Refs} (g : Sound s.link.heap sl r)
    (a : Int) (ha : Fits16 a) (vs : List Int) (hn : 1 ≤ vs.length ∧ vs.length ≤ 123) (hv : ∀ v ∈ vs, FitsReg v) {i : Nat}
    (hi : addressed (blocksOf s.link.heap sl 3) a vs.length = some i) :
    ∃ s', execute R mac (serverLink R mac) ((Call.writeRegisters a vs).args id) s = (.ok (.values [a, vs.length]), s') ∧
      StoredIn s.link.heap s'.link.heap sl 3 i a (vs.map fun v => ofWord sl.unsigned (toWord v)) ∧ Sound s'.link.heap sl r ∧ s'.link.db = s.link.db ∧ Linked id sl s' := by
  have hn16 := toWord_nat (n := vs.length) (by omega)
  have ha16 := toWord_toNat ha
  have h8 : Fits8 (2 * (vs.length : Int)) := by constructor <;> omega
  have eb : (toByte (2 * vs.length)).toNat = 2 * vs.length := by have := toByte_toNat h8; omega
  have hc : (Call.writeRegisters a vs).Fits := ⟨ha, h8, hv⟩
  obtain ⟨h', e1, e2, e3⟩ := C81_write_registers hR g (toWord a) (toWord vs.length) (toByte (2 * vs.length)) (vs.flatMap fun v => word (toWord v)) (by omega) (by omega)
    (by have := flatMap_word_length (vs.map toWord); rw [List.flatMap_map, List.length_map] at this; rw [hn16]; exact this) (i := i) (by rw [ha16, hn16]; exact hi)
  rw [ha16, hn16, payloadValues_flatMap] at e2
  have cov := rangeTable_covers a vs
  have hex : (Spec.exec true (rangeMem a vs) (Call.writeRegisters a vs).toReq).1 = .ok (word (toWord a) ++ word (toWord vs.length)) := by
    simp only [Call.toReq, Spec.exec, rangeMem, ha16, hn16, eb, cov]
    rw [if_neg (by omega), if_neg (by simp)]
  obtain ⟨s', f1, f2, f3, f4⟩ := execute_like hR hmac h0 h1 l (.writeRegisters a vs) hc (C38_length _ hc (by simp)) true (rangeMem a vs) (h' := h') (by rw [hex]; exact e1)
  refine ⟨s', ?_, by rw [f2]; exact e2, by rw [f2]; exact e3, f3, f4⟩
  rw [f1]
  simp only [Call.answer, hex, outcome]

/-- **C100 (writing coils).** A positive value switches a coil on, any other switches it off. -/
theorem C100_write_coils (hR : Quiet R) (hmac : mac = tcpMac ∨ mac = rtuMac) (h0 : 1 ≤ id) (h1 : id ≤ 255) (l : Linked id sl s) {r : Refs} (g : Sound s.link.heap sl r)
    (a : Int) (ha : Fits16 a) (vs : List Int) (hn : 1 ≤ vs.length ∧ vs.length ≤ 1968) {i : Nat} (hi : addressed (blocksOf s.link.heap sl 1) a vs.length = some i) :
    ∃ s', execute R mac (serverLink R mac) ((Call.writeCoils a vs).args id) s = (.ok (.values [a, vs.length]), s') ∧
      StoredIn s.link.heap s'.link.heap sl 1 i a (vs.map fun v => if 0 < v then 1 else 0) ∧ Sound s'.link.heap sl r ∧ s'.link.db = s.link.db ∧ Linked id sl s' := by
  have hn16 := toWord_nat (n := vs.length) (by omega)
  have ha16 := toWord_toNat ha
  have h8 : Fits8 (bytesFor vs.length : Int) := by simp only [bytesFor]; constructor <;> omega
  have eb : (toByte (bytesFor vs.length)).toNat = bytesFor vs.length := by have := toByte_toNat h8; omega
  have epay : Spec.payloadBits (packBits (vs.map (fun v => decide (0 < v)))) vs.length = vs.map (fun v => if 0 < v then 1 else 0) := by
    have := payloadBits_packBits (vs.map (fun v => decide (0 < v)))
    rw [List.length_map] at this
    rw [this, List.map_map]
    apply List.map_congr_left
    intro v _
    simp
  have hc : (Call.writeCoils a vs).Fits := ⟨ha, h8⟩
  obtain ⟨h', e1, e2, e3⟩ := C81_write_coils hR g (toWord a) (toWord vs.length) (toByte (bytesFor vs.length)) (packBits (vs.map fun v => decide (0 < v))) (by omega) (by rw [hn16]; exact eb)
    (by rw [hn16, packBits_length, List.length_map]) (i := i) (by rw [ha16, hn16]; exact hi)
  rw [ha16, hn16, epay] at e2
  have cov := rangeTable_covers a vs
  have hex : (Spec.exec true (rangeMem a vs) (Call.writeCoils a vs).toReq).1 = .ok (word (toWord a) ++ word (toWord vs.length)) := by
    simp only [Call.toReq, Spec.exec, rangeMem, ha16, hn16, eb, cov]
    rw [if_neg (by omega), if_neg (by simp)]
  obtain ⟨s', f1, f2, f3, f4⟩ := execute_like hR hmac h0 h1 l (.writeCoils a vs) hc (C38_length _ hc (by simp)) true (rangeMem a vs) (h' := h') (by rw [hex]; exact e1)
  refine ⟨s', ?_, by rw [f2]; exact e2, by rw [f2]; exact e3, f3, f4⟩
  rw [f1]
  simp only [Call.answer, hex, outcome]

/-- **C100 (single writes).** -/
theorem C100_write_single (hR : Quiet R) (hmac : mac = tcpMac ∨ mac = rtuMac) (h0 : 1 ≤ id) (h1 : id ≤ 255) (l : Linked id sl s) {r : Refs} (g : Sound s.link.heap sl r)
    (a v : Int) (ha : Fits16 a) {i : Nat} :
    (FitsReg v → addressed (blocksOf s.link.heap sl 3) a 1 = some i →
      ∃ s', execute R mac (serverLink R mac) ((Call.writeRegister a v).args id) s = (.ok (.values [a, v % 65536]), s') ∧
        StoredIn s.link.heap s'.link.heap sl 3 i a [ofWord sl.unsigned (toWord v)] ∧ Sound s'.link.heap sl r ∧ s'.link.db = s.link.db ∧ Linked id sl s') ∧
    (addressed (blocksOf s.link.heap sl 1) a 1 = some i →
      ∃ s', execute R mac (serverLink R mac) ((Call.writeCoil a v).args id) s = (.ok (.values [a, if v = 0 then 0 else 65280]), s') ∧
        StoredIn s.link.heap s'.link.heap sl 1 i a [if v = 0 then 0 else 1] ∧ Sound s'.link.heap sl r ∧ s'.link.db = s.link.db ∧ Linked id sl s') := by
  have ha16 := toWord_toNat ha
  have cov := rangeTable_covers a [0]
  simp only [List.length_singleton, Int.natCast_one] at cov
  constructor
  · intro hv hi
    have hc : (Call.writeRegister a v).Fits := ⟨ha, hv⟩
    obtain ⟨h', e1, e2, e3⟩ := C81_write_register hR g (toWord a) (toWord v) (i := i) (by rw [ha16]; exact hi)
    rw [ha16] at e2
    have hex : (Spec.exec true (rangeMem a [0]) (Call.writeRegister a v).toReq).1 = .ok (word (toWord a) ++ word (toWord v)) := by
      simp only [Call.toReq, Spec.exec, rangeMem, ha16, cov]
      rw [if_neg (by simp)]
    obtain ⟨s', f1, f2, f3, f4⟩ := execute_like hR hmac h0 h1 l (.writeRegister a v) hc (C38_length _ hc (by simp)) true (rangeMem a [0]) (h' := h') (by rw [hex]; exact e1)
    refine ⟨s', ?_, by rw [f2]; exact e2, by rw [f2]; exact e3, f3, f4⟩
    rw [f1]
    simp only [Call.answer, hex, outcome]
  · intro hi
    have hc : (Call.writeCoil a v).Fits := ha
    obtain ⟨h', e1, e2, e3⟩ := (C81_write_coil hR g (toWord a) (if v = 0 then 0 else 0xff00) (i := i) (by rw [ha16]; exact hi)).1 (by split <;> simp)
    rw [ha16] at e2
    have hw : (if (if v = 0 then (0 : UInt16) else 0xff00) = 0 then (0 : Int) else 1) = if v = 0 then 0 else 1 := by
      by_cases h : v = 0 <;> simp [h]
    rw [hw] at e2
    have hex : (Spec.exec true (rangeMem a [0]) (Call.writeCoil a v).toReq).1 = .ok (word (toWord a) ++ word (if v = 0 then 0 else 0xff00)) := by
      simp only [Call.toReq, Spec.exec, rangeMem, ha16, cov]
      rw [if_neg (by simp)]
      by_cases h : v = 0 <;> simp [h]
    obtain ⟨s', f1, f2, f3, f4⟩ := execute_like hR hmac h0 h1 l (.writeCoil a v) hc (C38_length _ hc (by simp)) true (rangeMem a [0]) (h' := h') (by rw [hex]; exact e1)
    refine ⟨s', ?_, by rw [f2]; exact e2, by rw [f2]; exact e3, f3, f4⟩
    rw [f1]
    simp only [Call.answer, hex, outcome]

/-- **C100 (mask write).** The register addressed gets the masked word (as an unsigned number: for signed slaves see C10). -/
theorem C100_mask_write (hR : Quiet R) (hmac : mac = tcpMac ∨ mac = rtuMac) (h0 : 1 ≤ id) (h1 : id ≤ 255) (l : Linked id sl s) {r : Refs} (g : Sound s.link.heap sl r)
    (a am om : Int) (ha : Fits16 a) (ham : Fits16 am) (hom : Fits16 om) {i : Nat} {b : Block} (hi : addressed (blocksOf s.link.heap sl 3) a 1 = some i)
    (hb : (blocksOf s.link.heap sl 3)[i]? = some b) :
    ∃ s' cur, b.cells a 1 = [cur] ∧ execute R mac (serverLink R mac) ((Call.maskWrite a am om).args id) s = (.ok (.values [a, am, om]), s') ∧
      StoredIn s.link.heap s'.link.heap sl 3 i a [((Spec.maskWord (toWord cur) (toWord am) (toWord om)).toNat : Int)] ∧ (sl.unsigned = true → Sound s'.link.heap sl r) ∧
      s'.link.db = s.link.db ∧ Linked id sl s' := by
  have ha16 := toWord_toNat ha
  have cov := rangeTable_covers a [0]
  simp only [List.length_singleton, Int.natCast_one] at cov
  have hc : (Call.maskWrite a am om).Fits := ⟨ha, ham, hom⟩
  obtain ⟨h', cur, e0, e1, e2, e3⟩ := C81_mask_write hR g (toWord a) (toWord am) (toWord om) (i := i) (b := b) (by rw [ha16]; exact hi) hb
  rw [ha16] at e2 e0
  have hex : (Spec.exec true (rangeMem a [0]) (Call.maskWrite a am om).toReq).1 = .ok (word (toWord a) ++ word (toWord am) ++ word (toWord om)) := by
    simp only [Call.toReq, Spec.exec, rangeMem, ha16, cov]
    rw [if_neg (by simp)]
  obtain ⟨s', f1, f2, f3, f4⟩ := execute_like hR hmac h0 h1 l (.maskWrite a am om) hc (C38_length _ hc (by simp)) true (rangeMem a [0]) (h' := h') (by rw [hex]; exact e1)
  refine ⟨s', cur, e0, ?_, by rw [f2]; exact e2, fun hu => by rw [f2]; exact e3 hu, f3, f4⟩
  rw [f1]
  simp only [Call.answer, hex, outcome]

/-- the register answered by function 23 may be in another block than the range written -/
def twoRanges (ra : Int) (vs : List Int) (wa : Int) (n : Nat) : Spec.Mem :=
  ⟨⟨[], fun _ => 0⟩, ⟨[], fun _ => 0⟩, ⟨[(ra, vs.length), (wa, n)], fun x => vs.getD (x - ra).toNat 0⟩, ⟨[], fun _ => 0⟩⟩

theorem twoRanges_read (ra : Int) (vs : List Int) (wa : Int) (n : Nat) : (twoRanges ra vs wa n).holding.read ra vs.length = vs := rangeTable_read ra vs

/-- **C100 (function 23).** The values returned are those the first block that contains the range read held before the values were stored in the first block that contains the range
    written. -/
theorem C100_read_write (hR : Quiet R) (hmac : mac = tcpMac ∨ mac = rtuMac) (h0 : 1 ≤ id) (h1 : id ≤ 255) (l : Linked id sl s) {r : Refs} (g : Sound s.link.heap sl r)
    (ra : Int) (hra : Fits16 ra) (n : Nat) (hn : 1 ≤ n ∧ n ≤ 125) (wa : Int) (hwa : Fits16 wa) (vs : List Int) (hvn : 1 ≤ vs.length ∧ vs.length ≤ 123) (hv : ∀ v ∈ vs, FitsReg v)
    {i j : Nat} {b : Block} (hi : addressed (blocksOf s.link.heap sl 3) ra n = some i) (hb : (blocksOf s.link.heap sl 3)[i]? = some b)
    (hj : addressed (blocksOf s.link.heap sl 3) wa vs.length = some j) :
    ∃ s', execute R mac (serverLink R mac) ((Call.readWrite ra n wa vs).args id) s = (.ok (.values ((b.cells ra n).map fun v => v % 65536)), s') ∧
      StoredIn s.link.heap s'.link.heap sl 3 j wa (vs.map fun v => ofWord sl.unsigned (toWord v)) ∧ Sound s'.link.heap sl r ∧ s'.link.db = s.link.db ∧ Linked id sl s' := by
  have hn16 := toWord_nat (n := n) (by omega)
  have hv16 := toWord_nat (n := vs.length) (by omega)
  have hra16 := toWord_toNat hra
  have hwa16 := toWord_toNat hwa
  have h8 : Fits8 (2 * (vs.length : Int)) := by constructor <;> omega
  have eb : (toByte (2 * vs.length)).toNat = 2 * vs.length := by have := toByte_toNat h8; omega
  have hc : (Call.readWrite ra n wa vs).Fits := ⟨hra, ⟨by omega, by omega⟩, hwa, h8, hv⟩
  have hcl := g.addressed_cells (by simp) hi hb
  obtain ⟨h', e1, e2, e3⟩ := C81_read_write hR g (toWord ra) (toWord n) (toWord wa) (toWord vs.length) (toByte (2 * vs.length)) (vs.flatMap fun v => word (toWord v)) (by omega) (by omega) (by omega)
    (by have := flatMap_word_length (vs.map toWord); rw [List.flatMap_map, List.length_map] at this; rw [hv16]; exact this)
    (i := i) (j := j) (b := b) (by rw [hra16, hn16]; exact hi) hb (by rw [hwa16, hv16]; exact hj)
  rw [hra16, hn16] at e1
  rw [hwa16, hv16, payloadValues_flatMap] at e2
  have rd := twoRanges_read ra (b.cells ra n) wa vs.length
  rw [hcl] at rd
  have hrr : Spec.readRegs (twoRanges ra (b.cells ra n) wa vs.length).holding (toWord ra) (toWord n) = .ok (UInt8.ofNat (2 * n) :: (b.cells ra n).flatMap fun v => word (toWord v)) := by
    have cov : (twoRanges ra (b.cells ra n) wa vs.length).holding.covers ra n = true := by simp [twoRanges, Spec.Table.covers, hcl]
    simp only [Spec.readRegs, hra16, hn16, cov, rd]
    rw [if_neg (by omega), if_neg (by simp)]
  have hex : (Spec.exec true (twoRanges ra (b.cells ra n) wa vs.length) (Call.readWrite ra n wa vs).toReq).1 = .ok (UInt8.ofNat (2 * n) :: (b.cells ra n).flatMap fun v => word (toWord v)) := by
    have cov : (twoRanges ra (b.cells ra n) wa vs.length).holding.covers wa vs.length = true := by simp [twoRanges, Spec.Table.covers]
    simp only [Call.toReq, Spec.exec, hrr, hwa16, hv16, eb, cov]
    rw [if_neg (by omega), if_neg (by simp)]
  obtain ⟨s', f1, f2, f3, f4⟩ := execute_like hR hmac h0 h1 l (.readWrite ra n wa vs) hc (C38_length _ hc (by simp)) true (twoRanges ra (b.cells ra n) wa vs.length) (h' := h') (by rw [hex]; exact e1)
  refine ⟨s', ?_, by rw [f2]; exact e2, by rw [f2]; exact e3, f3, f4⟩
  rw [f1]
  simp only [Call.answer, hex, outcome, Int.toNat_natCast, rd]

/-- **C100 (reading back).** Whatever the blocks are, overlapping or not: reading the range just written returns the values written. -/
theorem C100_read_back (hR : Quiet R) (hmac : mac = tcpMac ∨ mac = rtuMac) (h0 : 1 ≤ id) (h1 : id ≤ 255) (l : Linked id sl s) {r : Refs} (g : Sound s.link.heap sl r)
    (a : Int) (ha : Fits16 a) (vs : List Int) :
    (1 ≤ vs.length ∧ vs.length ≤ 123 → (∀ v ∈ vs, FitsReg v) → InBlock s.link.heap sl 3 a vs.length →
      (runCalls R mac id [.writeRegisters a vs, .readHolding a vs.length] s).1 = [.ok (.values [a, vs.length]), .ok (.values (vs.map fun v => v % 65536))]) ∧
    (1 ≤ vs.length ∧ vs.length ≤ 1968 → InBlock s.link.heap sl 1 a vs.length →
      (runCalls R mac id [.writeCoils a vs, .readCoils a vs.length] s).1 = [.ok (.values [a, vs.length]), .ok (.values (vs.map fun v => if 0 < v then 1 else 0))]) := by
  constructor
  · intro hn hv hin
    obtain ⟨i, b, hi, _⟩ := addressed_of_inBlock hin
    obtain ⟨s1, e1, e2, e3, _, e5⟩ := C100_write_registers hR hmac h0 h1 l g a ha vs hn hv hi
    have hwf : ∀ b ∈ blocksOf s.link.heap sl 3, b.WF := by rw [(tables g.refs).2.2.1]; exact g.wf _ (by simp)
    obtain ⟨f1, b', f2, f3⟩ := e2.found hwf (by rw [List.length_map]; exact hi)
    rw [List.length_map] at f1 f3
    obtain ⟨s2, g1, _⟩ := (C100_read_registers hR hmac h0 h1 e5 e3 a ha vs.length (by omega) (i := i) (b := b')).1 f1 f2
    simp only [runCalls, e1, g1, f3, List.map_map]
    congr 4
    apply List.map_congr_left
    intro v _
    simp only [Function.comp, ofWord_mod, toWord_mod]
  · intro hn hin
    obtain ⟨i, b, hi, _⟩ := addressed_of_inBlock hin
    obtain ⟨s1, e1, e2, e3, _, e5⟩ := C100_write_coils hR hmac h0 h1 l g a ha vs hn hi
    have hwf : ∀ b ∈ blocksOf s.link.heap sl 1, b.WF := by rw [(tables g.refs).1]; exact g.wf _ (by simp)
    obtain ⟨f1, b', f2, f3⟩ := e2.found hwf (by rw [List.length_map]; exact hi)
    rw [List.length_map] at f1 f3
    obtain ⟨s2, g1, _⟩ := (C100_read_bits hR hmac h0 h1 e5 e3 a ha vs.length (by omega) (i := i) (b := b')).1 f1 f2
    simp only [runCalls, e1, g1, f3, List.map_map]
    congr 4
    apply List.map_congr_left
    intro v _
    by_cases h : 0 < v <;> simp [h]

/-- **C100 (refusal).** If no block contains the range, `execute` raises ModbusError with code 2, and nothing changes. -/
theorem C100_nowhere (hR : Quiet R) (hmac : mac = tcpMac ∨ mac = rtuMac) (h0 : 1 ≤ id) (h1 : id ≤ 255) (l : Linked id sl s) {r : Refs} (g : Sound s.link.heap sl r)
    (a : Int) (ha : Fits16 a) (n : Nat) (vs : List Int) (v am om : Int) :
    (1 ≤ n ∧ n ≤ 2000 → addressed (blocksOf s.link.heap sl 1) a n = none → Refused R mac id (.readCoils a n) s) ∧
    (1 ≤ n ∧ n ≤ 2000 → addressed (blocksOf s.link.heap sl 2) a n = none → Refused R mac id (.readDiscrete a n) s) ∧
    (1 ≤ n ∧ n ≤ 125 → addressed (blocksOf s.link.heap sl 3) a n = none → Refused R mac id (.readHolding a n) s) ∧
    (1 ≤ n ∧ n ≤ 125 → addressed (blocksOf s.link.heap sl 4) a n = none → Refused R mac id (.readInput a n) s) ∧
    (addressed (blocksOf s.link.heap sl 1) a 1 = none → Refused R mac id (.writeCoil a v) s) ∧
    (FitsReg v → addressed (blocksOf s.link.heap sl 3) a 1 = none → Refused R mac id (.writeRegister a v) s) ∧
    (1 ≤ vs.length ∧ vs.length ≤ 1968 → addressed (blocksOf s.link.heap sl 1) a vs.length = none → Refused R mac id (.writeCoils a vs) s) ∧
    (1 ≤ vs.length ∧ vs.length ≤ 123 → (∀ v ∈ vs, FitsReg v) → addressed (blocksOf s.link.heap sl 3) a vs.length = none → Refused R mac id (.writeRegisters a vs) s) ∧
    (Fits16 am → Fits16 om → addressed (blocksOf s.link.heap sl 3) a 1 = none → Refused R mac id (.maskWrite a am om) s) := by
  have ha16 := toWord_toNat ha
  have N := fun q v am om bc p => C81_nowhere hR g (toWord a) q v am om bc p
  have none2 : ∀ (c : Call), c.Fits → (∀ sub data, c ≠ .diagnostic sub data) → ∀ m, (Spec.exec true m c.toReq).1 = .exc 2 →
      handleRequest R sl c.pdu false s.link.heap = (.ok [c.toReq.fc + 128, 2], s.link.heap) → Refused R mac id c s := by
    intro c hc hd m hm hq
    obtain ⟨s', f1, f2, f3, f4⟩ := execute_like hR hmac h0 h1 l c hc (C38_length c hc hd) true m (h' := s.link.heap) (by rw [hm]; exact hq)
    refine ⟨s', ?_, f2, f3⟩
    rw [f1]
    simp only [Call.answer, hm, outcome]
    rfl
  have e0 : ∀ x y, (⟨[], fun _ => 0⟩ : Spec.Table).covers x y = false := fun _ _ => rfl
  let m0 : Spec.Mem := ⟨⟨[], fun _ => 0⟩, ⟨[], fun _ => 0⟩, ⟨[], fun _ => 0⟩, ⟨[], fun _ => 0⟩⟩
  refine ⟨?_, ?_, ?_, ?_, ?_, ?_, ?_, ?_, ?_⟩
  · intro hn hi
    have hn16 := toWord_nat (n := n) (by omega)
    exact none2 _ ⟨ha, ⟨by omega, by omega⟩⟩ (by simp) m0 (by simp [Call.toReq, Spec.exec, Spec.readBits, hn16, m0, e0]; omega)
      ((N (toWord n) 0 0 0 0 []).1 1 (.inl rfl) (by omega) (by rw [ha16, hn16]; exact hi))
  · intro hn hi
    have hn16 := toWord_nat (n := n) (by omega)
    exact none2 _ ⟨ha, ⟨by omega, by omega⟩⟩ (by simp) m0 (by simp [Call.toReq, Spec.exec, Spec.readBits, hn16, m0, e0]; omega)
      ((N (toWord n) 0 0 0 0 []).1 2 (.inr rfl) (by omega) (by rw [ha16, hn16]; exact hi))
  · intro hn hi
    have hn16 := toWord_nat (n := n) (by omega)
    exact none2 _ ⟨ha, ⟨by omega, by omega⟩⟩ (by simp) m0 (by simp [Call.toReq, Spec.exec, Spec.readRegs, hn16, m0, e0]; omega)
      ((N (toWord n) 0 0 0 0 []).2.1 3 (.inl rfl) (by omega) (by rw [ha16, hn16]; exact hi))
  · intro hn hi
    have hn16 := toWord_nat (n := n) (by omega)
    exact none2 _ ⟨ha, ⟨by omega, by omega⟩⟩ (by simp) m0 (by simp [Call.toReq, Spec.exec, Spec.readRegs, hn16, m0, e0]; omega)
      ((N (toWord n) 0 0 0 0 []).2.1 4 (.inr rfl) (by omega) (by rw [ha16, hn16]; exact hi))
  · intro hi
    exact none2 _ ha (by simp) m0 (by simp [Call.toReq, Spec.exec, m0, e0]) ((N 0 (if v = 0 then 0 else 0xff00) 0 0 0 []).2.2.1 (by rw [ha16]; exact hi))
  · intro hv hi
    exact none2 _ ⟨ha, hv⟩ (by simp) m0 (by simp [Call.toReq, Spec.exec, m0, e0]) ((N 0 (toWord v) 0 0 0 []).2.2.2.1 (by rw [ha16]; exact hi))
  · intro hn hi
    have hn16 := toWord_nat (n := vs.length) (by omega)
    have h8 : Fits8 (bytesFor vs.length : Int) := by simp only [bytesFor]; constructor <;> omega
    have eb : (toByte (bytesFor vs.length)).toNat = bytesFor vs.length := by have := toByte_toNat h8; omega
    exact none2 (.writeCoils a vs) ⟨ha, h8⟩ (by simp) m0 (by simp only [Call.toReq, Spec.exec, hn16, eb, m0, e0]; rw [if_neg (by omega)]; rfl)
      ((N (toWord vs.length) 0 0 0 (toByte (bytesFor vs.length)) _).2.2.2.2.1 (by omega) (by rw [hn16]; exact eb) (by rw [ha16, hn16]; exact hi))
  · intro hn hv hi
    have hn16 := toWord_nat (n := vs.length) (by omega)
    have h8 : Fits8 (2 * (vs.length : Int)) := by constructor <;> omega
    have eb : (toByte (2 * vs.length)).toNat = 2 * vs.length := by have := toByte_toNat h8; omega
    exact none2 (.writeRegisters a vs) ⟨ha, h8, hv⟩ (by simp) m0 (by simp only [Call.toReq, Spec.exec, hn16, eb, m0, e0]; rw [if_neg (by omega)]; rfl)
      ((N (toWord vs.length) 0 0 0 (toByte (2 * vs.length)) _).2.2.2.2.2.1 (by omega) (by omega) (by rw [ha16, hn16]; exact hi))
  · intro ham hom hi
    exact none2 _ ⟨ha, ham, hom⟩ (by simp) m0 (by simp [Call.toReq, Spec.exec, m0, e0]) ((N 0 0 (toWord am) (toWord om) 0 []).2.2.2.2.2.2 (by rw [ha16]; exact hi))

end

/-! ## Overlapping blocks, and a slave that fails -/

/-- a server whose slave 1 has overlapping blocks -/
def exOverlapNet : MasterSt Net := ⟨false, ⟨⟨[(1, exOverlap.sl)], true⟩, exOverlap.heap, []⟩, 65535⟩

/-- it is an instance of the hypotheses of C100 -/
theorem exOverlapNet_linked : Linked 1 exOverlap.sl exOverlapNet ∧ Sound exOverlapNet.link.heap exOverlap.sl ⟨0, 1, 2, 3⟩ :=
  ⟨⟨rfl, rfl, by decide⟩, exOverlap_sound⟩

/-- **Seen by the master, a register of overlapping blocks has several values**: 7 is written to register 5; read alone it is 7, read in the range 0..9 it is 0. -/
theorem C100_two_values : ∀ mac, mac = tcpMac ∨ mac = rtuMac →
    (runCalls [] mac 1 [.writeRegister 5 7, .readHolding 5 1, .readHolding 0 10] exOverlapNet).1 =
      [.ok (.values [5, 7]), .ok (.values [7]), .ok (.values [0, 0, 0, 0, 0, 0, 0, 0, 0, 0])] := by
  rintro mac (rfl | rfl)
  · decide +kernel
  · decide +kernel

/-- a server whose slave 1 is signed and has ten holding registers -/
def exSignedNet : MasterSt Net :=
  let s := history (freshSlave false) [.add "A" 3 0 10]
  ⟨false, ⟨⟨[(1, s.sl)], true⟩, s.heap, []⟩, 0⟩

/-- **A slave can be made unreadable by its master**: after a mask write that sets the sign bit of a register of a signed slave (C10), every read of the register makes `execute` raise
    ModbusInvalidResponseError - until the register is written again. -/
theorem C100_unreadable : ∀ mac, mac = tcpMac ∨ mac = rtuMac →
    (runCalls [] mac 1 [.maskWrite 0 0 65535, .readHolding 0 1, .readHolding 0 10, .writeRegister 0 7, .readHolding 0 1] exSignedNet).1 =
      [.ok (.values [0, 0, 65535]), .error .invalidResponse, .error .invalidResponse, .ok (.values [0, 7]), .ok (.values [7])] := by
  rintro mac (rfl | rfl)
  · decide +kernel
  · decide +kernel

end Modbus
