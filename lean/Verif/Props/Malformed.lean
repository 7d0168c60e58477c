import Verif.Props.Framing
/-
# C68: a frame that is not a request reaches no slave

What `Databank.handle_request` does with bytes that are no frame of the transport: too short, a wrong length field (TCP), a
wrong checksum (RTU).  "Not a frame" is said with the frames of the specification (`Spec.tcpAdu`, `Spec.rtuAdu`).
-/
namespace Modbus
open Spec (word tcpAdu rtuAdu)

/-- the bytes are no Modbus/TCP request frame -/
def NotTcp (request : Bytes) : Prop :=
  ∀ (tid pid : UInt16) (unit : UInt8) (pdu : Bytes), pdu.length ≤ 65534 → request ≠ tcpAdu tid pid unit pdu

/-- the bytes are no Modbus RTU frame -/
def NotRtu (request : Bytes) : Prop := ∀ (addr : UInt8) (pdu : Bytes), request ≠ rtuAdu addr pdu

theorem tcpAdu_eq {tid pid z : UInt16} {unit : UInt8} {pdu : Bytes} (h : z.toNat = pdu.length + 1) :
    tcpAdu tid pid unit pdu = word tid ++ word pid ++ word z ++ unit :: pdu := by
  unfold Spec.tcpAdu
  rw [← h]
  congr 2
  congr 1
  exact UInt16.ofNat_toNat

/-- **C68.** TCP, any hooks, any number of slaves: bytes that are no request frame change nothing. -/
theorem C68_tcp_unchanged (R : Registry) (db : Databank) (request : Bytes) (hn : NotTcp request) (h : Heap) :
    (dbHandle R tcpMac db request h).2 = h := by
  have hp : ∃ e q, tcpMac.parseRequest request tcpMac.new = (.error e, q) := by
    show ∃ e q, tcpParseRequest request tcpMac.new = (.error e, q)
    by_cases hl : request.length > 6
    · obtain ⟨x, y, z, u, pdu, rfl⟩ := tcp_shape hl
      have hs := tcpParseRequest_shape x y z u pdu (⟨Mbap.zero, Mbap.zero⟩ : TcpQuery)
      by_cases hz : z.toNat = pdu.length + 1
      · exact absurd (tcpAdu_eq hz).symm (hn x y u pdu (by have := z.toNat_lt; omega))
      · rw [if_neg hz] at hs; exact ⟨_, _, hs⟩
    · unfold tcpParseRequest
      rw [if_neg hl]; exact ⟨_, _, rfl⟩
  obtain ⟨e, q, hp⟩ := hp
  unfold dbHandle
  rw [hp]
  exact dbExcept_snd R [] e h

/-- **C68.** TCP: fewer than seven bytes are answered by nothing, whatever the hooks. -/
theorem C68_tcp_short (R : Registry) (db : Databank) (request : Bytes) (hl : request.length < 7) (h : Heap) :
    dbHandle R tcpMac db request h = (.ok (some []), h) := by
  have hp : tcpMac.parseRequest request tcpMac.new = (.error .invalidRequest, tcpMac.new) := by
    show tcpParseRequest request tcpMac.new = _
    unfold tcpParseRequest
    rw [if_neg (by omega)]
    rfl
  unfold dbHandle
  rw [hp]
  rfl

/-- **C68.** TCP: a header whose length field is wrong is answered by the two bytes `81 04` - which are no Modbus/TCP frame:
    they carry neither the transaction id nor the unit of the request. -/
theorem C68_tcp_length (R : Registry) (hR : Quiet R) (db : Databank) (tid pid len : UInt16) (unit : UInt8) (pdu : Bytes)
    (hz : len.toNat ≠ pdu.length + 1) (h : Heap) :
    dbHandle R tcpMac db (word tid ++ word pid ++ word len ++ unit :: pdu) h = (.ok (some [0x81, 4]), h) ∧
    NotTcp [0x81, 4] := by
  constructor
  · have hp : (tcpMac.parseRequest (word tid ++ word pid ++ word len ++ unit :: pdu) tcpMac.new).1 = .error .invalidMbap := by
      have hs := tcpParseRequest_shape tid pid len unit pdu (⟨Mbap.zero, Mbap.zero⟩ : TcpQuery)
      rw [if_neg hz] at hs
      exact congrArg Prod.fst hs
    unfold dbHandle
    rcases hq : tcpMac.parseRequest (word tid ++ word pid ++ word len ++ unit :: pdu) tcpMac.new with ⟨x, q⟩
    rw [hq] at hp
    dsimp only at hp
    subst hp
    dsimp only
    unfold dbExcept
    simp only [PyM.bind_apply, callHook_quiet hR]
    rfl
  · intro t p u pdu _ e
    have := congrArg List.length e
    simp [Spec.tcpAdu, word] at this

/-- **C68.** RTU: bytes that are no frame (too short, wrong checksum) change nothing and are answered by nothing,
    whatever the hooks. -/
theorem C68_rtu (R : Registry) (db : Databank) (request : Bytes) (hn : NotRtu request) (h : Heap) :
    dbHandle R rtuMac db request h = (.ok (some []), h) := by
  have hp := (C25_request request rtuMac.new).2 (fun pdu a => hn a pdu)
  unfold dbHandle
  rcases hq : rtuMac.parseRequest request rtuMac.new with ⟨x, q⟩
  rw [hq] at hp
  dsimp only at hp
  subst hp
  rfl

/-- a query object that has parsed no request answers as unit 0 (TCP: transaction 0, protocol 0) -/
theorem C68_fresh (pdu : Bytes) (hp : pdu.length ≤ 65534) :
    (tcpMac.buildResponse pdu tcpMac.new).1 = .ok (tcpAdu 0 0 0 pdu) ∧
    (rtuMac.buildResponse pdu rtuMac.new).1 = .ok (rtuAdu 0 pdu) := by
  constructor
  · exact tcpBuildResponse_adu 0 0 0 hp ⟨Mbap.zero, Mbap.zero⟩ ⟨0, rfl⟩
  · exact rtuBuildResponse_adu 0 pdu rtuMac.new rfl

example : NotTcp [0, 1, 0, 0, 0, 5, 1, 3, 0, 0, 0, 1] := by
  intro t p u pdu hl e
  have hp := (C24_request (tcpAdu t p u pdu) tcpMac.new u.toNat pdu).2 ⟨t, p, u, rfl, hl, rfl⟩
  rw [← e] at hp
  have : (tcpMac.parseRequest [0, 1, 0, 0, 0, 5, 1, 3, 0, 0, 0, 1] tcpMac.new).1 = .error .invalidMbap := by decide +kernel
  rw [this] at hp
  cases hp
example : (dbHandle [] tcpMac exTwo.st.db [0, 1, 0, 0, 0, 5, 1, 3, 0, 0, 0, 1] exTwo.st.heap).1 = .ok (some [0x81, 4]) := by decide
example : NotRtu [1, 3, 0, 0, 0, 1, 0, 0] := by
  intro a pdu e
  have hp := (C25_request (rtuAdu a pdu) rtuMac.new).1 a.toNat pdu
  have hp := hp.2 ⟨a, rfl, rfl⟩
  rw [← e] at hp
  have : (rtuMac.parseRequest [1, 3, 0, 0, 0, 1, 0, 0] rtuMac.new).1 = .error .invalidRequest := by decide +kernel
  rw [this] at hp
  cases hp
end Modbus
