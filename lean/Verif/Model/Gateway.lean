import Verif.Model.TcpMaster
import Verif.Model.Databank
/-
# An `RtuOverTcpMaster` (modbus_rtu_over_tcp.py:18-38) that reaches RTU slaves through a gateway

The gateway is not part of modbus_tk.  It passes the bytes of every message it gets on its TCP connection on to the serial line, and the bytes of the
response, cut into segments in some way, back to the connection.
-/
namespace Modbus

/-- the devices behind the gateway and the connection of the master -/
structure GwNet where
  db : Databank
  heap : Heap
  link : TcpLink

/-- the last message that was sent on the connection -/
def TcpLink.lastSent (l : TcpLink) : Bytes := ((l.sock.bind fun k => k.sent.getLast?).getD [])

/-- events that will happen on the connection -/
def TcpLink.getsLater (ev : List NetEvent) (l : TcpLink) : TcpLink := { l with sock := l.sock.map fun k => { k with future := k.future ++ ev } }

/-- run a computation of the master on its connection -/
def onConnection {α : Type} (f : PyM TcpLink α) : PyM GwNet α := fun s => let r := f s.link; (r.1, { s with link := r.2 })

/-- The devices get the message and answer (`Server._handle`, modbus.py:1076-1096; no response is sent when there is none or when an exception occurs,
    modbus_rtu.py:258-270).  `cut` is what the gateway makes of the response. -/
def gatewayStep (Rs : Registry) (cut : Bytes → List NetEvent) : PyM GwNet Unit := fun s =>
  match serverHandle Rs rtuMac s.db s.link.lastSent s.heap with
  | (.ok r, h) => (.ok (), { s with heap := h, link := s.link.getsLater (cut (r.getD [])) })
  | (.error _, h) => (.ok (), { s with heap := h })

/-- the link of an `RtuOverTcpMaster`: `_do_open`, `_do_close` and `_send` are those of `TcpMaster` (modbus_tcp.py:165-205), `_recv` is
    modbus_rtu_over_tcp.py:21-34 -/
def gatewayChan (R Rs : Registry) (cut : Bytes → List NetEvent) : Chan GwNet where
  doOpen := onConnection (tcpDoOpen R)
  doClose := onConnection (tcpDoClose R)
  send := fun b => do
    onConnection (tcpSend R b)
    gatewayStep Rs cut
  recv := fun n => onConnection (rtuOverTcpRecv R n)

end Modbus
