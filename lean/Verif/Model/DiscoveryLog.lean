import Verif.Model.DecodeLog
import Verif.Model.Client
import Verif.Model.IpText
import Verif.Model.StateText

/-!
# The discovery with its log (knx_stack/client/knxnet_ip_discovery.py)

The two protocols as objects with their callbacks and the lines they log, those of the decoders among them. Simplification: `sendto`
does not raise while there is a transport.
-/

namespace Knx

/-- A line of the client (client/knxnet_ip_discovery.py:42, 115); the name is the one behind `knx_stack.`. -/
def clientLine (level : LogLevel) (text : List Char) : LogLine := ⟨"client.knxnet_ip_discovery", level, text⟩

/-- `str` of what `decode_msg` returned, `s` being the state of the listener, which is in the pair for an acknowledgement
(client/knxnet_ip_discovery.py:134, decode/knxnet_ip/tunneling/ack.py:27-29). The tables of the listener are `None`, so that no
address is shown. -/
def responseText (v : Display) (s : State) : Res → Except Err (List Char)
  | .list l => listText v.floats v.order l
  | .tuple l =>
    match listText v.floats v.order l with
    | .error e => .error e
    | .ok t => .ok ("(".toList ++ t ++ ", ".toList ++ s.text v.named (fun _ => false) ++ ")".toList)
  | .none => .ok "None".toList

/-- `Listen`: whether it has a transport, and its state with the lines logged (client/knxnet_ip_discovery.py:111-115). -/
structure Listener where
  transport : Bool := false
  inner : LoggedState := ⟨discoveryState, []⟩
  deriving DecidableEq, Repr

/-- What asyncio calls, with the texts of the transport, of an exception or of the sender
(client/knxnet_ip_discovery.py:44-68, 117-134). -/
inductive DiscoveryEvent
  | made (transport : List Char)
  | lost (exc : List Char)
  | failed (exc : List Char)
  | datagram (data : Msg) (addr : List Char)
  deriving DecidableEq, Repr

namespace Listener

/-- A call that acts on the state and the log (client/knxnet_ip_discovery.py:131). -/
def within {α : Type} (f : Py LoggedState α) : Py Listener α := fun c =>
  match f c.inner with
  | (r, i) => (r, { c with inner := i })

/-- `logger.info` and `logger.error` (client/knxnet_ip_discovery.py:119, 122, 126, 129-130, 134). -/
def write (level : LogLevel) (text : List Char) : Py Listener Unit := within (LoggedState.write (clientLine level text))

/-- `connection_made` (client/knxnet_ip_discovery.py:117-119). -/
def connectionMade (transport : List Char) : Py Listener Unit :=
  Py.bind (Py.modify fun c => { c with transport := true }) fun _ => write .info ("Connection made: ".toList ++ transport)

/-- `connection_lost` (client/knxnet_ip_discovery.py:121-123). -/
def connectionLost (exc : List Char) : Py Listener Unit :=
  Py.bind (write .error ("Connection lost: ".toList ++ exc)) fun _ => Py.modify fun c => { c with transport := false }

/-- `error_received` (client/knxnet_ip_discovery.py:125-126). -/
def errorReceived (exc : List Char) : Py Listener Unit := write .error ("Error received: ".toList ++ exc)

/-- `datagram_received` (client/knxnet_ip_discovery.py:128-134). -/
def datagramReceived (v : Display) (data : Msg) (addr : List Char) : Py Listener Unit :=
  Py.bind (write .info ("read    ".toList ++ hexLower data)) fun _ =>
    Py.bind (write .info ("read    ".toList ++ addr)) fun _ =>
      Py.bind (Py.lift (stringToOctets (hexLower data))) fun msg =>
        Py.bind (within (decodeMsgLog v msg)) fun r =>
          Py.bind (fun c => (responseText v c.inner.state r, c)) fun t => write .info ("read decoded: ".toList ++ t)

/-- One event (client/knxnet_ip_discovery.py:117-134). Exceptions are reported by asyncio and do not stop the listener. -/
def step (v : Display) (c : Listener) : DiscoveryEvent → Listener
  | .made t => (connectionMade t c).2
  | .lost t => (connectionLost t c).2
  | .failed t => (errorReceived t c).2
  | .datagram d a => (datagramReceived v d a c).2

/-- A sequence of events (client/knxnet_ip_discovery.py:117-134). -/
def run (v : Display) (c : Listener) (es : List DiscoveryEvent) : Listener := es.foldl (step v) c

end Listener

/-- `Request`: its endpoint, whether it has a transport, its state, the lines logged and the datagrams sent
(client/knxnet_ip_discovery.py:36-42). -/
structure Requester where
  localAddr : List Char
  localPort : Int
  transport : Bool := false
  state : State := discoveryState
  log : List LogLine := []
  wire : List Msg := []
  deriving DecidableEq, Repr

namespace Requester

/-- `logger.info` and `logger.error` (client/knxnet_ip_discovery.py:46, 53, 63, 67, 70-71). -/
def write (level : LogLevel) (text : List Char) : Py Requester Unit :=
  Py.modify fun c => { c with log := c.log ++ [clientLine level text] }

/-- `encode_msg` of the search request (client/knxnet_ip_discovery.py:47-52). -/
def request : Py Requester Msg := fun c =>
  match searchReqText c.localAddr c.localPort c.state with
  | (r, s) => (r, { c with state := s })

/-- `connection_made` (client/knxnet_ip_discovery.py:44-60): the request goes to the multicast address. -/
def connectionMade (transport : List Char) : Py Requester Unit :=
  Py.bind (Py.modify fun c => { c with transport := true }) fun _ =>
    Py.bind (write .info ("Connection made: ".toList ++ transport)) fun _ =>
      Py.bind request fun msg =>
        Py.bind (write .info ("encode: ".toList ++ msgRepr msg)) fun _ =>
          Py.bind (Py.lift (fromHex (msgRepr msg))) fun d => Py.modify fun c => { c with wire := c.wire ++ [d] }

/-- `connection_lost` (client/knxnet_ip_discovery.py:62-64). -/
def connectionLost (exc : List Char) : Py Requester Unit :=
  Py.bind (write .error ("Connection lost: ".toList ++ exc)) fun _ => Py.modify fun c => { c with transport := false }

/-- `error_received` (client/knxnet_ip_discovery.py:66-67). -/
def errorReceived (exc : List Char) : Py Requester Unit := write .error ("Error received: ".toList ++ exc)

/-- `datagram_received` (client/knxnet_ip_discovery.py:69-71). -/
def datagramReceived (data : Msg) (addr : List Char) : Py Requester Unit :=
  Py.bind (write .info ("read data:    ".toList ++ hexLower data)) fun _ => write .info ("read from:    ".toList ++ addr)

/-- One event (client/knxnet_ip_discovery.py:44-71). -/
def step (c : Requester) : DiscoveryEvent → Requester
  | .made t => (connectionMade t c).2
  | .lost t => (connectionLost t c).2
  | .failed t => (errorReceived t c).2
  | .datagram d a => (datagramReceived d a c).2

/-- A sequence of events (client/knxnet_ip_discovery.py:44-71). -/
def run (c : Requester) (es : List DiscoveryEvent) : Requester := es.foldl step c

end Requester
end Knx
