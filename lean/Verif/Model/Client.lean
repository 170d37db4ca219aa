import Verif.Model.Encode

/-!
# The asyncio clients (knx_stack/client)

A client is an object whose methods are called by the event loop, one at a time, in any order.
-/

namespace Knx

/-- White space skipped by `bytearray.fromhex` (client/knxnet_ip.py:110). -/
def isHexSpace (c : Char) : Bool :=
  c == ' ' || c == '\t' || c == '\n' || c == '\r' || c == Char.ofNat 11 || c == Char.ofNat 12

/-- `bytearray.fromhex` (client/knxnet_ip.py:110, client/knxnet_ip_discovery.py:55): pairs of hex digits, white space
between pairs is skipped, anything else is a `ValueError`. -/
def fromHex : List Char → Except Err Msg
  | [] => .ok []
  | c :: cs =>
    if isHexSpace c then fromHex cs
    else
      match cs with
      | [] => .error .valueError
      | d :: ds =>
        match hexVal c, hexVal d with
        | some h, some l =>
          match fromHex ds with
          | .error e => .error e
          | .ok m => .ok (byte (16 * h + l) :: m)
        | _, _ => .error .valueError
termination_by l => l.length

/-- `Tunneling` (client/knxnet_ip.py:68-86): local endpoint, shared state, `connected`, whether `_transport` is set.
Two observations are added that python does not store: `wire`, the datagrams given to `sendto` so far, and
`decoded`, the messages returned by the `decode_msg` calls so far. Simplifications: the remote endpoint is
added in Model/Remote.lean; the local address is given by its four octets. -/
structure Client where
  localAddr : BitVec 32
  localPort : Int
  state : State
  connected : Bool := false
  transport : Bool := false
  wire : List Msg := []
  decoded : List OutMsg := []
  deriving DecidableEq, Repr

namespace Client

/-- Calling a function of the package with the client's state object (client/knxnet_ip.py:98, 114, 124, 134, 142). -/
def onState {α : Type} (f : Py State α) : Py Client α := fun c =>
  match f c.state with
  | (r, s) => (r, { c with state := s })

/-- `Tunneling.send` (client/knxnet_ip.py:108-111): `AttributeError` without transport. -/
def send (msg : Msg) : Py Client Unit := fun c =>
  if c.transport then
    match fromHex (msgRepr msg) with
    | .error e => (.error e, c)
    | .ok data => (.ok (), { c with wire := c.wire ++ [data] })
  else (.error .attributeError, c)

/-- Encoding a message and sending it (client/knxnet_ip.py:98-99, 124-125, 134-135, 142-143). -/
def encodeAndSend (m : InMsg) : Py Client Unit := Py.bind (onState (encodeMsg m)) send

/-- `Tunneling.connection_made` (client/knxnet_ip.py:88-99). -/
def connectionMade : Py Client Unit :=
  Py.bind (Py.modify fun c => { c with transport := true }) fun _ c =>
    encodeAndSend (.connectReq c.localAddr c.localPort c.localAddr c.localPort) c

/-- `Tunneling.connection_lost` (client/knxnet_ip.py:101-103). -/
def connectionLost : Py Client Unit := Py.modify fun c => { c with transport := false }

/-- The body of the loop of `datagram_received` (client/knxnet_ip.py:118-135). -/
def handle (res : OutMsg) : Py Client Unit := fun c =>
  match res with
  | .connectRes .. =>
    Py.bind (Py.modify fun c => { c with state := c.state.setSeqRemote 0 }) (fun _ =>
      Py.bind (encodeAndSend (.connectionstateReq c.localAddr c.localPort)) fun _ =>
        Py.modify fun c => { c with connected := true }) c
  | .tunnelingReq seq status =>
    if status = .noError then encodeAndSend (.tunnelingAck seq status) c else (.ok (), c)
  | _ => (.ok (), c)

/-- Iterating over what `decode_msg` returned (client/knxnet_ip.py:117): `None` is not iterable (`TypeError`); the
members of the pair returned for an ack are a list and a state, of no interest to the loop. -/
def handleAll : Res → Py Client Unit
  | .list l => Py.forEach l handle
  | .none => Py.raise .typeError
  | .tuple _ => Py.pure ()

/-- The messages in what `decode_msg` returned (an observation, client/knxnet_ip.py:114-116). -/
def messages : Res → List OutMsg
  | .list l => l
  | .none => []
  | .tuple l => l

/-- `Tunneling.datagram_received` (client/knxnet_ip.py:113-135). -/
def datagramReceived (data : Msg) : Py Client Unit :=
  Py.bind (Py.lift (stringToOctets (hexLower data))) fun msg =>
    Py.bind (onState (decodeMsg msg)) fun r =>
      Py.bind (Py.modify fun c => { c with decoded := c.decoded ++ messages r }) fun _ => handleAll r

/-- Whether `"{}".format(msg)` raises (client/knxnet_ip.py:141): it does when the description of a datapoint does. -/
def formatIn : InMsg → Except Err Unit
  | .groupWriteReq _ d => d.repr
  | .groupWriteInd _ d => d.repr
  | _ => .ok ()

/-- One round of the loop of `writer` (client/knxnet_ip.py:140-144), which is entered only when connected (138). -/
def write (m : InMsg) : Py Client Unit := fun c =>
  if c.connected then Py.bind (Py.lift (formatIn m)) (fun _ => encodeAndSend m) c else (.ok (), c)

/-- What the event loop can do to the client (client/knxnet_ip.py:88-145). `error_received` (105-106) only logs. -/
inductive Event
  | made
  | lost
  | datagram (data : Msg)
  | write (m : InMsg)
  deriving DecidableEq, Repr

/-- One event (client/knxnet_ip.py:88-145). Exceptions are reported by asyncio and do not stop the client. -/
def step (c : Client) : Event → Client
  | .made => (connectionMade c).2
  | .lost => (connectionLost c).2
  | .datagram data => (datagramReceived data c).2
  | .write m => (write m c).2

/-- A sequence of events (client/knxnet_ip.py:88-145). -/
def run (c : Client) (es : List Event) : Client := es.foldl step c

/-- `Tunneling.__init__` (client/knxnet_ip.py:68-86). -/
def init (localAddr : BitVec 32) (localPort : Int) (s : State) : Client :=
  { localAddr := localAddr, localPort := localPort, state := s }

end Client

/-- `Client._knx_write` for one message (client/usbhid.py:78-81): the line written to the daemon. The message is
formatted for the log after writing. -/
def usbWriteLine (m : InMsg) : Py State (List Char) :=
  Py.bind (encodeMsg m) fun octets => Py.pure (msgRepr octets ++ ['\n'])

/-- Whether formatting decoded messages raises (client/usbhid.py:91). -/
def formatOut : List OutMsg → Except Err Unit
  | [] => .ok ()
  | .group _ _ _ d :: l =>
    match d.repr with
    | .error e => .error e
    | .ok _ => formatOut l
  | _ :: l => formatOut l

/-- One round of `Client._knx_read` for a line received from the daemon (client/usbhid.py:88-91, 96-98): the last
character is cut off. -/
def usbReadLine (line : List Char) : Py State Res :=
  Py.bind (Py.lift (stringToOctets line.dropLast)) fun msg =>
    Py.bind (decodeMsg msg) fun r =>
      match r with
      | .list l | .tuple l => Py.bind (Py.lift (formatOut l)) fun _ => Py.pure r
      | .none => Py.pure r

/-- `Listen.datagram_received` (client/knxnet_ip_discovery.py:128-134), with the state of 113: what is logged. -/
def discoveryReceived (data : Msg) : Py State Res :=
  Py.bind (Py.lift (stringToOctets (hexLower data))) decodeMsg

/-- The state of the discovery listener and requester (client/knxnet_ip_discovery.py:40, 113). -/
def discoveryState : State := State.initIp .knxnetIp none none

/-- `Request.connection_made` (client/knxnet_ip_discovery.py:44-60): the datagram sent to the multicast address. -/
def discoveryRequest (ip : BitVec 32) (port : Int) : Except Err Msg :=
  match encodeMsg (.searchReq ip port) discoveryState with
  | (.error e, _) => .error e
  | (.ok m, _) => fromHex (msgRepr m)

end Knx
