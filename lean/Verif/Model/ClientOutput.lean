import Verif.Model.ClientLog
import Verif.Model.EncodeLog

/-!
# What the tunnelling program prints (knx_stack/client/knxnet_ip.py)

The tunnelling client with all lines that are logged for it: its own, those of the decoders and those of the encoders. The main part gives
the root logger the level INFO and a handler that prints the text of every line to stdout (169-173).
-/

namespace Knx

/-- The client and all lines logged, by level and text (client/knxnet_ip.py:86, 169-173). -/
structure PrintedClient where
  client : Client
  lines : List (LogLevel × List Char) := []
  deriving DecidableEq, Repr

namespace PrintedClient

/-- `logger.info` and `logger.error` (client/knxnet_ip.py:90, 102, 106, 129, 141). -/
def put (level : LogLevel) (text : List Char) : Py PrintedClient Unit :=
  Py.modify fun c => { c with lines := c.lines ++ [(level, text)] }

/-- A call that logs nothing (client/knxnet_ip.py:89, 103, 108-111, 119, 126). -/
def silent {α : Type} (f : Py Client α) : Py PrintedClient α := fun c =>
  match f c.client with
  | (r, d) => (r, { c with client := d })

/-- A function of the package called with the state of the client, whose loggers are below the root as well
(client/knxnet_ip.py:98, 114, 124, 134, 142, 169-173). -/
def onState {α : Type} (f : Py LoggedState α) : Py PrintedClient α := fun c =>
  match f ⟨c.client.state, []⟩ with
  | (r, l) => (r, ⟨{ c.client with state := l.state }, c.lines ++ l.log.map fun x => (x.level, x.text)⟩)

/-- Encoding a message and sending it (client/knxnet_ip.py:98-99, 124-125, 134-135, 142-143). -/
def encodeAndSend (m : InMsg) : Py PrintedClient Unit := Py.bind (onState (encodeMsgLog m)) fun f => silent (Client.send f)

/-- `connection_made` (client/knxnet_ip.py:88-99), `transport` being the text of the transport. -/
def connectionMade (transport : List Char) : Py PrintedClient Unit :=
  Py.bind (silent (Py.modify fun c => { c with transport := true })) fun _ =>
    Py.bind (put .info ("Connection made: ".toList ++ transport)) fun _ c =>
      encodeAndSend (.connectReq c.client.localAddr c.client.localPort c.client.localAddr c.client.localPort) c

/-- `connection_lost` (client/knxnet_ip.py:101-103), `exc` being the text of the exception. -/
def connectionLost (exc : List Char) : Py PrintedClient Unit :=
  Py.bind (put .error ("Connection lost: ".toList ++ exc)) fun _ => silent Client.connectionLost

/-- `error_received` (client/knxnet_ip.py:105-106). -/
def errorReceived (exc : List Char) : Py PrintedClient Unit := put .error ("Error received: ".toList ++ exc)

/-- The body of the loop of `datagram_received` (client/knxnet_ip.py:118-135). -/
def handle (v : Display) (res : OutMsg) : Py PrintedClient Unit := fun c =>
  match res with
  | .connectRes .. =>
    Py.bind (silent (Py.modify fun c => { c with state := c.state.setSeqRemote 0 })) (fun _ =>
      Py.bind (encodeAndSend (.connectionstateReq c.client.localAddr c.client.localPort)) fun _ =>
        silent (Py.modify fun c => { c with connected := true })) c
  | .tunnelingReq seq status =>
    Py.bind (Py.lift (res.text v.floats v.order)) (fun t =>
      Py.bind (put .info ("read ".toList ++ t)) fun _ =>
        if status = .noError then encodeAndSend (.tunnelingAck seq status) else Py.pure ()) c
  | _ => (.ok (), c)

/-- Iterating over what `decode_msg` returned (client/knxnet_ip.py:117). -/
def handleAll (v : Display) : Res → Py PrintedClient Unit
  | .list l => Py.forEach l (handle v)
  | .none => Py.raise .typeError
  | .tuple _ => Py.pure ()

/-- `datagram_received` (client/knxnet_ip.py:113-135). -/
def datagramReceived (v : Display) (data : Msg) : Py PrintedClient Unit :=
  Py.bind (Py.lift (stringToOctets (hexLower data))) fun msg =>
    Py.bind (onState (decodeMsgLog v msg)) fun r =>
      Py.bind (silent (Py.modify fun c => { c with decoded := c.decoded ++ Client.messages r })) fun _ => handleAll v r

/-- One round of the loop of `writer` (client/knxnet_ip.py:140-144). -/
def write (v : Display) (m : InMsg) : Py PrintedClient Unit := fun c =>
  if c.client.connected then
    Py.bind (Py.lift (m.text v.floats v.order)) (fun t =>
      Py.bind (put .info ("write ".toList ++ t)) fun _ => encodeAndSend m) c
  else (.ok (), c)

/-- One event (client/knxnet_ip.py:88-145). -/
def step (v : Display) (c : PrintedClient) : LoggedClient.Event → PrintedClient
  | .made t => (connectionMade t c).2
  | .lost t => (connectionLost t c).2
  | .failed t => (errorReceived t c).2
  | .datagram data => (datagramReceived v data c).2
  | .write m => (write v m c).2

/-- A sequence of events (client/knxnet_ip.py:88-145). -/
def run (v : Display) (c : PrintedClient) (es : List LoggedClient.Event) : PrintedClient := es.foldl (step v) c

/-- What is printed: the texts of the lines of level INFO and above (client/knxnet_ip.py:169-173). -/
def printed (c : PrintedClient) : List (List Char) :=
  (c.lines.filter fun l => l.1 ≠ .debug).map Prod.snd

end PrintedClient
end Knx
