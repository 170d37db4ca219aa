import Verif.Model.Client
import Verif.Model.RequestTexts

/-!
# The log of the tunnelling client (knx_stack/client/knxnet_ip.py)

The client of Model/Client.lean with its calls of `logger.info` and `logger.error`. Simplification: every call makes a line of the
log, whatever the level of the logger; the main part sets the level INFO (170), so that it shows them all.
-/

namespace Knx

/-- The client and the lines it has logged (client/knxnet_ip.py:86, 90, 102, 106, 129, 141). -/
structure LoggedClient where
  client : Client
  log : List (List Char) := []
  deriving DecidableEq, Repr

namespace LoggedClient

/-- `logger.info` and `logger.error` (client/knxnet_ip.py:90, 102, 106, 129, 141). -/
def info (line : List Char) : Py LoggedClient Unit := Py.modify fun c => { c with log := c.log ++ [line] }

/-- A call that logs nothing (client/knxnet_ip.py:98-99, 114-116, 119-126, 130-135, 142-143). -/
def silent {α : Type} (f : Py Client α) : Py LoggedClient α := fun c =>
  match f c.client with
  | (r, d) => (r, { c with client := d })

/-- `connection_made` (client/knxnet_ip.py:88-99), `transport` being the text of the transport. -/
def connectionMade (transport : List Char) : Py LoggedClient Unit :=
  Py.bind (info ("Connection made: ".toList ++ transport)) fun _ => silent Client.connectionMade

/-- `connection_lost` (client/knxnet_ip.py:101-103), `exc` being the text of the exception. -/
def connectionLost (exc : List Char) : Py LoggedClient Unit :=
  Py.bind (info ("Connection lost: ".toList ++ exc)) fun _ => silent Client.connectionLost

/-- `error_received` (client/knxnet_ip.py:105-106), `exc` being the text of the exception. -/
def errorReceived (exc : List Char) : Py LoggedClient Unit := info ("Error received: ".toList ++ exc)

/-- The body of the loop of `datagram_received` (client/knxnet_ip.py:118-135): only requests are logged, before they are
acknowledged (129). -/
def handle (fr : PyFloat → List Char) (order : DptClass → List DptProp) (res : OutMsg) : Py LoggedClient Unit :=
  match res with
  | .tunnelingReq .. =>
    Py.bind (Py.lift (res.text fr order)) fun t =>
      Py.bind (info ("read ".toList ++ t)) fun _ => silent (Client.handle res)
  | _ => silent (Client.handle res)

/-- Iterating over what `decode_msg` returned (client/knxnet_ip.py:117). -/
def handleAll (fr : PyFloat → List Char) (order : DptClass → List DptProp) : Res → Py LoggedClient Unit
  | .list l => Py.forEach l (handle fr order)
  | .none => Py.raise .typeError
  | .tuple _ => Py.pure ()

/-- `datagram_received` (client/knxnet_ip.py:113-135). -/
def datagramReceived (fr : PyFloat → List Char) (order : DptClass → List DptProp) (data : Msg) : Py LoggedClient Unit :=
  Py.bind (Py.lift (stringToOctets (hexLower data))) fun msg =>
    Py.bind (silent (Client.onState (decodeMsg msg))) fun r =>
      Py.bind (silent (Py.modify fun c => { c with decoded := c.decoded ++ Client.messages r })) fun _ => handleAll fr order r

/-- One round of the loop of `writer` (client/knxnet_ip.py:140-144): the message is logged before it is encoded. -/
def write (fr : PyFloat → List Char) (order : DptClass → List DptProp) (m : InMsg) : Py LoggedClient Unit := fun c =>
  if c.client.connected then
    Py.bind (Py.lift (m.text fr order)) (fun t =>
      Py.bind (info ("write ".toList ++ t)) fun _ => silent (Client.encodeAndSend m)) c
  else (.ok (), c)

/-- What the event loop can do to the client, with the texts that are logged (client/knxnet_ip.py:88-145). -/
inductive Event
  | made (transport : List Char)
  | lost (exc : List Char)
  | failed (exc : List Char)
  | datagram (data : Msg)
  | write (m : InMsg)
  deriving DecidableEq, Repr

/-- One event (client/knxnet_ip.py:88-145). -/
def step (fr : PyFloat → List Char) (order : DptClass → List DptProp) (c : LoggedClient) : Event → LoggedClient
  | .made t => (connectionMade t c).2
  | .lost t => (connectionLost t c).2
  | .failed t => (errorReceived t c).2
  | .datagram data => (datagramReceived fr order data c).2
  | .write m => (write fr order m c).2

/-- A sequence of events (client/knxnet_ip.py:88-145). -/
def run (fr : PyFloat → List Char) (order : DptClass → List DptProp) (c : LoggedClient) (es : List Event) : LoggedClient :=
  es.foldl (step fr order) c

end LoggedClient
end Knx
