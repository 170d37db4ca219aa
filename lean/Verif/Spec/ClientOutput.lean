import Verif.Model.ClientOutput
import Verif.Spec.ClientLog
import Verif.Spec.DecodeLog
import Verif.Spec.EncodeLog

/-! # Specification: what the tunnelling program prints

From the lines of the client (`Spec/ClientLog.lean`), of the decoders (`Spec/DecodeLog.lean`) and of the encoders (`Spec/EncodeLog.lean`). -/

namespace Knx.Spec

/-- Level and text of lines. -/
def shownLines (l : List LogLine) : List (LogLevel × List Char) := l.map fun x => (x.level, x.text)

/-- The level of the client's own lines. -/
def ownLevel : LoggedClient.Event → LogLevel
  | .lost _ => .error
  | .failed _ => .error
  | _ => .info

/-- What the decoders log for an event: only datagrams are decoded. -/
def decoderLines (v : Display) (c : Client) : LoggedClient.Event → List (LogLevel × List Char)
  | .datagram d => shownLines (frameLines v c.state d)
  | _ => []

/-- The line about an acknowledgement. -/
def ackLine (q : Nat) : LogLevel × List Char :=
  (.info, fill "knxnet_ip.tunneling.encode.ack with sequence counter={}".toList [natWord q])

/-- What the encoders log for a request with counter `q` that was decoded: the counter expected, if that is `q` or the next one and there is
a channel. -/
def ackLines (s : State) (q : Nat) : List (LogLevel × List Char) :=
  if requestStatus s.seqRemote q = .noError ∧ s.chan ≠ none then [ackLine s.seqRemote] else []

/-- What the encoders log for an event: the acknowledgement of a request, or the request written, if it is logged by the client. -/
def encoderLines (v : Display) (c : Client) : LoggedClient.Event → List (LogLevel × List Char)
  | .datagram d =>
    match requestCounter d, (decodeMsg d c.state).1 with
    | some q, .ok _ => ackLines c.state q
    | _, _ => []
  | .write m =>
    if linesFor v.floats v.order c (.write m) = [] then [] else shownLines (encodedLines (encodeMsg m c.state).1)
  | _ => []

/-- All lines for an event: of the decoders, of the client, of the encoders, in this order. -/
def outputFor (v : Display) (c : Client) (e : LoggedClient.Event) : List (LogLevel × List Char) :=
  decoderLines v c e ++ (linesFor v.floats v.order c e).map (fun t => (ownLevel e, t)) ++ encoderLines v c e

/-- The client after an event. -/
def clientAfter (c : Client) (e : LoggedClient.Event) : Client :=
  match happening e with
  | some e => Client.step c e
  | none => c

/-- All lines for events, one after the other. -/
def outputOf (v : Display) : Client → List LoggedClient.Event → List (LogLevel × List Char)
  | _, [] => []
  | c, e :: es => outputFor v c e ++ outputOf v (clientAfter c e) es

end Knx.Spec
