import Verif.Model.ClientLog
import Verif.Spec.LogTexts

/-! # Specification: the log of the tunnelling client -/

namespace Knx.Spec

/-- What happens to the client, without the texts. -/
def happening : LoggedClient.Event → Option Client.Event
  | .made _ => some .made
  | .lost _ => some .lost
  | .failed _ => none
  | .datagram d => some (.datagram d)
  | .write m => some (.write m)

/-- The counter of a tunnelling request. -/
def requestCounter : Msg → Option Nat
  | 0x06 :: 0x10 :: 0x04 :: 0x20 :: _ :: _ :: _ :: _ :: q :: _ :: _ => some q.toNat
  | _ => none

/-- The status that the client gives to a request: whether its counter is the expected one or the one before. -/
def requestStatus (expected q : Nat) : ErrorCode := if expected = q ∨ expected = q + 1 then .noError else .sequenceNumber

/-- The line for a request. -/
def readLine (q : Nat) (st : ErrorCode) : List Char :=
  fill "read TunnelingReq(sequence counter={}, status=<ErrorCodes.{}: {}>)".toList
    [natWord q, (errorName st).toList, natWord (errorNumber st)]

/-- The line for a message, `t` being the text of its datapoint. -/
def writeLine (t : List Char) (m : InMsg) : List Char :=
  fill "write {}".toList [fill (requestWording t m).1.toList (requestWording t m).2]

/-- The lines for an event, `c` being the client before it: a request is logged by its counter and status, if decode_msg returns; a
message by its wording, if the client is connected and the message can be shown. -/
def linesFor (fr : PyFloat → List Char) (order : DptClass → List DptProp) (c : Client) : LoggedClient.Event → List (List Char)
  | .made t => [fill "Connection made: {}".toList [t]]
  | .lost t => [fill "Connection lost: {}".toList [t]]
  | .failed t => [fill "Error received: {}".toList [t]]
  | .datagram d =>
    match requestCounter d, (decodeMsg d c.state).1 with
    | some q, .ok _ => [readLine q (requestStatus c.state.seqRemote q)]
    | _, _ => []
  | .write m =>
    if c.connected then
      match datapointIn m with
      | none => [writeLine [] m]
      | some d =>
        match d.text fr order with
        | .ok t => [writeLine t m]
        | .error _ => []
    else []

/-- The lines for events, one after the other. -/
def logFor (fr : PyFloat → List Char) (order : DptClass → List DptProp) : Client → List LoggedClient.Event → List (List Char)
  | _, [] => []
  | c, e :: es =>
    linesFor fr order c e ++ logFor fr order (match happening e with | some e => Client.step c e | none => c) es

end Knx.Spec
