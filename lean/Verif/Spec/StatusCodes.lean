import Verif.Spec.Sessions

/-! # Specification: the status codes of KNXnet/IP

Independent of the code of the package: KNX standard 03.08.01 "Overview", appendix 2 "Error codes". -/

namespace Knx.Spec

/-- The status codes. -/
inductive Status
  | noError | hostProtocolType | versionNotSupported | sequenceNumber | connectionId | connectionType | connectionOption
  | noMoreConnections | dataConnection | knxConnection | tunnellingLayer
  deriving DecidableEq, Repr

/-- The octet of a status code. -/
def Status.octet : Status → Byte
  | .noError => 0x00
  | .hostProtocolType => 0x01
  | .versionNotSupported => 0x02
  | .sequenceNumber => 0x04
  | .connectionId => 0x21
  | .connectionType => 0x22
  | .connectionOption => 0x23
  | .noMoreConnections => 0x24
  | .dataConnection => 0x26
  | .knxConnection => 0x27
  | .tunnellingLayer => 0x29

/-- The answers of a server that carry a status. -/
inductive Reply
  | connect | state | disconnect | ack
  deriving DecidableEq, Repr

/-- The status codes an answer can carry. -/
def Reply.codes : Reply → List Status
  | .connect => [.noError, .connectionType, .connectionOption, .noMoreConnections, .tunnellingLayer]
  | .state => [.noError, .connectionId, .dataConnection, .knxConnection]
  | .disconnect => [.noError, .connectionId]
  | .ack => [.noError, .hostProtocolType, .versionNotSupported, .sequenceNumber]

/-- A complete datagram with an answer that has this octet as its status. -/
def CarriesStatus : Reply → Byte → Msg → Prop
  | .connect, o, d => ∃ l1 l2 c endpoint rest, endpoint.length = 8 ∧ (o = 0 → 4 ≤ rest.length) ∧
      d = datagram 0x02 0x06 l1 l2 (c :: o :: (endpoint ++ rest))
  | .state, o, d => ∃ l1 l2 c rest, d = datagram 0x02 0x08 l1 l2 (c :: o :: rest)
  | .disconnect, o, d => ∃ l1 l2 c rest, d = datagram 0x02 0x0A l1 l2 (c :: o :: rest)
  | .ack, o, d => ∃ l1 l2 h c n rest, d = datagram 0x04 0x21 l1 l2 (h :: c :: n :: o :: rest)

/-- The status of an acknowledgement. -/
def ackStatus : ErrorCode → Status
  | .noError => .noError
  | .hostProtocolType => .hostProtocolType
  | .versionNotSupported => .versionNotSupported
  | .sequenceNumber => .sequenceNumber

/-- The status that a decoded message names. -/
def namedStatus : OutMsg → List Status
  | .connectRes _ _ _ .noError => [.noError]
  | .connectRes _ _ _ .connectionType => [.connectionType]
  | .connectRes _ _ _ .connectionOption => [.connectionOption]
  | .connectRes _ _ _ .noMoreConnections => [.noMoreConnections]
  | .connectionstateRes .noError => [.noError]
  | .connectionstateRes .connectionId => [.connectionId]
  | .connectionstateRes .dataConnection => [.dataConnection]
  | .connectionstateRes .knxConnection => [.knxConnection]
  | .disconnectRes _ st | .tunnelingAck _ st => [ackStatus st]
  | _ => []

/-- What the result of decoding tells about the status: nothing at all if it is an exception. -/
def told : Except Err Res → Option (List Status)
  | .ok (.list l) | .ok (.tuple l) => some (l.flatMap namedStatus)
  | .ok .none => some []
  | .error _ => none

end Knx.Spec
