import Verif.Spec.Sessions

/-! # Specification: what the responses of a KNXnet/IP server say -/

namespace Knx
namespace Spec

/-- The status octets of a connect response. -/
def connectCode : Byte → Option ConnectStatus
  | 0x00 => some .noError
  | 0x22 => some .connectionType
  | 0x23 => some .connectionOption
  | 0x24 => some .noMoreConnections
  | _ => none

/-- The status octets of a connection state response. -/
def connectionCode : Byte → Option ConnStateStatus
  | 0x00 => some .noError
  | 0x21 => some .connectionId
  | 0x26 => some .dataConnection
  | 0x27 => some .knxConnection
  | _ => none

/-- A search response: endpoint (length, protocol, address, port), then the device information, of which the third and
fourth octet are read. -/
def searchAnswer : Msg → Except Err (List OutMsg)
  | _ :: _ :: i1 :: i2 :: i3 :: i4 :: p1 :: p2 :: _ :: _ :: a1 :: a2 :: _ =>
    .ok [.searchRes (number [i1, i2, i3, i4]) (number [p1, p2]) (number [a1, a2])]
  | _ => .error .indexError

/-- A connect response: channel, status, endpoint, and, if there is no error, the connection data with the individual
address. A missing endpoint is a `TypeError`. -/
def connectAnswer : Msg → Except Err (List OutMsg)
  | _ :: st :: _ :: _ :: i1 :: i2 :: i3 :: i4 :: p1 :: p2 :: data =>
    if st = 0 then
      match data with
      | _ :: _ :: a1 :: a2 :: _ =>
        .ok [.connectRes (number [i1, i2, i3, i4]) (number [p1, p2]) (some (BitVec.ofNat 16 (number [a1, a2]))) .noError]
      | _ => .error .indexError
    else
      match connectCode st with
      | some c => .ok [.connectRes (number [i1, i2, i3, i4]) (number [p1, p2]) none c]
      | none => .error .valueError
  | _ :: _ :: _ => .error .typeError
  | _ => .error .indexError

/-- A connection state response: channel, status. -/
def stateAnswer : Msg → Except Err (List OutMsg)
  | _ :: st :: _ =>
    match connectionCode st with
    | some c => .ok [.connectionstateRes c]
    | none => .error .valueError
  | _ => .error .indexError

/-- A disconnect response: channel, status; an error is not reported. -/
def disconnectAnswer : Msg → Except Err (List OutMsg)
  | c :: st :: _ => .ok (if st = 0 then [.disconnectRes c.toNat .noError] else [])
  | _ => .error .indexError

/-- The answer to a datagram, as a result of decoding. -/
def answer : Except Err (List OutMsg) → Except Err Res
  | .ok l => .ok (.list l)
  | .error e => .error e

end Spec
end Knx
