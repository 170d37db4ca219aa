import Verif.Spec.Requests
import Verif.Model.Client

/-! # Specification: tunnelling datagrams and histories of calls -/

namespace Knx
namespace Spec

/-- A call on a state: `encode_msg`, `decode_msg`, or an assignment to one of the sequence counters. -/
inductive Call
  | encode (m : InMsg)
  | decode (data : Msg)
  | setRemote (v : Int)
  | setLocal (v : Int)
  deriving DecidableEq, Repr

/-- The state after a call, whether it raises or not. -/
def after (s : State) : Call → State
  | .encode m => (encodeMsg m s).2
  | .decode data => (decodeMsg data s).2
  | .setRemote v => s.setSeqRemote v
  | .setLocal v => s.setSeqLocal v

/-- The state after a history of calls. -/
def afterAll (s : State) (cs : List Call) : State := cs.foldl after s

/-- A datagram of a service with a body; the total length is not looked at by the receiver. -/
def datagram (a b l1 l2 : Byte) (body : Msg) : Msg := [0x06, 0x10, a, b, l1, l2] ++ body

/-- A tunnelling request: connection header length, channel, counter, reserved octet, cEMI frame. -/
def tunnelDatagram (l1 l2 h chan seq st : Byte) (m : Msg) : Msg := datagram 0x04 0x20 l1 l2 ([h, chan, seq, st] ++ m)

/-- The tunnelling acknowledgement a receiver sends. -/
def ackFrame (chan seq status : Nat) : Msg :=
  [0x06, 0x10, 0x04, 0x21, 0x00, 0x0A, 0x04, BitVec.ofNat 8 chan, BitVec.ofNat 8 seq, BitVec.ofNat 8 status]

/-- The counter in a tunnelling acknowledgement. -/
def ackCounter : Msg → Option Nat
  | h :: v :: a :: b :: _ :: _ :: _ :: _ :: q :: _ :: _ =>
    if h = 0x06 ∧ v = 0x10 ∧ a = 0x04 ∧ b = 0x21 then some q.toNat else none
  | _ => none

/-- The channel in a connect response without error; such a response has an endpoint (8 octets) and connection data
(4 octets). -/
def connectedTo : Msg → Option Nat
  | h :: v :: a :: b :: _ :: _ :: c :: st :: rest =>
    if h = 0x06 ∧ v = 0x10 ∧ a = 0x02 ∧ b = 0x06 ∧ st = 0x00 ∧ 12 ≤ rest.length then some c.toNat else none
  | _ => none

/-- A disconnect response without error. -/
def disconnected : Msg → Bool
  | h :: v :: a :: b :: _ :: _ :: _ :: st :: _ => h = 0x06 ∧ v = 0x10 ∧ a = 0x02 ∧ b = 0x0A ∧ st = 0x00
  | _ => false

/-- The counter for outgoing requests after a call: an acknowledgement of it moves it on. -/
def localAfter (n : Nat) : Call → Nat
  | .decode data => if ackCounter data = some n then (n + 1) % 256 else n
  | .setLocal v => (v % 256).toNat
  | _ => n

/-- The channel after a call. -/
def channelAfter (c : Option Nat) : Call → Option Nat
  | .decode data =>
    match connectedTo data with
    | some n => some n
    | none => if disconnected data then some 0 else c
  | _ => c

end Spec
end Knx
