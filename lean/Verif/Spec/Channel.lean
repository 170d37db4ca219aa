import Verif.Spec.Sessions
import Verif.Model.Client

/-!
# Datagrams of a channel, and datagrams that end a connection

Written with the KNXnet/IP tunnelling protocol in mind, not with the decoder.
-/

namespace Knx
namespace Spec

/-- The datagrams that belong to the connection with a channel: its tunnelling requests and acknowledgements, and the
responses about its state and its end. -/
inductive OfChannel (chan : Byte) : Msg → Prop
  | request (l1 l2 h seq st : Byte) (m : Msg) : OfChannel chan (datagram 0x04 0x20 l1 l2 ([h, chan, seq, st] ++ m))
  | ack (l1 l2 h seq st : Byte) (rest : Msg) : OfChannel chan (datagram 0x04 0x21 l1 l2 ([h, chan, seq, st] ++ rest))
  | state (l1 l2 st : Byte) (rest : Msg) : OfChannel chan (datagram 0x02 0x08 l1 l2 ([chan, st] ++ rest))
  | closed (l1 l2 st : Byte) (rest : Msg) : OfChannel chan (datagram 0x02 0x0A l1 l2 ([chan, st] ++ rest))

/-- Nothing happens to the client except that it may decode something. -/
def Unmoved (c d : Client) : Prop := ∃ l, d = { c with decoded := l }

/-- The datagrams with which a server says that there is no connection (any more): its disconnect request, a connection
state response with an error, and the response to a disconnect request. -/
inductive SaysGone : Msg → Prop
  | request (l1 l2 : Byte) (body : Msg) : SaysGone (datagram 0x02 0x09 l1 l2 body)
  | state (l1 l2 chan st : Byte) (rest : Msg) (h : st ≠ 0) : SaysGone (datagram 0x02 0x08 l1 l2 ([chan, st] ++ rest))
  | closed (l1 l2 chan : Byte) (rest : Msg) : SaysGone (datagram 0x02 0x0A l1 l2 ([chan, 0] ++ rest))

end Spec
end Knx
