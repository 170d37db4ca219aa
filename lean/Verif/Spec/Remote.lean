import Verif.Spec.Sessions
import Verif.Model.Remote

/-!
# The endpoints of a tunnelling connection

The server answers a connect request with the endpoint of its own for the data of the connection: tunnelling requests and
acknowledgements are sent there and come from there. The endpoint 0.0.0.0:0 stands for the one the response came from.
-/

namespace Knx
namespace Spec

/-- The data endpoint of the server as a connect response without error names it: octets 8 to 15 of the datagram are the
length 8, the protocol UDP, address and port. -/
def dataEndpoint : Msg → Option Endpoint
  | [h, v, a, b, _, _, _, st, len, proto, i1, i2, i3, i4, p1, p2, _, _, _, _] =>
    if h = 0x06 ∧ v = 0x10 ∧ a = 0x02 ∧ b = 0x06 ∧ st = 0x00 ∧ len = 0x08 ∧ proto = 0x01 then
      some (i1 ++ i2 ++ i3 ++ i4, 256 * p1.toNat + p2.toNat)
    else none
  | _ => none

/-- Where the data of the connection go to. -/
def dataGoesTo (server named : Endpoint) : Endpoint := if named = (0, 0) then server else named

/-- Tunnelling requests and acknowledgements. -/
def isTunnelling : Msg → Bool
  | h :: v :: a :: b :: _ => h = 0x06 ∧ v = 0x10 ∧ a = 0x04 ∧ (b = 0x20 ∨ b = 0x21)
  | _ => false

/-- What the client itself is told of an event, if it may hear one endpoint only. -/
def toldBy (server : Endpoint) : Bound.Event → Option Client.Event
  | .made => some .made
  | .lost => some .lost
  | .write m => some (.write m)
  | .arrives sender data => if sender = server then some (.datagram data) else none

end Spec
end Knx
