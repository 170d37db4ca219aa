import Verif.Spec.Responses
import Verif.Model.Client

/-! # Specification: discovery of KNXnet/IP servers -/

namespace Knx
namespace Spec

/-- The search request: service 0x0201, 14 octets, discovery endpoint (UDP). -/
def searchRequest (ip : BitVec 32) (port : Int) : Msg :=
  [0x06, 0x10, 0x02, 0x01, 0x00, 0x0E, 0x08, 0x01] ++ octetsOf 4 ip.toNat ++ octetsOf 2 (port % 65536).toNat

/-- The search response of a server with the given control endpoint: the device information block follows, with its
length and type, the KNX medium, the device status, the individual address and more. -/
def searchResponse (ip : BitVec 32) (port : BitVec 16) (medium status : Byte) (address : BitVec 16) (more : Msg) : Msg :=
  let body := [0x08, 0x01] ++ octetsOf 4 ip.toNat ++ octetsOf 2 port.toNat ++ [0x36, 0x01, medium, status] ++
    octetsOf 2 address.toNat ++ more
  [0x06, 0x10, 0x02, 0x02] ++ octetsOf 2 (body.length + 6) ++ body

/-- The listener after it has received some datagrams. -/
def listenedTo (ds : List Msg) : State := ds.foldl (fun s d => (discoveryReceived d s).2) discoveryState

end Spec
end Knx
