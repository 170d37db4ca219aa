import Verif.Spec.Responses

/-! # Specification: the datagrams a client sends by itself -/

namespace Knx
namespace Spec

/-- The connection state request: service 0x0207, 16 octets, channel, reserved, control endpoint (UDP). -/
def stateRequest (chan : Nat) (ip : BitVec 32) (port : Int) : Msg :=
  [0x06, 0x10, 0x02, 0x07, 0x00, 0x10, BitVec.ofNat 8 chan, 0x00, 0x08, 0x01] ++ octetsOf 4 ip.toNat ++
    octetsOf 2 (port % 65536).toNat

end Spec
end Knx
