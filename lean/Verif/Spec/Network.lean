import Verif.Spec.Requests

/-! # Specification: what a request looks like when it arrives at another device -/

namespace Knx
namespace Spec

/-- What the bus interface of another device makes of a request: the message code becomes that of an indication, the
interface may add information, and on the way the control octets (but for the address type, the most significant bit of
the second one) and the source change. -/
def arrival (info : Msg) (ctrl1 ctrl2 : Byte) (source : BitVec 16) : Msg → Msg
  | _ :: _ :: _ :: c2 :: _ :: _ :: rest =>
    [0x29, BitVec.ofNat 8 info.length] ++ info ++ [ctrl1, c2 &&& 0x80 ||| ctrl2 &&& 0x7F] ++
      octetsOf 2 source.toNat ++ rest
  | m => m

end Spec
end Knx
