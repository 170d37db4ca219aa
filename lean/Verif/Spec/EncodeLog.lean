import Verif.Model.EncodeLog
import Verif.Spec.LogTexts

/-! # Specification: the log of the encoders -/

namespace Knx.Spec

/-- The lines about a frame that was encoded: one about the counter of a tunnelling request, one about that of an acknowledgement. -/
def sentLines : Msg → List LogLine
  | 0x06 :: 0x10 :: 0x04 :: 0x20 :: _ :: _ :: _ :: _ :: q :: _ =>
    [⟨"knxnet_ip.tunneling.req", .debug, fill "knxnet_ip.tunneling.encode.req with sequence counter={}".toList [natWord q.toNat]⟩]
  | 0x06 :: 0x10 :: 0x04 :: 0x21 :: _ :: _ :: _ :: _ :: q :: _ =>
    [⟨"knxnet_ip.tunneling.ack", .info, fill "knxnet_ip.tunneling.encode.ack with sequence counter={}".toList [natWord q.toNat]⟩]
  | _ => []

/-- The lines about what an encoder gives: none if it raises. -/
def encodedLines : Except Err Msg → List LogLine
  | .ok f => sentLines f
  | .error _ => []

/-- Messages that become telegrams of the bus and are requests. -/
def isRequest : InMsg → Prop
  | .groupRead _ | .groupWriteReq _ _ | .propertyRead .. | .propertyWrite .. => True
  | _ => False

end Knx.Spec
