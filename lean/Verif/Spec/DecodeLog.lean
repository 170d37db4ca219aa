import Verif.Model.DecodeLog
import Verif.Spec.Daemon
import Verif.Spec.Frames
import Verif.Spec.LogTexts

/-! # Specification: the log of the decoders

From the octets of a frame, with the patterns of `Spec/LogTexts.lean`. -/

namespace Knx.Spec

/-- The group address table has the address. -/
def groupKnown (a : AssocTable) (x : BitVec 16) : Prop := ∃ g ∈ a.at_.gas, g.fs = x

instance (a : AssocTable) (x : BitVec 16) : Decidable (groupKnown a x) := by unfold groupKnown; infer_instance

/-- The word for the type of an address. -/
def addressKind : Bool → Bool → List Char
  | true, true => "AddressType.group".toList
  | true, false => "AddressType.individual".toList
  | false, true => ['1']
  | false, false => ['0']

/-- The addresses of a telegram. -/
def addressFields (named group : Bool) (src dst : BitVec 16) : List (List Char) :=
  [natWord src.toNat, hexWord 4 src.toNat, natWord dst.toNat, hexWord 4 dst.toNat, addressKind named group]

/-- The ASAP of a message. -/
def asapOf : OutMsg → Option Asap
  | .group _ _ a _ => some a
  | .property _ _ a _ _ _ _ _ => some a
  | _ => none

/-- What is shown of decoded messages: the value of the first and the ASAPs of all, or the messages if there are no values. -/
def outcomeWord (v : Display) (ms : List OutMsg) : List Char :=
  match ms.head?.bind datapointOf with
  | some d =>
    match d.text v.floats v.order with
    | .ok t => fill "{} asaps [{}]".toList [t, sepBy ", " (ms.filterMap fun m => (asapOf m).map asapWord)]
    | .error _ => []
  | none => fill "[{}]".toList [sepBy ", " (ms.map fun m => fill (wording [] m).1.toList (wording [] m).2)]

/-- The modules that log telegrams. -/
def transportModule (group confirmation : Bool) : String :=
  match group, confirmation with
  | true, false => "layer.transport.t_data_group.ind"
  | true, true => "layer.transport.t_data_group.con"
  | false, false => "layer.transport.t_data_individual.ind"
  | false, true => "layer.transport.t_data_individual.con"

/-- Whether a telegram is for others: one for a group not in the table; a confirmation of one for an address other than the own (or
that is also a group of the table); an indication from an address other than the own. -/
def forOthers (a : AssocTable) (group confirmation : Bool) (src dst : BitVec 16) : Prop :=
  match group, confirmation with
  | true, _ => ¬ groupKnown a dst
  | false, true => groupKnown a dst ∨ dst ≠ a.at_.ind.fs
  | false, false => src ≠ a.at_.ind.fs

instance (a : AssocTable) (group confirmation : Bool) (src dst : BitVec 16) : Decidable (forOthers a group confirmation src dst) := by
  unfold forOthers
  split <;> infer_instance

/-- The telegram in a cEMI message. -/
def telegramIn : Msg → Option Telegram
  | c1 :: c2 :: s1 :: s2 :: d1 :: d2 :: n :: tpci :: apci :: rest => some ⟨c1, c2, s1 ++ s2, d1 ++ d2, n, tpci, apci, rest⟩
  | _ => none

/-- The octets behind the application control octet, or that octet itself if there are none. -/
def payloadWord (t : Telegram) : List Char := (if t.rest = [] then [t.apci] else t.rest).flatMap fun b => hexWord 2 b.toNat

/-- The lines about a telegram, `r` being the decoded messages, if any: there are none about a telegram that is connection oriented, tagged
or a broadcast, and none if there is no table or decoding raises. -/
def telegramLines (v : Display) (confirmation : Bool) (assoc : Option AssocTable) (r : Option (List OutMsg)) (t : Telegram) :
    List LogLine :=
  let group := decide (128 ≤ t.ctrl2.toNat)
  let fields := payloadWord t :: addressFields v.named group t.source t.destination
  if 4 ≤ t.tpci.toNat ∨ group = true ∧ t.destination = 0 then []
  else match assoc with
  | none => []
  | some a =>
    if forOthers a group confirmation t.source t.destination then
      [⟨transportModule group confirmation, .info,
        fill "discarded msg {} source: {} (0x{}), destination: {} (0x{}), address_type: {}".toList fields⟩]
    else match r with
    | none => []
    | some ms =>
      [⟨transportModule group confirmation, .debug,
        fill "received msg {} source: {} (0x{}), destination: {} (0x{}), address_type: {} {}".toList (fields ++ [outcomeWord v ms])⟩]

/-- The lines about a cEMI message: only indications and confirmations of telegrams, their additional information skipped. -/
def cemiLines (v : Display) (assoc : Option AssocTable) (r : Option (List OutMsg)) : Msg → List LogLine
  | code :: n :: rest =>
    match telegramIn (rest.drop n.toNat) with
    | none => []
    | some t => if code = 0x29 ∨ code = 0x2E then telegramLines v (code = 0x2E) assoc r t else []
  | _ => []

/-- The cEMI message in the body of a report. -/
def cemiInBody : Msg → Option Msg
  | 0x01 :: 0x03 :: 0x00 :: 0x00 :: cemi => some cemi
  | _ => none

/-- The cEMI message in the part of a report that counts. -/
def cemiInPart : Msg → Option Msg
  | 0x00 :: 0x08 :: l1 :: l2 :: rest => cemiInBody (rest.take (l1.toNat * 256 + l2.toNat + 4))
  | _ => none

/-- The cEMI message in a report. -/
def cemiInReport : Msg → Option Msg
  | 0x01 :: info :: len :: rest => if info.toNat % 16 = 3 then cemiInPart (rest.take len.toNat) else none
  | _ => none

/-- The messages that a telegram was decoded to: not the request that carried it. -/
def telegramMessages (r : Except Err Res) : Option (List OutMsg) :=
  match r with
  | .error _ => none
  | .ok r => some ((messages r).filter fun m => match m with | .tunnelingReq .. => false | _ => true)

/-- A frame that carries a cEMI message: a report, or a tunnelling request with the expected counter. -/
def CarriesCemi (s : State) (x m : Msg) : Prop :=
  s.medium = .usbHid ∧ cemiInReport m = some x ∨
    s.medium = .knxnetIp ∧ ∃ l1 l2 h chan q st : Byte,
      m = 0x06 :: 0x10 :: 0x04 :: 0x20 :: l1 :: l2 :: h :: chan :: q :: st :: x ∧ s.seqRemote = q.toNat

/-- A cEMI message with an indication or, if so said, a confirmation of a telegram. -/
def HasTelegram (x : Msg) (confirmation : Bool) (t : Telegram) : Prop :=
  ∃ (n : Byte) (rest : Msg), x = (if confirmation then 0x2E else 0x29) :: n :: rest ∧ telegramIn (rest.drop n.toNat) = some t

/-- The lines of the transport layer. -/
def transportLines (log : List LogLine) : List LogLine :=
  log.filter fun l => l.logger ≠ "knxnet_ip.tunneling.req"

/-- The text about a counter. -/
def counterText (q : Nat) : List Char := fill "knxnet_ip.tunneling.decode.req sequence counter={}".toList [natWord q]

/-- The services that the decoder knows. -/
def knownServices : List (Byte × Byte) := [(2, 2), (2, 6), (2, 8), (2, 10), (4, 0x20), (4, 0x21)]

/-- The lines about a datagram: one about the counter of a request, before those about its telegram if the counter is the expected one;
one about the counter of an acknowledgement; one about a service that is not known. -/
def datagramLines (v : Display) (s : State) (r : Option (List OutMsg)) : Msg → List LogLine
  | 0x06 :: 0x10 :: a :: b :: rest =>
    if (a, b) = (0x04, 0x20) then
      match rest with
      | _ :: _ :: _ :: _ :: q :: _ :: cemi =>
        ⟨"knxnet_ip.tunneling.req", .debug, counterText q.toNat⟩ ::
          (if s.seqRemote = q.toNat then cemiLines v s.assoc r cemi else [])
      | _ => []
    else if (a, b) = (0x04, 0x21) then
      match rest with
      | _ :: _ :: _ :: _ :: q :: _ :: _ => [⟨"knxnet_ip.tunneling.ack", .info, counterText q.toNat⟩]
      | _ => []
    else if (a, b) ∈ knownServices then []
    else [⟨"knxnet_ip.header", .error, fill "Unknown knxnet_ip service value {}".toList [natWord (a.toNat * 256 + b.toNat)]⟩]
  | _ => []

/-- The lines about a frame, in a state. -/
def frameLines (v : Display) (s : State) (m : Msg) : List LogLine :=
  let r := telegramMessages (decodeMsg m s).1
  match s.medium with
  | .tp => []
  | .usbHid =>
    match cemiInReport m with
    | some cemi => cemiLines v s.assoc r cemi
    | none => []
  | .knxnetIp => datagramLines v s r m

end Knx.Spec
