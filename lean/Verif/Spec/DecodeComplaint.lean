import Verif.Spec.Responses
import Verif.Spec.Control

/-! # Specification: what is wrong with octets that cannot be decoded -/

namespace Knx
namespace Spec

/-- A field at the front of a message: octets that must pass a test, or a length that what follows is cut to, plus some octets
more. -/
inductive Field
  | octets (width : Nat) (good : Nat → Bool)
  | limit (width more : Nat)

/-- What reading such fields one after another ends with: the octets do not suffice, a field fails its test, or something is
left. -/
inductive Front
  | truncated
  | other
  | rest (m : Msg)

/-- Reading fields one after another. -/
def front : List Field → Msg → Front
  | [], m => .rest m
  | .octets w good :: fs, m =>
    if m.length < w then .truncated else if good (number (m.take w)) then front fs (m.drop w) else .other
  | .limit w more :: fs, m =>
    if m.length < w then .truncated else front fs ((m.drop w).take (number (m.take w) + more))

/-- A USB report of the bus: report identifier 1, packet type 3, length of the report, protocol version 0, header length 8,
length of the body. -/
def reportFields : List Field :=
  [.octets 1 (· = 1), .octets 1 (· % 16 = 3), .limit 1 0, .octets 1 (· = 0), .octets 1 (· = 8), .limit 2 4]

/-- A report with a cEMI frame: protocol 1 (tunnel), EMI type 3 (cEMI), manufacturer code 0. -/
def frameFields : List Field := reportFields ++ [.octets 1 (· = 1), .octets 1 (· = 3), .octets 2 (· = 0)]

/-- A report about the device: protocol 15, service 2 or 4, manufacturer code 0, the connection status (3) or the EMI type (5),
and its value. -/
def featureFields : List Field :=
  reportFields ++ [.octets 1 (· = 15), .octets 1 (fun n => n = 2 || n = 4), .octets 2 (· = 0),
    .octets 1 (fun n => n = 3 || n = 5), .octets 1 fun _ => true]

/-- A telegram has nine octets at least. -/
def telegramOf : Msg → Option Telegram
  | c1 :: c2 :: s1 :: s2 :: d1 :: d2 :: n :: tp :: ap :: rest =>
    some ⟨c1, c2, BitVec.ofNat 16 (number [s1, s2]), BitVec.ofNat 16 (number [d1, d2]), n, tp, ap, rest⟩
  | _ => none

/-- A telegram of group communication needs an association table; a group value service at a registered address needs an
association of the address and a group object table, and the first value must be fit to be displayed. -/
def groupComplaint (s : State) (routes : BitVec 16 → List Int) (k : Kind) (t : Telegram) : Option Err :=
  match s.assoc with
  | none => some .attributeError
  | some a =>
    if t.destination ∉ a.at_.gas.map Addr.fs then none
    else
      match t.service with
      | none => none
      | some svc =>
        if routes t.destination = [] then some .keyError
        else
          match s.got with
          | none => some .attributeError
          | some g =>
            if FirstDisplayable (fanOut svc (confOf k t) g (routes t.destination) t.value) then none else some .valueError

/-- A telegram to an individual address needs an association table; a property service that concerns the state needs four
octets more. -/
def individualComplaint (s : State) (k : Kind) (t : Telegram) : Option Err :=
  match s.assoc with
  | none => some .attributeError
  | some a =>
    match k, propertyOf t with
    | _, none => none
    | .ind, some _ => if t.source = a.at_.ind.fs ∧ t.rest.length < 4 then some .indexError else none
    | .con, some _ =>
      if t.destination = a.at_.ind.fs ∧ a.at_.ind.fs ∉ a.at_.gas.map Addr.fs ∧ t.rest.length < 4 then some .indexError else none

/-- Telegrams to everybody and telegrams of the connection oriented transport are not looked at. -/
def telegramComplaint (s : State) (routes : BitVec 16 → List Int) (k : Kind) (t : Telegram) : Option Err :=
  if 4 ≤ t.tpci.toNat then none
  else if t.ctrl2.toNat < 128 then individualComplaint s k t
  else if t.destination = 0 then none
  else groupComplaint s routes k t

/-- A cEMI frame: message code and length of the additional information, then a telegram if the message code is that of an
indication or confirmation. -/
def frameComplaint (s : State) (routes : BitVec 16 → List Int) : Msg → Option Err
  | code :: n :: m =>
    if code = 0x29 ∨ code = 0x2E then
      match telegramOf (m.drop n.toNat) with
      | none => some .indexError
      | some t => telegramComplaint s routes (if code = 0x29 then .ind else .con) t
    else none
  | _ => some .indexError

/-- A USB report. -/
def reportComplaint (s : State) (routes : BitVec 16 → List Int) (m : Msg) : Option Err :=
  match front frameFields m with
  | .truncated => some .indexError
  | .rest m => frameComplaint s routes m
  | .other =>
    match front featureFields m with
    | .truncated => some .indexError
    | _ => none

/-- The exception a result stands for. -/
def errorOf {α : Type} : Except Err α → Option Err
  | .error e => some e
  | .ok _ => none

/-- The body of a datagram: the four responses, a tunnelling request, whose frame is looked at if it has the counter expected,
and an acknowledgement, which must have a status below 4. -/
def bodyComplaint (s : State) (routes : BitVec 16 → List Int) (service : Byte × Byte) (body : Msg) : Option Err :=
  if service = (0x02, 0x02) then errorOf (searchAnswer body)
  else if service = (0x02, 0x06) then errorOf (connectAnswer body)
  else if service = (0x02, 0x08) then errorOf (stateAnswer body)
  else if service = (0x02, 0x0A) then errorOf (disconnectAnswer body)
  else if service = (0x04, 0x20) then
    match body with
    | _ :: _ :: seq :: _ :: m => if seq.toNat = s.seqRemote then frameComplaint s routes m else none
    | _ => some .indexError
  else
    match body with
    | _ :: _ :: _ :: status :: _ => if status.toNat < 4 then none else some .valueError
    | _ => some .indexError

/-- The services a datagram can have: search, connect, connection state and disconnect response, tunnelling request and its
acknowledgement. -/
def ipServices : List (Byte × Byte) := [(0x02, 0x02), (0x02, 0x06), (0x02, 0x08), (0x02, 0x0A), (0x04, 0x20), (0x04, 0x21)]

/-- A datagram: header length 6, version 0x10, the service, the total length, the body. Other datagrams are ignored, once the
service is read. -/
def datagramComplaint (s : State) (routes : BitVec 16 → List Int) : Msg → Option Err
  | h :: v :: a :: b :: m =>
    if h = 0x06 ∧ v = 0x10 ∧ (a, b) ∈ ipServices then
      match m with
      | _ :: _ :: body => bodyComplaint s routes (a, b) body
      | _ => some .indexError
    else none
  | _ => some .indexError

/-- What is wrong with some octets, if anything; nothing can be decoded from the third medium. -/
def decodeComplaint (s : State) (routes : BitVec 16 → List Int) (m : Msg) : Option Err :=
  match s.medium with
  | .usbHid => reportComplaint s routes m
  | .knxnetIp => datagramComplaint s routes m
  | .tp => some .exception

/-- The ASAPs listed for the registered addresses. -/
def Routing (s : State) (routes : BitVec 16 → List Int) : Prop :=
  ∀ a, s.assoc = some a → ∀ x ∈ a.at_.gas.map Addr.fs, a.Routes ⟨0, x⟩ (routes x)

end Spec
end Knx
