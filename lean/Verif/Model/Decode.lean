import Verif.Model.State

/-!
# Decoding: application, transport, network, link layer, cEMI, USB reports (knx_stack/decode)
-/

namespace Knx

/-- The three group value services (definition/layer/application/a_group_value_read/ind.py:4, _response/ind.py:4,
_write/ind.py:4) and the three property value services (a_property_value_read/ind.py:4, ...). -/
inductive Svc
  | read | response | write
  deriving DecidableEq, Repr

/-- Whether a decoder of the `ind` or of the `con` family is running (decode/cemi/msg_code.py:13-16). -/
inductive Kind
  | ind | con
  deriving DecidableEq, Repr

/-- Whether a message is an indication, or a confirmation with its status
(definition/layer/application/a_group_value_write/{ind,con}.py:4-7). -/
inductive Conf
  | ind
  | con (status : ConfirmFlag)
  deriving DecidableEq, Repr

/-- `ErrorCodes` (definition/knxnet_ip/definitions.py:46-50). -/
inductive ErrorCode
  | noError | hostProtocolType | versionNotSupported | sequenceNumber
  deriving DecidableEq, Repr

/-- Status of a connect response (definition/knxnet_ip/core/connect/res.py:5-9). -/
inductive ConnectStatus
  | noError | connectionType | connectionOption | noMoreConnections
  deriving DecidableEq, Repr

/-- Status of a connection state response (definition/knxnet_ip/core/connectionstate/res.py:5-9). -/
inductive ConnStateStatus
  | noError | connectionId | dataConnection | knxConnection
  deriving DecidableEq, Repr

/-- `EMIType.type` (decode/usb_hid/.../feature_identifier.py:10-11, 25-30). -/
inductive EmiType
  | cEMI | emi1 | emi2
  deriving DecidableEq, Repr

/-- The messages a decoder can return: group value messages
(definition/layer/application/a_group_value_{read,response,write}/{ind,con}.py:4-7), property value messages
(a_property_value_{read,response,write}/{ind,con}.py:4-11; `data` is absent for a read), USB feature reports
(feature_identifier.py:6-11) and KNXnet/IP messages (definition/knxnet_ip/core/*/res.py,
definition/knxnet_ip/tunneling/{req,ack}.py:4-6). An IP address is the number whose dotted notation python keeps. -/
inductive OutMsg
  | group (svc : Svc) (conf : Conf) (asap : Asap) (dpt : Dpt)
  | property (svc : Svc) (conf : Conf) (asap : Asap) (objectIndex propertyId numberOfElements startIndex : Nat)
      (data : Option Msg)
  | connectionStatus (connected : Bool)
  | emiType (t : EmiType)
  | searchRes (ip port : Nat) (individualAddress : Nat)
  | connectRes (ip port : Nat) (individualAddress : Option (BitVec 16)) (status : ConnectStatus)
  | connectionstateRes (status : ConnStateStatus)
  | disconnectRes (chan : Nat) (status : ErrorCode)
  | tunnelingReq (seq : Nat) (status : ErrorCode)
  | tunnelingAck (seq : Nat) (status : ErrorCode)
  deriving DecidableEq, Repr

/-- What `decode_msg` returns: a list, `None` (a function body that falls off its end,
decode/layer/network/n_data_group/ind.py:6-8), or a pair of a list and the state
(decode/knxnet_ip/tunneling/ack.py:25-27). -/
inductive Res
  | list (l : List OutMsg)
  | none
  | tuple (l : List OutMsg)
  deriving DecidableEq, Repr

/-- The `while body` loop (decode/layer/application/a_group_value.py:15-20). -/
def beLoop (value : Nat) (head : Byte) : Msg → Nat
  | [] => value * 2 ^ 8 + head.toNat
  | b :: body => beLoop (value * 2 ^ 8 + head.toNat) b body

/-- Reading the payload as a number (decode/layer/application/a_group_value.py:13-20). -/
def beValue (msg : Msg) : Except Err Nat :=
  match octect msg with
  | .error e => .error e
  | .ok (head, body) => .ok (beLoop 0 head body)

/-- The loop of `a_group_value.decode` (decode/layer/application/a_group_value.py:11-22). -/
def groupDataLoop (msg : Msg) : List (Asap × DptClass) → Except Err (List (Asap × Dpt))
  | [] => .ok []
  | (asap, cls) :: rest =>
    match beValue msg with
    | .error e => .error e
    | .ok v =>
      match groupDataLoop msg rest with
      | .error e => .error e
      | .ok l => .ok ((asap, (Dpt.new cls).setValue v) :: l)

/-- `a_group_value.decode` (decode/layer/application/a_group_value.py:9-23). -/
def groupValueDecode (t : Tables) (l : LData) (msg : Msg) : Except Err (List (Asap × Dpt)) :=
  match t.getAsapsAndDpts l.destination with
  | .error e => .error e
  | .ok as => groupDataLoop msg as

/-- The extra field of a confirmation (decode/layer/application/a_group_value_write/con.py:21). -/
def Kind.conf (k : Kind) (l : LData) : Conf :=
  match k with
  | .ind => .ind
  | .con => .con l.status

/-- `a_group_value_{read,response,write}.{ind,con}.decode` (decode/layer/application/a_group_value_read/con.py:19-24,
a_group_value_read/ind.py:19-23, a_group_value_response/con.py:7-12, a_group_value_response/ind.py:7-11,
a_group_value_write/con.py:19-24, a_group_value_write/ind.py:20-24). -/
def groupServiceDecode (svc : Svc) (k : Kind) (t : Tables) (l : LData) (msg : Msg) : Except Err (List OutMsg) :=
  match groupValueDecode t l msg with
  | .error e => .error e
  | .ok gs => .ok (gs.map fun g => .group svc (k.conf l) g.1 g.2)

/-- The `PropertyServiceHeader` fields (definition/layer/application/a_property_value.py:4-11): start index,
number of elements, property id, object index. -/
structure PropHeader where
  startIndex : Nat
  numberOfElements : Nat
  propertyId : Nat
  objectIndex : Nat
  deriving DecidableEq, Repr

/-- Reading the bit fields of a `PropertyServiceHeader` (definition/layer/application/a_property_value.py:6-11). -/
def propHeader (v : Nat) : PropHeader :=
  { startIndex := getField 0 12 v, numberOfElements := getField 12 4 v,
    propertyId := getField 16 8 v, objectIndex := getField 24 8 v }

/-- `a_property_value.decode` and the six services built on it (decode/layer/application/a_property_value.py:15-31,
a_property_value_read/con.py:17-29, a_property_value_read/ind.py:17-28, a_property_value_response/con.py:7-20,
a_property_value_response/ind.py:7-19, a_property_value_write/con.py:17-30, a_property_value_write/ind.py:17-29). -/
def propertyServiceDecode (svc : Svc) (k : Kind) (l : LData) (msg : Msg) : Except Err (List OutMsg) :=
  match long msg with
  | .error e => .error e
  | .ok (v, data) =>
    let h := propHeader v
    .ok [.property svc (k.conf l) ⟨0, none⟩ h.objectIndex h.propertyId h.numberOfElements h.startIndex
      (if svc = .read then none else some data)]

/-- The formatting for the log in the transport layer (decode/layer/transport/t_data_group/ind.py:17-23,
t_data_group/con.py:17-23): `result[0].dpt` is formatted. Only `AttributeError` and `IndexError` are caught, that is,
an empty result or one without datapoint; then the whole result is formatted, which cannot raise for these. -/
def logFirst (result : List OutMsg) : Except Err Unit :=
  match result with
  | .group _ _ _ d :: _ =>
    match d.repr with
    | .ok _ => .ok ()
    | .error e => .error e
  | _ => .ok ()

/-- `t_data_group.{ind,con}.decode` (decode/layer/transport/t_data_group/ind.py:6-26, con.py:6-26); `tsap` is
falsy when it is `None` or 0. -/
def tDataGroupDecode (k : Kind) (t : Tables) (l : LData) (msg : Msg) : Except Err (List OutMsg) :=
  match t.getTsap l.destination with
  | .error e => .error e
  | .ok none => .ok []
  | .ok (some 0) => .ok []
  | .ok (some (_ + 1)) =>
    let r :=
      if l.apciFull = 0 then groupServiceDecode .read k t l msg
      else if (l.apciFull : Int) - l.data = 0x40 then groupServiceDecode .response k t l msg
      else if (l.apciFull : Int) - l.data = 0x80 then groupServiceDecode .write k t l msg
      else .ok []
    match r with
    | .error e => .error e
    | .ok result =>
      match logFirst result with
      | .error e => .error e
      | .ok _ => .ok result

/-- The dispatch on the service common to `t_data_individual.{ind,con}.decode`
(decode/layer/transport/t_data_individual/ind.py:10-15, con.py:11-16). -/
def propertyDispatch (k : Kind) (l : LData) (msg : Msg) : Except Err (List OutMsg) :=
  if l.apciFull = 0x3D5 then propertyServiceDecode .read k l msg
  else if l.apciFull = 0x3D6 then propertyServiceDecode .response k l msg
  else if l.apciFull = 0x3D7 then propertyServiceDecode .write k l msg
  else .ok []

/-- `t_data_individual.{ind,con}.decode` (decode/layer/transport/t_data_individual/ind.py:6-25, con.py:6-26): a
confirmation must be addressed to TSAP 0, an indication must come from the own individual address. -/
def tDataIndividualDecode (k : Kind) (t : Tables) (l : LData) (msg : Msg) : Except Err (List OutMsg) :=
  match k with
  | .con =>
    match t.getTsap l.destination with
    | .error e => .error e
    | .ok tsap => if tsap = some 0 then propertyDispatch k l msg else .ok []
  | .ind =>
    match t.individualAddress with
    | .error e => .error e
    | .ok ia => if l.source = ia.fs then propertyDispatch k l msg else .ok []

/-- `n_data_group.{ind,con}.decode` (decode/layer/network/n_data_group/ind.py:6-8, con.py:6-8): `None` for any other
PDU. -/
def nDataGroupDecode (k : Kind) (t : Tables) (l : LData) (msg : Msg) : Except Err Res :=
  if l.nsdu = some .group then
    match tDataGroupDecode k t l msg with
    | .error e => .error e
    | .ok r => .ok (.list r)
  else .ok .none

/-- `n_data_individual.{ind,con}.decode` (decode/layer/network/n_data_individual/ind.py:6-18, con.py:6-18); the
connection oriented decoders (decode/layer/transport/t_connect/ind.py:4-5, t_disconnect/ind.py:4-5,
t_data_connected/ind.py:4-5 and their `con` twins) return the empty list. -/
def nDataIndividualDecode (k : Kind) (t : Tables) (l : LData) (msg : Msg) : Except Err Res :=
  if l.nsdu = some .individual then
    match tDataIndividualDecode k t l msg with
    | .error e => .error e
    | .ok r => .ok (.list r)
  else .ok (.list [])

/-- `l_data.{ind,con}.decode` (decode/layer/link/l_data/ind.py:6-14, con.py:6-14), with the broadcast decoders
(decode/layer/network/n_data_broadcast/ind.py:5-6, decode/layer/transport/t_data_broadcast/ind.py:4-5 and their `con`
twins) returning the empty list. -/
def lDataDecode (k : Kind) (t : Tables) (l : LData) (msg : Msg) : Except Err Res :=
  match l.addressType with
  | .individual => nDataIndividualDecode k t l msg
  | .group => if l.destination ≠ 0 then nDataGroupDecode k t l msg else .ok (.list [])

/-- `cemi.ldata.{ind,con}.decode` (decode/cemi/ldata/ind.py:6-9, con.py:6-9). -/
def cemiLdataDecode (k : Kind) (msg : Msg) : Py State Res := fun s =>
  match LData.makeFrom msg with
  | .error e => (.error e, s)
  | .ok (l, body) => (lDataDecode k s.tables l body, { s with ldata := some l })

/-- `msg_code.decode` (decode/cemi/msg_code.py:7-18). -/
def msgCodeDecode (msg : Msg) : Py State Res :=
  match octect msg with
  | .error e => Py.raise e
  | .ok (code, body) =>
    match octect body with
    | .error e => Py.raise e
    | .ok (len, body) =>
      let body := body.drop len.toNat
      if code.toNat = 0x29 then cemiLdataDecode .ind body
      else if code.toNat = 0x2E then cemiLdataDecode .con body
      else Py.pure (.list [])

/-- `emi_id.decode` (decode/cemi/emi_id.py:6-13). -/
def emiIdDecode (msg : Msg) : Py State Res :=
  match octect msg with
  | .error e => Py.raise e
  | .ok (head, msg) =>
    if head.toNat = 0x03 then
      match short msg with
      | .error e => Py.raise e
      | .ok (head, body) => if head = 0 then msgCodeDecode body else Py.pure (.list [])
    else Py.pure (.list [])

/-- `feature_identifier.decode` (decode/usb_hid/report_body/usb_protocol_header/bus_access_server_feature/
device_feature_info/feature_identifier.py:14-31). -/
def featureDecode (msg : Msg) : Except Err (List OutMsg) :=
  match octect msg with
  | .error e => .error e
  | .ok (head, body) =>
    if head.toNat = 3 then
      match octect body with
      | .error e => .error e
      | .ok (head, _) =>
        if head.toNat = 0 then .ok [.connectionStatus false]
        else if head.toNat = 1 then .ok [.connectionStatus true]
        else .ok []
    else if head.toNat = 5 then
      match octect body with
      | .error e => .error e
      | .ok (head, _) =>
        if head.toNat = 3 then .ok [.emiType .cEMI]
        else if head.toNat = 1 then .ok [.emiType .emi1]
        else if head.toNat = 2 then .ok [.emiType .emi2]
        else .ok []
    else .ok []

/-- The body of one of the two `if` statements of `service_identifier.decode`
(decode/usb_hid/report_body/usb_protocol_header/bus_access_server_feature/service_identifier.py:12-14, 16-18):
the value that `head` is bound to afterwards and the result, given the previous result. -/
def serviceBranch (msg : Msg) (result : List OutMsg) : Except Err (Nat × List OutMsg) :=
  match short msg with
  | .error e => .error e
  | .ok (head, body) =>
    if head = 0 then
      match featureDecode body with
      | .error e => .error e
      | .ok r => .ok (head, r)
    else .ok (head, result)

/-- `service_identifier.decode` (decode/usb_hid/report_body/usb_protocol_header/bus_access_server_feature/
service_identifier.py:8-19); the second `if` tests the `head` that the first one may have rebound. -/
def serviceDecode (msg : Msg) : Except Err (List OutMsg) :=
  match octect msg with
  | .error e => .error e
  | .ok (head, msg) =>
    match (if head.toNat = 4 then serviceBranch msg [] else .ok (head.toNat, [])) with
    | .error e => .error e
    | .ok (head, result) =>
      if head = 2 then
        match serviceBranch msg result with
        | .error e => .error e
        | .ok (_, r) => .ok r
      else .ok result

/-- `protocol_id.decode` (decode/usb_hid/report_body/usb_protocol_header/protocol_id.py:9-16). -/
def protocolIdDecode (msg : Msg) : Py State Res :=
  match octect msg with
  | .error e => Py.raise e
  | .ok (head, body) =>
    if head.toNat = 0x01 then emiIdDecode body
    else if head.toNat = 0x0F then
      match serviceDecode body with
      | .error e => Py.raise e
      | .ok r => Py.pure (.list r)
    else Py.pure (.list [])

/-- `body_length.decode` (decode/usb_hid/report_body/usb_protocol_header/body_length.py:6-12). -/
def bodyLengthDecode (msg : Msg) : Py State Res :=
  match short msg with
  | .error e => Py.raise e
  | .ok (len, body) => protocolIdDecode (body.take (len + 4))

/-- `header_length.decode` (decode/usb_hid/report_body/usb_protocol_header/header_length.py:6-11). -/
def headerLengthDecode (msg : Msg) : Py State Res :=
  match octect msg with
  | .error e => Py.raise e
  | .ok (head, body) => if head.toNat = 0x08 then bodyLengthDecode body else Py.pure (.list [])

/-- `protocol_version.decode` (decode/usb_hid/report_body/usb_protocol_header/protocol_version.py:6-11). -/
def protocolVersionDecode (msg : Msg) : Py State Res :=
  match octect msg with
  | .error e => Py.raise e
  | .ok (head, body) => if head.toNat = 0x00 then headerLengthDecode body else Py.pure (.list [])

/-- `packet_info.decode` (decode/usb_hid/report_header/packet_info.py:7-18). -/
def packetInfoDecode (msg : Msg) : Py State Res :=
  match octect msg with
  | .error e => Py.raise e
  | .ok (info, body) =>
    if getB 0 4 info = 3 then
      match octect body with
      | .error e => Py.raise e
      | .ok (len, body) => protocolVersionDecode (body.take len.toNat)
    else Py.pure (.list [])

/-- `report_identifier.decode` (decode/usb_hid/report_header/report_identifier.py:19-23). -/
def reportIdDecode (msg : Msg) : Py State Res :=
  match octect msg with
  | .error e => Py.raise e
  | .ok (head, body) => if head.toNat = 0x01 then packetInfoDecode body else Py.pure (.list [])

end Knx
