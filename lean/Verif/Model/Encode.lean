import Verif.Model.KnxNetIp

/-!
# Encoding (knx_stack/encode) and `encode_msg`
-/

namespace Knx

/-- The messages `encode_msg` accepts (knx_stack/__init__.py:19-30) and their fields
(definition/knxnet_ip/core/{connect,disconnect,connectionstate,search}/req.py:4-8,
definition/knxnet_ip/tunneling/ack.py:4-6, definition/layer/application/a_group_value_read/req.py:4-5,
a_group_value_write/{req,ind}.py:4-6, a_property_value_read/req.py:4-9, a_property_value_write/req.py:4-10).
Simplification: an IP address is given by its four octets (the result of `socket.inet_aton`), the data of a property
write by its characters. -/
inductive InMsg
  | connectReq (ctlIp : BitVec 32) (ctlPort : Int) (dataIp : BitVec 32) (dataPort : Int)
  | disconnectReq (ctlIp : BitVec 32) (ctlPort : Int)
  | connectionstateReq (ctlIp : BitVec 32) (ctlPort : Int)
  | searchReq (ip : BitVec 32) (port : Int)
  | tunnelingAck (seq : Nat) (status : ErrorCode)
  | groupRead (asap : Asap)
  | groupWriteReq (asap : Asap) (dpt : Dpt)
  | groupWriteInd (asap : Asap) (dpt : Dpt)
  | propertyRead (asap : Asap) (objectIndex propertyId numberOfElements startIndex : Int)
  | propertyWrite (asap : Asap) (objectIndex propertyId numberOfElements startIndex : Int) (data : List Char)
  deriving DecidableEq, Repr

/-- `report_identifier.encode` (encode/usb_hid/report_header/report_identifier.py:5-8). -/
def reportIdEncode (msg : Msg) : Msg := [octetOf 0x01] ++ msg

/-- `packet_info.encode` (encode/usb_hid/report_header/packet_info.py:6-13). -/
def packetInfoEncode (msg : Msg) : Msg := reportIdEncode ([nibblesOctet 1 3, octetOf msg.length] ++ msg)

/-- `protocol_version.encode` (encode/usb_hid/report_body/usb_protocol_header/protocol_version.py:5-9). -/
def protocolVersionEncode (msg : Msg) : Msg := packetInfoEncode ([octetOf 0] ++ msg)

/-- `header_length.encode` (encode/usb_hid/report_body/usb_protocol_header/header_length.py:6-10). -/
def headerLengthEncode (msg : Msg) : Msg := protocolVersionEncode ([octetOf 0x08] ++ msg)

/-- `body_length.encode` (encode/usb_hid/report_body/usb_protocol_header/body_length.py:5-10). -/
def bodyLengthEncode (msg : Msg) : Msg := headerLengthEncode (shortOctets ((msg.length : Int) - 4) ++ msg)

/-- `protocol_id.encode` (encode/usb_hid/report_body/usb_protocol_header/protocol_id.py:6-10). -/
def protocolIdEncode (msg : Msg) : Msg := bodyLengthEncode ([octetOf 0x01] ++ msg)

/-- `emi_id.encode` (encode/usb_hid/emi_id.py:7-13). -/
def emiIdEncode (msg : Msg) : Msg := protocolIdEncode ([octetOf 0x03, octetOf 0, octetOf 0] ++ msg)

/-- `knxnet_ip.header.encode` (encode/knxnet_ip/header.py:5-9). -/
def ipHeaderEncode (msg : Msg) : Msg := [octetOf 0x06, octetOf 0x10] ++ msg

/-- `connection_header.create` (encode/knxnet_ip/tunneling/connection_header.py:7-16): `AttributeError` if the state
has no channel id. -/
def connectionHeader (s : State) (status seq : Nat) : Except Err Msg :=
  match s.chan with
  | none => .error .attributeError
  | some c => .ok [octetOf 4, octetOf c, octetOf seq, octetOf status]

/-- `tunneling.req.encode` (encode/knxnet_ip/tunneling/req.py:19-35). -/
def tunnelingReqEncode (s : State) (msg : Msg) : Except Err Msg :=
  match connectionHeader s 0 s.seqLocal with
  | .error e => .error e
  | .ok h => .ok (ipHeaderEncode (shortOctets 0x0420 ++ shortOctets (4 + 6 + msg.length : Nat) ++ h ++ msg))

/-- `cemi.ldata.ind.encode` (encode/cemi/ldata/ind.py:6-11): always a USB report. -/
def cemiIndEncode (_s : State) (msg : Msg) : Except Err Msg :=
  .ok (emiIdEncode ([octetOf 0x29, octetOf 0] ++ msg))

/-- `cemi.ldata.req.encode` (encode/cemi/ldata/req.py:7-17). -/
def cemiReqEncode (s : State) (msg : Msg) : Except Err Msg :=
  let newMsg := [octetOf 0x11, octetOf 0] ++ msg
  match s.medium with
  | .usbHid => .ok (emiIdEncode newMsg)
  | .knxnetIp => tunnelingReqEncode s newMsg
  | .tp => .ok newMsg

/-- Which `encode` chain runs: requests or indications (encode/layer/application/a_group_value_write/req.py:24-26,
ind.py:24-26). -/
inductive EncKind
  | req | ind
  deriving DecidableEq, Repr

/-- `cemi.ldata.{req,ind}.encode` (encode/cemi/ldata/req.py:7-17, ind.py:6-11). -/
def cemiEncode (k : EncKind) (s : State) (msg : Msg) : Except Err Msg :=
  match k with
  | .req => cemiReqEncode s msg
  | .ind => cemiIndEncode s msg

/-- `ll_encode` and `l_data.{req,ind}.encode` (encode/layer/link/l_data/encode.py:5-12, req.py:5-8, ind.py:5-8). The
address type has been set by every caller; a `None` would be a `TypeError`. -/
def linkEncode (k : EncKind) (s : State) (msg : Msg) : Except Err Msg :=
  match s.addressType with
  | none => .error .typeError
  | some t =>
    let l := LData.default.setAddressType t
    cemiEncode k s ([l.cntrl1, l.cntrl2] ++ shortOctets 0 ++ msg)

/-- `nl_encode` and `n_data_group.{req,ind}.encode` (encode/layer/network/n_data_group/encode.py:4-11, req.py:5-8,
ind.py:5-8): only the first address is used; without addresses the message is passed on unchanged. -/
def nDataGroupEncode (k : EncKind) (s : State) (msg : Msg) : Except Err Msg :=
  match s.getAddresses with
  | .error e => .error e
  | .ok [] => linkEncode k s msg
  | .ok (a :: _) => linkEncode k s (shortOctets a.fs.toNat ++ [octetOf ((msg.length : Int) - 1)] ++ msg)

/-- `tl_encode` and `t_data_group.{req,ind}.encode` (encode/layer/transport/t_data_group/encode.py:5-12, req.py:5-8,
ind.py:5-8). -/
def tDataGroupEncode (k : EncKind) (s : State) (msg : Msg) : Except Err Msg :=
  match s.getTsaps with
  | .error e => .error e
  | .ok [] => nDataGroupEncode k s msg
  | .ok (_ :: _) =>
    match s.apci with
    | none => .error .typeError
    | some apci =>
      let l := (LData.default.setNsdu .group).setApci apci
      nDataGroupEncode k s ([l.tpci] ++ msg)

/-- `n_data_individual.req.encode` (encode/layer/network/n_data_individual/req.py:5-10). -/
def nDataIndividualEncode (s : State) (msg : Msg) : Except Err Msg :=
  match s.tables.individualAddress with
  | .error e => .error e
  | .ok ia => linkEncode .req s (shortOctets ia.fs.toNat ++ [octetOf ((msg.length : Int) - 1)] ++ msg)

/-- `t_data_individual.req.encode` (encode/layer/transport/t_data_individual/req.py:6-14). -/
def tDataIndividualEncode (s : State) (msg : Msg) : Except Err Msg :=
  if s.addressType = some .individual then
    match s.apci with
    | none => .error .typeError
    | some apci =>
      let l := (LData.default.setNsdu .individual).setApci apci
      nDataIndividualEncode s ([l.tpci] ++ msg)
  else .ok msg

/-- `t_connect.req.encode` (encode/layer/transport/t_connect/req.py:18-24). -/
def tConnectEncode : Py State Msg := fun s =>
  let s := { s with addressType := some .individual }
  let l := (LData.default.setNsdu .individual).setConnected true
  (nDataIndividualEncode s [l.tpci], s)

/-- `t_disconnect.req.encode` (encode/layer/transport/t_disconnect/req.py:17-24). -/
def tDisconnectEncode : Py State Msg := fun s =>
  let s := { s with addressType := some .individual }
  let l := ((LData.default.setNsdu .individual).setConnected true).setApci 0x100
  (nDataIndividualEncode s [l.tpci], s)

/-- `a_group_value_read.req.encode` (encode/layer/application/a_group_value_read/req.py:23-31). -/
def groupReadEncode (asap : Asap) : Py State Msg := fun s =>
  let s := { s with apci := some 0, asap := some asap, addressType := some .group }
  let l := LData.default.setApci 0
  (tDataGroupEncode .req s [l.apci], s)

/-- The octets built by `al_encode` for a registered class and a raw value
(encode/layer/application/a_group_value_write/encode.py:19-38). -/
def groupWritePayload (cls : DptClass) (value : Nat) : Msg :=
  if cls.lessThanAByte then
    let l := (LData.default.setApci 0x80).setData value
    [octetOf l.apciFull]
  else
    let l := (LData.default.setApci 0x80).setData 0
    if cls.size = 1 then [octetOf l.apciFull, octetOf value]
    else if cls.size = 2 then [octetOf l.apciFull] ++ shortOctets value
    else if cls.size = 4 then [octetOf l.apciFull] ++ longOctets value
    else []

/-- `al_encode` and `a_group_value_write.{req,ind}.encode`
(encode/layer/application/a_group_value_write/encode.py:14-38, req.py:24-26, ind.py:24-26): the registered class
decides the layout, the message's datapoint gives the number. -/
def groupWriteEncode (k : EncKind) (asap : Asap) (dpt : Dpt) : Py State Msg := fun s =>
  let s := { s with asap := some asap, apci := some 0x80, addressType := some .group }
  match s.getDpt with
  | .error e => (.error e, s)
  | .ok cls => (tDataGroupEncode k s (groupWritePayload cls dpt.raw), s)

/-- The `PropertyServiceHeader` value (encode/layer/application/a_property_value_read/req.py:28-32,
a_property_value_write/req.py:30-34; definition/layer/application/a_property_value.py:6-11). -/
def propHeaderValue (objectIndex propertyId numberOfElements startIndex : Int) : Nat :=
  setField 0 12 startIndex (setField 12 4 numberOfElements (setField 16 8 propertyId (setField 24 8 objectIndex 0)))

/-- `a_property_value_read.req.encode` (encode/layer/application/a_property_value_read/req.py:22-37). -/
def propertyReadEncode (asap : Asap) (oi pid n si : Int) : Py State Msg := fun s =>
  let s := { s with asap := some asap, apci := some 0x3D5, addressType := some .individual }
  let l := LData.default.setApci 0x3D5
  (tDataIndividualEncode s ([octetOf l.apciFull] ++ longOctets (propHeaderValue oi pid n si)), s)

/-- `a_property_value_write.req.encode` (encode/layer/application/a_property_value_write/req.py:24-41). -/
def propertyWriteEncode (asap : Asap) (oi pid n si : Int) (data : List Char) : Py State Msg := fun s =>
  let s := { s with asap := some asap, apci := some 0x3D7, addressType := some .individual }
  let l := LData.default.setApci 0x3D7
  match stringToOctets data with
  | .error e => (.error e, s)
  | .ok d => (tDataIndividualEncode s ([octetOf l.apciFull] ++ longOctets (propHeaderValue oi pid n si) ++ d), s)

/-- `hpai.create` (encode/knxnet_ip/core/hpai.py:4-11). -/
def hpaiCreate (ip : BitVec 32) (port : Int) : Msg :=
  [octetOf 8, octetOf 1] ++ longOctets ip.toNat ++ shortOctets port

/-- `connect.req.encode` (encode/knxnet_ip/core/connect/req.py:29-44). -/
def connectReqEncode (ctlIp : BitVec 32) (ctlPort : Int) (dataIp : BitVec 32) (dataPort : Int) : Msg :=
  ipHeaderEncode (shortOctets 0x0205 ++ shortOctets (4 + 8 * 2 + 6) ++ hpaiCreate ctlIp ctlPort ++
    hpaiCreate dataIp dataPort ++ [octetOf 4, octetOf 4, octetOf 2, octetOf 0])

/-- `connectionstate.req.encode` (encode/knxnet_ip/core/connectionstate/req.py:21-28) and `disconnect.req.encode`
(encode/knxnet_ip/core/disconnect/req.py:21-28), which differ in the service only. -/
def channelReqEncode (service : Nat) (s : State) (ip : BitVec 32) (port : Int) : Except Err Msg :=
  match s.chan with
  | none => .error .attributeError
  | some c =>
    .ok (ipHeaderEncode (shortOctets service ++ shortOctets (2 + 8 + 6) ++ [octetOf c, octetOf 0] ++ hpaiCreate ip port))

/-- `search.req.encode` (encode/knxnet_ip/core/search/req.py:20-26). -/
def searchReqEncode (ip : BitVec 32) (port : Int) : Msg :=
  ipHeaderEncode (shortOctets 0x0201 ++ shortOctets (8 + 6) ++ hpaiCreate ip port)

/-- `tunneling.ack.encode` (encode/knxnet_ip/tunneling/ack.py:20-35): the frame carries the expected counter (not the
message's), which is advanced afterwards if it equals the message's. -/
def tunnelingAckEncode (seq : Nat) (status : ErrorCode) : Py State Msg := fun s =>
  match connectionHeader s status.toNat s.seqRemote with
  | .error e => (.error e, s)
  | .ok h =>
    let s' := if seq = s.seqRemote then s.setSeqRemote (s.seqRemote + 1) else s
    (.ok (ipHeaderEncode (shortOctets 0x0421 ++ shortOctets (4 + 6) ++ h)), s')

/-- `encode_msg` (knx_stack/__init__.py:19-34). -/
def encodeMsg (m : InMsg) : Py State Msg :=
  match m with
  | .connectReq ci cp di dp => Py.pure (connectReqEncode ci cp di dp)
  | .disconnectReq ip port => fun s => (channelReqEncode 0x0209 s ip port, s)
  | .connectionstateReq ip port => fun s => (channelReqEncode 0x0207 s ip port, s)
  | .searchReq ip port => Py.pure (searchReqEncode ip port)
  | .tunnelingAck seq status => tunnelingAckEncode seq status
  | .groupRead asap => groupReadEncode asap
  | .groupWriteReq asap dpt => groupWriteEncode .req asap dpt
  | .groupWriteInd asap dpt => groupWriteEncode .ind asap dpt
  | .propertyRead asap oi pid n si => propertyReadEncode asap oi pid n si
  | .propertyWrite asap oi pid n si data => propertyWriteEncode asap oi pid n si data

end Knx
