import Verif.Model.Client
import Verif.Model.DecodeLog

/-!
# The log of the encoders

The encoders of Model/Encode.lean with their calls of `logger.debug` and `logger.info`, each of which makes a line, whatever the level of
the logger. The encoders that call none of the two that log are those of the other file. The name of a logger stands behind
`knx_stack.encode.`.
-/

namespace Knx

/-- The line about the counter of an acknowledgement or a request (encode/knxnet_ip/tunneling/ack.py:27-31, req.py:29-33). -/
def sentCounterLine (logger what : String) (level : LogLevel) (seq : Nat) : LogLine :=
  ⟨logger, level, "knxnet_ip.tunneling.encode.".toList ++ what.toList ++ " with sequence counter=".toList ++ decimal seq⟩

/-- `tunneling.req.encode` (encode/knxnet_ip/tunneling/req.py:19-35): the line is written behind the call of
`connection_header.create`, which raises without a channel. -/
def tunnelingReqEncodeLog (msg : Msg) : Py LoggedState Msg := fun c =>
  match connectionHeader c.state 0 c.state.seqLocal with
  | .error e => (.error e, c)
  | .ok h =>
    Py.bind (LoggedState.write (sentCounterLine "knxnet_ip.tunneling.req" "req" .debug c.state.seqLocal)) (fun _ =>
      Py.pure (ipHeaderEncode (shortOctets 0x0420 ++ shortOctets (4 + 6 + msg.length : Nat) ++ h ++ msg))) c

/-- `cemi.ldata.{req,ind}.encode` (encode/cemi/ldata/req.py:7-17, ind.py:6-11). -/
def cemiEncodeLog (k : EncKind) (msg : Msg) : Py LoggedState Msg := fun c =>
  match k, c.state.medium with
  | .req, .knxnetIp => tunnelingReqEncodeLog ([octetOf 0x11, octetOf 0] ++ msg) c
  | .req, .usbHid => (.ok (emiIdEncode ([octetOf 0x11, octetOf 0] ++ msg)), c)
  | .req, .tp => (.ok ([octetOf 0x11, octetOf 0] ++ msg), c)
  | .ind, _ => (cemiIndEncode c.state msg, c)

/-- `ll_encode` and `l_data.{req,ind}.encode` (encode/layer/link/l_data/encode.py:5-12, req.py:5-8, ind.py:5-8). -/
def linkEncodeLog (k : EncKind) (msg : Msg) : Py LoggedState Msg := fun c =>
  match c.state.addressType with
  | none => (.error .typeError, c)
  | some t =>
    let l := LData.default.setAddressType t
    cemiEncodeLog k ([l.cntrl1, l.cntrl2] ++ shortOctets 0 ++ msg) c

/-- `nl_encode` and `n_data_group.{req,ind}.encode` (encode/layer/network/n_data_group/encode.py:4-11, req.py:5-8, ind.py:5-8). -/
def nDataGroupEncodeLog (k : EncKind) (msg : Msg) : Py LoggedState Msg := fun c =>
  match c.state.getAddresses with
  | .error e => (.error e, c)
  | .ok [] => linkEncodeLog k msg c
  | .ok (a :: _) => linkEncodeLog k (shortOctets a.fs.toNat ++ [octetOf ((msg.length : Int) - 1)] ++ msg) c

/-- `tl_encode` and `t_data_group.{req,ind}.encode` (encode/layer/transport/t_data_group/encode.py:5-12, req.py:5-8, ind.py:5-8). -/
def tDataGroupEncodeLog (k : EncKind) (msg : Msg) : Py LoggedState Msg := fun c =>
  match c.state.getTsaps with
  | .error e => (.error e, c)
  | .ok [] => nDataGroupEncodeLog k msg c
  | .ok (_ :: _) =>
    match c.state.apci with
    | none => (.error .typeError, c)
    | some apci =>
      let l := (LData.default.setNsdu .group).setApci apci
      nDataGroupEncodeLog k ([l.tpci] ++ msg) c

/-- `n_data_individual.req.encode` (encode/layer/network/n_data_individual/req.py:5-10). -/
def nDataIndividualEncodeLog (msg : Msg) : Py LoggedState Msg := fun c =>
  match c.state.tables.individualAddress with
  | .error e => (.error e, c)
  | .ok ia => linkEncodeLog .req (shortOctets ia.fs.toNat ++ [octetOf ((msg.length : Int) - 1)] ++ msg) c

/-- `t_data_individual.req.encode` (encode/layer/transport/t_data_individual/req.py:6-14). -/
def tDataIndividualEncodeLog (msg : Msg) : Py LoggedState Msg := fun c =>
  if c.state.addressType = some .individual then
    match c.state.apci with
    | none => (.error .typeError, c)
    | some apci =>
      let l := (LData.default.setNsdu .individual).setApci apci
      nDataIndividualEncodeLog ([l.tpci] ++ msg) c
  else (.ok msg, c)

/-- Setting attributes of the state (encode/layer/application/a_group_value_read/req.py:24-26). -/
def LoggedState.set (f : State → State) : Py LoggedState Unit := Py.modify fun c => { c with state := f c.state }

/-- `t_connect.req.encode` (encode/layer/transport/t_connect/req.py:18-24). -/
def tConnectEncodeLog : Py LoggedState Msg :=
  Py.bind (LoggedState.set fun s => { s with addressType := some .individual }) fun _ =>
    nDataIndividualEncodeLog [((LData.default.setNsdu .individual).setConnected true).tpci]

/-- `t_disconnect.req.encode` (encode/layer/transport/t_disconnect/req.py:17-24). -/
def tDisconnectEncodeLog : Py LoggedState Msg :=
  Py.bind (LoggedState.set fun s => { s with addressType := some .individual }) fun _ =>
    nDataIndividualEncodeLog [(((LData.default.setNsdu .individual).setConnected true).setApci 0x100).tpci]

/-- `a_group_value_read.req.encode` (encode/layer/application/a_group_value_read/req.py:23-31). -/
def groupReadEncodeLog (asap : Asap) : Py LoggedState Msg :=
  Py.bind (LoggedState.set fun s => { s with apci := some 0, asap := some asap, addressType := some .group }) fun _ =>
    tDataGroupEncodeLog .req [(LData.default.setApci 0).apci]

/-- `al_encode` and `a_group_value_write.{req,ind}.encode` (encode/layer/application/a_group_value_write/encode.py:14-38, req.py:24-26,
ind.py:24-26). -/
def groupWriteEncodeLog (k : EncKind) (asap : Asap) (dpt : Dpt) : Py LoggedState Msg :=
  Py.bind (LoggedState.set fun s => { s with asap := some asap, apci := some 0x80, addressType := some .group }) fun _ c =>
    match c.state.getDpt with
    | .error e => (.error e, c)
    | .ok cls => tDataGroupEncodeLog k (groupWritePayload cls dpt.raw) c

/-- `a_property_value_read.req.encode` (encode/layer/application/a_property_value_read/req.py:22-37). -/
def propertyReadEncodeLog (asap : Asap) (oi pid n si : Int) : Py LoggedState Msg :=
  Py.bind (LoggedState.set fun s => { s with asap := some asap, apci := some 0x3D5, addressType := some .individual }) fun _ =>
    tDataIndividualEncodeLog ([octetOf (LData.default.setApci 0x3D5).apciFull] ++ longOctets (propHeaderValue oi pid n si))

/-- `a_property_value_write.req.encode` (encode/layer/application/a_property_value_write/req.py:24-41). -/
def propertyWriteEncodeLog (asap : Asap) (oi pid n si : Int) (data : List Char) : Py LoggedState Msg :=
  Py.bind (LoggedState.set fun s => { s with asap := some asap, apci := some 0x3D7, addressType := some .individual }) fun _ c =>
    match stringToOctets data with
    | .error e => (.error e, c)
    | .ok d =>
      tDataIndividualEncodeLog ([octetOf (LData.default.setApci 0x3D7).apciFull] ++ longOctets (propHeaderValue oi pid n si) ++ d) c

/-- `tunneling.ack.encode` (encode/knxnet_ip/tunneling/ack.py:20-35): the line is written before the counter is advanced. -/
def tunnelingAckEncodeLog (seq : Nat) (status : ErrorCode) : Py LoggedState Msg := fun c =>
  match connectionHeader c.state status.toNat c.state.seqRemote with
  | .error e => (.error e, c)
  | .ok h =>
    Py.bind (LoggedState.write (sentCounterLine "knxnet_ip.tunneling.ack" "ack" .info c.state.seqRemote)) (fun _ =>
      Py.bind (LoggedState.set fun s => if seq = s.seqRemote then s.setSeqRemote (s.seqRemote + 1) else s) fun _ =>
        Py.pure (ipHeaderEncode (shortOctets 0x0421 ++ shortOctets (4 + 6) ++ h))) c

/-- `encode_msg` (knx_stack/__init__.py:19-34). -/
def encodeMsgLog (m : InMsg) : Py LoggedState Msg :=
  match m with
  | .connectReq ci cp di dp => Py.pure (connectReqEncode ci cp di dp)
  | .disconnectReq ip port => fun c => (channelReqEncode 0x0209 c.state ip port, c)
  | .connectionstateReq ip port => fun c => (channelReqEncode 0x0207 c.state ip port, c)
  | .searchReq ip port => Py.pure (searchReqEncode ip port)
  | .tunnelingAck seq status => tunnelingAckEncodeLog seq status
  | .groupRead asap => groupReadEncodeLog asap
  | .groupWriteReq asap dpt => groupWriteEncodeLog .req asap dpt
  | .groupWriteInd asap dpt => groupWriteEncodeLog .ind asap dpt
  | .propertyRead asap oi pid n si => propertyReadEncodeLog asap oi pid n si
  | .propertyWrite asap oi pid n si data => propertyWriteEncodeLog asap oi pid n si data

/-- The tunnelling client and the lines that the encoders have logged for it (client/knxnet_ip.py:68-86). Simplification: the lines of
the decoders and those of the client itself are not among them; they are in Model/DecodeLog.lean and Model/ClientLog.lean. -/
structure TracedClient where
  client : Client
  log : List LogLine := []
  deriving DecidableEq, Repr

namespace TracedClient

/-- A call that encodes nothing (client/knxnet_ip.py:101-103, 108-116, 119, 126). -/
def silent {α : Type} (f : Py Client α) : Py TracedClient α := fun c =>
  match f c.client with
  | (r, d) => (r, { c with client := d })

/-- `encode_msg` with the state of the client, then `send` (client/knxnet_ip.py:98-99, 124-125, 134-135, 142-143). -/
def encodeAndSend (m : InMsg) : Py TracedClient Unit := fun c =>
  match encodeMsgLog m ⟨c.client.state, c.log⟩ with
  | (.error e, l) => (.error e, ⟨{ c.client with state := l.state }, l.log⟩)
  | (.ok f, l) => silent (Client.send f) ⟨{ c.client with state := l.state }, l.log⟩

/-- `connection_made` (client/knxnet_ip.py:88-99). -/
def connectionMade : Py TracedClient Unit :=
  Py.bind (silent (Py.modify fun c => { c with transport := true })) fun _ c =>
    encodeAndSend (.connectReq c.client.localAddr c.client.localPort c.client.localAddr c.client.localPort) c

/-- The body of the loop of `datagram_received` (client/knxnet_ip.py:118-135). -/
def handle (res : OutMsg) : Py TracedClient Unit := fun c =>
  match res with
  | .connectRes .. =>
    Py.bind (silent (Py.modify fun c => { c with state := c.state.setSeqRemote 0 })) (fun _ =>
      Py.bind (encodeAndSend (.connectionstateReq c.client.localAddr c.client.localPort)) fun _ =>
        silent (Py.modify fun c => { c with connected := true })) c
  | .tunnelingReq seq status =>
    if status = .noError then encodeAndSend (.tunnelingAck seq status) c else (.ok (), c)
  | _ => (.ok (), c)

/-- Iterating over what `decode_msg` returned (client/knxnet_ip.py:117). -/
def handleAll : Res → Py TracedClient Unit
  | .list l => Py.forEach l handle
  | .none => Py.raise .typeError
  | .tuple _ => Py.pure ()

/-- `datagram_received` (client/knxnet_ip.py:113-135). -/
def datagramReceived (data : Msg) : Py TracedClient Unit :=
  Py.bind (Py.lift (stringToOctets (hexLower data))) fun msg =>
    Py.bind (silent (Client.onState (decodeMsg msg))) fun r =>
      Py.bind (silent (Py.modify fun c => { c with decoded := c.decoded ++ Client.messages r })) fun _ => handleAll r

/-- One round of the loop of `writer` (client/knxnet_ip.py:140-144). -/
def write (m : InMsg) : Py TracedClient Unit := fun c =>
  if c.client.connected then Py.bind (Py.lift (Client.formatIn m)) (fun _ => encodeAndSend m) c else (.ok (), c)

/-- One event (client/knxnet_ip.py:88-145). -/
def step (c : TracedClient) : Client.Event → TracedClient
  | .made => (connectionMade c).2
  | .lost => (silent Client.connectionLost c).2
  | .datagram data => (datagramReceived data c).2
  | .write m => (write m c).2

/-- A sequence of events (client/knxnet_ip.py:88-145). -/
def run (c : TracedClient) (es : List Client.Event) : TracedClient := es.foldl step c

end TracedClient
end Knx
