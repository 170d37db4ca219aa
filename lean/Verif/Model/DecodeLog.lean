import Verif.Model.MsgTexts
import Verif.Model.UnitTexts

/-!
# The log of the decoders

The decoders of Model/Decode.lean and Model/KnxNetIp.lean with their calls of `logger.debug`, `logger.info` and `logger.error`, each of
which makes a line, whatever the level of the logger. The decoders that do not log and call none that does are those of the other two
files.
-/

namespace Knx

/-- The level of a line (decode/knxnet_ip/header.py:42, decode/layer/transport/t_data_group/ind.py:19, 25). -/
inductive LogLevel
  | debug | info | error
  deriving DecidableEq, Repr

/-- A line of the log: the name of the logger behind `knx_stack.decode.`, the level and the text
(decode/layer/transport/t_data_group/ind.py:7, 19-25). -/
structure LogLine where
  logger : String
  level : LogLevel
  text : List Char
  deriving DecidableEq, Repr

/-- What the texts depend on: whether python shows the name of an `AddressType` (`LData.text`), the texts of floats and the order of
properties (`Dpt.text`) (definition/layer/link/ldata.py:371-379, datapointtypes.py:100-102). -/
structure Display where
  named : Bool
  floats : PyFloat → List Char
  order : DptClass → List DptProp

/-- The state and the lines logged so far (state.py:57-73, decode/layer/transport/t_data_group/ind.py:7). -/
structure LoggedState where
  state : State
  log : List LogLine := []
  deriving DecidableEq, Repr

namespace LoggedState

/-- `logger.debug`, `logger.info` and `logger.error` (decode/layer/transport/t_data_group/ind.py:19-25). -/
def write (line : LogLine) : Py LoggedState Unit := Py.modify fun c => { c with log := c.log ++ [line] }

/-- A decoder that does not log (decode/knxnet_ip/header.py:31-36). -/
def silent {α : Type} (f : Py State α) : Py LoggedState α := fun c =>
  match f c.state with
  | (r, s) => (r, { c with state := s })

end LoggedState

/-- The last part of the name of a module (decode/layer/transport/t_data_group/ind.py:7, con.py:7). -/
def Kind.module : Kind → String
  | .ind => "ind"
  | .con => "con"

/-- The items of `[m.asap for m in result]` behind the opening bracket, and the closing one; messages without ASAP are not among the
results (decode/layer/transport/t_data_group/ind.py:20). -/
def asapItems : List OutMsg → List Char
  | [] => "]".toList
  | [.group _ _ a _] | [.property _ _ a _ _ _ _ _] => asapText a ++ "]".toList
  | .group _ _ a _ :: ms | .property _ _ a _ _ _ _ _ :: ms => asapText a ++ ", ".toList ++ asapItems ms
  | _ :: ms => asapItems ms

/-- The line about a received telegram (decode/layer/transport/t_data_group/ind.py:17-23, con.py:17-23,
t_data_individual/ind.py:16-22, con.py:17-23): `result[0].dpt` and the ASAPs, or the result if it is empty or has no datapoint. -/
def receivedLine (v : Display) (logger : String) (l : LData) (msg : Msg) (result : List OutMsg) : Except Err LogLine :=
  let s := "received msg ".toList ++ msgRepr msg ++ " ".toList ++ l.text v.named
  match result with
  | .group _ _ _ d :: _ =>
    match d.text v.floats v.order with
    | .error e => .error e
    | .ok t => .ok ⟨logger, .debug, s ++ " ".toList ++ t ++ " asaps ".toList ++ "[".toList ++ asapItems result⟩
  | _ =>
    match listText v.floats v.order result with
    | .error e => .error e
    | .ok t => .ok ⟨logger, .debug, s ++ " ".toList ++ t⟩

/-- The line about a telegram for others (decode/layer/transport/t_data_group/ind.py:25, con.py:25, t_data_individual/ind.py:24,
con.py:25). -/
def discardedLine (v : Display) (logger : String) (l : LData) (msg : Msg) : LogLine :=
  ⟨logger, .info, "discarded msg ".toList ++ msgRepr msg ++ " ".toList ++ l.text v.named⟩

/-- Logging a result and returning it (decode/layer/transport/t_data_group/ind.py:17-26, con.py:17-26, t_data_individual/ind.py:16-25,
con.py:17-26). -/
def logResult (v : Display) (logger : String) (l : LData) (msg : Msg) (r : Except Err (List OutMsg)) :
    Py LoggedState (List OutMsg) :=
  Py.bind (Py.lift r) fun result =>
    Py.bind (Py.lift (receivedLine v logger l msg result)) fun line =>
      Py.bind (LoggedState.write line) fun _ => Py.pure result

/-- `t_data_group.{ind,con}.decode` (decode/layer/transport/t_data_group/ind.py:6-26, con.py:6-26). -/
def tDataGroupLog (v : Display) (k : Kind) (t : Tables) (l : LData) (msg : Msg) : Py LoggedState (List OutMsg) :=
  let logger := "layer.transport.t_data_group." ++ k.module
  Py.bind (Py.lift (t.getTsap l.destination)) fun tsap =>
    match tsap with
    | none | some 0 => Py.bind (LoggedState.write (discardedLine v logger l msg)) fun _ => Py.pure []
    | some (_ + 1) =>
      logResult v logger l msg
        (if l.apciFull = 0 then groupServiceDecode .read k t l msg
        else if (l.apciFull : Int) - l.data = 0x40 then groupServiceDecode .response k t l msg
        else if (l.apciFull : Int) - l.data = 0x80 then groupServiceDecode .write k t l msg
        else .ok [])

/-- `t_data_individual.{ind,con}.decode` (decode/layer/transport/t_data_individual/ind.py:6-25, con.py:6-26). -/
def tDataIndividualLog (v : Display) (k : Kind) (t : Tables) (l : LData) (msg : Msg) : Py LoggedState (List OutMsg) :=
  let logger := "layer.transport.t_data_individual." ++ k.module
  let decode := fun own : Bool =>
    if own then logResult v logger l msg (propertyDispatch k l msg)
    else Py.bind (LoggedState.write (discardedLine v logger l msg)) fun _ => Py.pure []
  match k with
  | .con => Py.bind (Py.lift (t.getTsap l.destination)) fun tsap => decode (tsap = some 0)
  | .ind => Py.bind (Py.lift t.individualAddress) fun ia => decode (l.source = ia.fs)

/-- `n_data_group.{ind,con}.decode` (decode/layer/network/n_data_group/ind.py:6-8, con.py:6-8). -/
def nDataGroupLog (v : Display) (k : Kind) (t : Tables) (l : LData) (msg : Msg) : Py LoggedState Res :=
  if l.nsdu = some .group then Py.bind (tDataGroupLog v k t l msg) fun r => Py.pure (.list r) else Py.pure .none

/-- `n_data_individual.{ind,con}.decode` (decode/layer/network/n_data_individual/ind.py:6-18, con.py:6-18). -/
def nDataIndividualLog (v : Display) (k : Kind) (t : Tables) (l : LData) (msg : Msg) : Py LoggedState Res :=
  if l.nsdu = some .individual then Py.bind (tDataIndividualLog v k t l msg) fun r => Py.pure (.list r)
  else Py.pure (.list [])

/-- `l_data.{ind,con}.decode` (decode/layer/link/l_data/ind.py:6-14, con.py:6-14). -/
def lDataLog (v : Display) (k : Kind) (t : Tables) (l : LData) (msg : Msg) : Py LoggedState Res :=
  match l.addressType with
  | .individual => nDataIndividualLog v k t l msg
  | .group => if l.destination ≠ 0 then nDataGroupLog v k t l msg else Py.pure (.list [])

/-- `cemi.ldata.{ind,con}.decode` (decode/cemi/ldata/ind.py:6-9, con.py:6-9). -/
def cemiLdataLog (v : Display) (k : Kind) (msg : Msg) : Py LoggedState Res := fun c =>
  match LData.makeFrom msg with
  | .error e => (.error e, c)
  | .ok (l, body) => lDataLog v k c.state.tables l body { c with state := { c.state with ldata := some l } }

/-- `msg_code.decode` (decode/cemi/msg_code.py:7-18). -/
def msgCodeLog (v : Display) (msg : Msg) : Py LoggedState Res :=
  match octect msg with
  | .error e => Py.raise e
  | .ok (code, body) =>
    match octect body with
    | .error e => Py.raise e
    | .ok (len, body) =>
      if code.toNat = 0x29 then cemiLdataLog v .ind (body.drop len.toNat)
      else if code.toNat = 0x2E then cemiLdataLog v .con (body.drop len.toNat)
      else Py.pure (.list [])

/-- `emi_id.decode` (decode/cemi/emi_id.py:6-13). -/
def emiIdLog (v : Display) (msg : Msg) : Py LoggedState Res :=
  match octect msg with
  | .error e => Py.raise e
  | .ok (head, msg) =>
    if head.toNat = 0x03 then
      match short msg with
      | .error e => Py.raise e
      | .ok (head, body) => if head = 0 then msgCodeLog v body else Py.pure (.list [])
    else Py.pure (.list [])

/-- `protocol_id.decode` (decode/usb_hid/report_body/usb_protocol_header/protocol_id.py:9-16). -/
def protocolIdLog (v : Display) (msg : Msg) : Py LoggedState Res :=
  match octect msg with
  | .error e => Py.raise e
  | .ok (head, body) =>
    if head.toNat = 0x01 then emiIdLog v body
    else if head.toNat = 0x0F then Py.bind (Py.lift (serviceDecode body)) fun r => Py.pure (.list r)
    else Py.pure (.list [])

/-- `body_length.decode` (decode/usb_hid/report_body/usb_protocol_header/body_length.py:6-12). -/
def bodyLengthLog (v : Display) (msg : Msg) : Py LoggedState Res :=
  match short msg with
  | .error e => Py.raise e
  | .ok (len, body) => protocolIdLog v (body.take (len + 4))

/-- `header_length.decode` (decode/usb_hid/report_body/usb_protocol_header/header_length.py:6-11). -/
def headerLengthLog (v : Display) (msg : Msg) : Py LoggedState Res :=
  match octect msg with
  | .error e => Py.raise e
  | .ok (head, body) => if head.toNat = 0x08 then bodyLengthLog v body else Py.pure (.list [])

/-- `protocol_version.decode` (decode/usb_hid/report_body/usb_protocol_header/protocol_version.py:6-11). -/
def protocolVersionLog (v : Display) (msg : Msg) : Py LoggedState Res :=
  match octect msg with
  | .error e => Py.raise e
  | .ok (head, body) => if head.toNat = 0x00 then headerLengthLog v body else Py.pure (.list [])

/-- `packet_info.decode` (decode/usb_hid/report_header/packet_info.py:7-18). -/
def packetInfoLog (v : Display) (msg : Msg) : Py LoggedState Res :=
  match octect msg with
  | .error e => Py.raise e
  | .ok (info, body) =>
    if getB 0 4 info = 3 then
      match octect body with
      | .error e => Py.raise e
      | .ok (len, body) => protocolVersionLog v (body.take len.toNat)
    else Py.pure (.list [])

/-- `report_identifier.decode` (decode/usb_hid/report_header/report_identifier.py:19-23). -/
def reportIdLog (v : Display) (msg : Msg) : Py LoggedState Res :=
  match octect msg with
  | .error e => Py.raise e
  | .ok (head, body) => if head.toNat = 0x01 then packetInfoLog v body else Py.pure (.list [])

/-- The line about the counter of a request or an acknowledgement (decode/knxnet_ip/tunneling/req.py:26-28, ack.py:22-24): the same text,
at different levels. -/
def counterLine (logger : String) (level : LogLevel) (seq : Nat) : LogLine :=
  ⟨logger, level, "knxnet_ip.tunneling.decode.req sequence counter=".toList ++ decimal seq⟩

/-- `tunneling.req.decode` (decode/knxnet_ip/tunneling/req.py:23-49). -/
def tunnelingReqLog (v : Display) (msg : Msg) : Py LoggedState Res :=
  match short msg with
  | .error e => Py.raise e
  | .ok (_, body) =>
  match connHeader body with
  | .error e => Py.raise e
  | .ok (_, seq, _, body) =>
  Py.bind (LoggedState.write (counterLine "knxnet_ip.tunneling.req" .debug seq)) fun _ => fun c =>
    if c.state.seqRemote = seq then
      Py.bind (msgCodeLog v body) (fun r => Py.pure (.list (extend [.tunnelingReq seq .noError] r))) c
    else if c.state.seqRemote = seq + 1 then (.ok (.list [.tunnelingReq seq .noError]), c)
    else (.ok (.list [.tunnelingReq seq .sequenceNumber]), c)

/-- `tunneling.ack.decode` (decode/knxnet_ip/tunneling/ack.py:18-27): the line is written before the status is converted. -/
def tunnelingAckLog (msg : Msg) : Py LoggedState Res :=
  match short msg with
  | .error e => Py.raise e
  | .ok (_, body) =>
  match connHeader body with
  | .error e => Py.raise e
  | .ok (_, seq, status, _) =>
  Py.bind (Py.modify fun c : LoggedState =>
      { c with state := if c.state.seqLocal = seq then c.state.setSeqLocal (c.state.seqLocal + 1) else c.state }) fun _ =>
    Py.bind (LoggedState.write (counterLine "knxnet_ip.tunneling.ack" .info seq)) fun _ =>
      Py.bind (Py.lift (errorCode status)) fun st => fun c => (.ok (.tuple [.tunnelingAck c.state.seqLocal st]), c)

/-- `knxnet_ip.header.decode` (decode/knxnet_ip/header.py:24-45): an unknown service is logged, another header is not. -/
def ipHeaderLog (v : Display) (msg : Msg) : Py LoggedState Res :=
  match octect msg with
  | .error e => Py.raise e
  | .ok (header, body) =>
  match octect body with
  | .error e => Py.raise e
  | .ok (version, body) =>
  match short body with
  | .error e => Py.raise e
  | .ok (service, body) =>
  if header.toNat = 0x06 ∧ version.toNat = 0x10 then
    if service = 0x0202 then Py.bind (Py.lift (searchResDecode body)) fun r => Py.pure (.list r)
    else if service = 0x020A then LoggedState.silent (disconnectResDecode body)
    else if service = 0x0206 then LoggedState.silent (connectResDecode body)
    else if service = 0x0208 then Py.bind (Py.lift (connectionstateResDecode body)) fun r => Py.pure (.list r)
    else if service = 0x0420 then tunnelingReqLog v body
    else if service = 0x0421 then tunnelingAckLog body
    else
      Py.bind (LoggedState.write ⟨"knxnet_ip.header", .error, "Unknown knxnet_ip service value ".toList ++ decimal service⟩) fun _ =>
        Py.pure (.list [])
  else Py.pure (.list [])

/-- `decode_msg` (knx_stack/__init__.py:37-43). -/
def decodeMsgLog (v : Display) (msg : Msg) : Py LoggedState Res := fun c =>
  match c.state.medium with
  | .usbHid => reportIdLog v msg c
  | .knxnetIp => ipHeaderLog v msg c
  | .tp => (.error .exception, c)

end Knx
