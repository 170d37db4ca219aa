import Verif.Model.Texts
import Verif.Model.IpText
import Verif.Model.KnxNetIp

/-!
# Texts of decoded messages

`__repr__` of the messages in knx_stack/definition, of `ASAP`, of the datapoints and of the tables, as they appear in the
log. `{}` of an `IntEnum` member is its number.
-/

namespace Knx

/-- `{}` of an int (a_property_value_read/ind.py:13-20, association_table.py:44, 46). -/
def intText : Int → List Char
  | .ofNat n => decimal n
  | .negSucc n => '-' :: decimal (n + 1)

/-- `ASAP.__repr__` (definition/layer/transport/association_table.py:42-47): an empty name is not shown. -/
def asapText (a : Asap) : List Char :=
  match a.name with
  | none => intText a.value
  | some n => if n = "" then intText a.value else intText a.value ++ " (".toList ++ n.toList ++ ")".toList

/-- The text of a value in a dict (datapointtypes.py:102, 702, 777), `fr` being `repr` of a float. Simplification: a text is
put in quotes as it is; the texts are names of enum members. -/
def valText (fr : PyFloat → List Char) : PyVal → List Char
  | .int n => intText n
  | .str s => "'".toList ++ s.toList ++ "'".toList
  | .float f => fr f

/-- The items of a dict behind the opening brace, and the closing one (datapointtypes.py:102, 702, 777). -/
def itemsText (fr : PyFloat → List Char) : List (String × PyVal) → List Char
  | [] => "}".toList
  | [kv] => "'".toList ++ kv.1.toList ++ "': ".toList ++ valText fr kv.2 ++ "}".toList
  | kv :: kvs => "'".toList ++ kv.1.toList ++ "': ".toList ++ valText fr kv.2 ++ ", ".toList ++ itemsText fr kvs

/-- `DPT.__repr__` (datapointtypes.py:100-102), `DPT_Float_16.__repr__` (700-702) and `DPT_Float_32.__repr__` (775-777), if
python iterates over the properties in the given order. -/
def Dpt.text (fr : PyFloat → List Char) (order : DptClass → List DptProp) (d : Dpt) : Except Err (List Char) :=
  match d.cls.kind with
  | .float16 =>
    .ok (d.cls.name.toList ++ ": ".toList ++ "{".toList ++ itemsText fr [("decoded_value", .float (decode16 d.raw))])
  | .float32 =>
    .ok (d.cls.name.toList ++ ": ".toList ++ "{".toList ++ itemsText fr [("decoded_value", .float (decode32 d.raw))])
  | .bits =>
    match d.describeIn (order d.cls) with
    | .error e => .error e
    | .ok (name, kvs) => .ok (name.toList ++ " ".toList ++ "{".toList ++ itemsText fr kvs)

/-- The words for the services (a_group_value_read/ind.py:9, a_group_value_response/ind.py:9, a_group_value_write/ind.py:9
and the like). -/
def Svc.text : Svc → List Char
  | .read => "Read".toList
  | .response => "Response".toList
  | .write => "Write".toList

/-- `status.value` (definition/layer/link/ldata.py:38-40). -/
def ConfirmFlag.text : ConfirmFlag → List Char
  | .ok => "0".toList
  | .ko => "1".toList

/-- The last word of the name of a message (a_group_value_read/ind.py:9, a_group_value_read/con.py:10). -/
def Conf.word : Conf → List Char
  | .ind => "Ind".toList
  | .con _ => "Con".toList

/-- The status of a confirmation (a_group_value_read/con.py:10, a_property_value_read/con.py:14). -/
def Conf.statusText : Conf → List Char
  | .ind => []
  | .con f => " status ".toList ++ f.text

/-- `repr` of an `ErrorCodes` member (definition/knxnet_ip/definitions.py:46-50, definition/knxnet_ip/tunneling/req.py:10). -/
def ErrorCode.repr : ErrorCode → List Char
  | .noError => "<ErrorCodes.E_NO_ERROR: 0>".toList
  | .hostProtocolType => "<ErrorCodes.E_HOST_PROTOCOL_TYPE: 1>".toList
  | .versionNotSupported => "<ErrorCodes.E_VERSION_NOT_SUPPORTED: 2>".toList
  | .sequenceNumber => "<ErrorCodes.E_SEQUENCE_NUMBER: 3>".toList

/-- The number of a `Status` (definition/knxnet_ip/core/connect/res.py:5-9). -/
def ConnectStatus.toNat : ConnectStatus → Nat
  | .noError => 0
  | .connectionType => 0x22
  | .connectionOption => 0x23
  | .noMoreConnections => 0x24

/-- The number of a `Status` (definition/knxnet_ip/core/connectionstate/res.py:5-9). -/
def ConnStateStatus.toNat : ConnStateStatus → Nat
  | .noError => 0
  | .connectionId => 0x21
  | .dataConnection => 0x26
  | .knxConnection => 0x27

/-- `ConnectionStatus.status` (feature_identifier.py:20, 22). -/
def connectionWord (connected : Bool) : List Char := if connected then "Connected".toList else "Disconnected".toList

/-- `EMIType.type` (feature_identifier.py:26-30). -/
def EmiType.word : EmiType → List Char
  | .cEMI => "cEMI".toList
  | .emi1 => "emi1".toList
  | .emi2 => "emi2".toList

/-- `None` or an address (definition/knxnet_ip/core/connect/res.py:19-21). -/
def optAddressText : Option (BitVec 16) → List Char
  | none => "None".toList
  | some a => addressText a

/-- `__repr__` of a message (definition/layer/application/a_group_value_{read,response,write}/{ind,con}.py:8-12,
a_property_value_{read,response,write}/{ind,con}.py:11-25, definition/knxnet_ip/core/search/res.py:9-12,
core/connect/res.py:18-21, core/connectionstate/res.py:15-16, core/disconnect/res.py:8-11, tunneling/req.py:8-11,
tunneling/ack.py:8-11; that of a `NamedTuple` for feature_identifier.py:6-11). -/
def OutMsg.text (fr : PyFloat → List Char) (order : DptClass → List DptProp) : OutMsg → Except Err (List Char)
  | .group svc conf asap dpt =>
    match dpt.text fr order with
    | .error e => .error e
    | .ok t =>
      .ok ("GroupValue".toList ++ svc.text ++ conf.word ++ conf.statusText ++ " (".toList ++ t ++ " for asap ".toList ++
        asapText asap ++ ")".toList)
  | .property svc conf asap oi pid noe si data =>
    .ok ("PropertyValue".toList ++ svc.text ++ conf.word ++
      (match data with | none => [] | some d => " ".toList ++ msgRepr d) ++ conf.statusText ++
      " (object index ".toList ++ decimal oi ++ ", property id ".toList ++ decimal pid ++
      ", number of elements ".toList ++ decimal noe ++ ", start index ".toList ++ decimal si ++ " for asap ".toList ++
      asapText asap ++ ")".toList)
  | .connectionStatus c => .ok ("ConnectionStatus(status='".toList ++ connectionWord c ++ "')".toList)
  | .emiType t => .ok ("EMIType(type='".toList ++ t.word ++ "')".toList)
  | .searchRes ip port ia =>
    .ok ("SearchRes(ip=".toList ++ inetNtoa ip ++ ", port=".toList ++ decimal port ++ ", individual address=0x".toList ++
      hex4 ia ++ ")".toList)
  | .connectRes ip port ia st =>
    .ok ("ConnectRes(ip=".toList ++ inetNtoa ip ++ ", port=".toList ++ decimal port ++ ", individual address=".toList ++
      optAddressText ia ++ ", status=".toList ++ decimal st.toNat ++ ")".toList)
  | .connectionstateRes st => .ok ("ConnectionstateRes(status=".toList ++ decimal st.toNat ++ ")".toList)
  | .disconnectRes chan st =>
    .ok ("DisconnectRes(communication_channel_id=".toList ++ decimal chan ++ ", status=".toList ++ decimal st.toNat ++
      ")".toList)
  | .tunnelingReq seq st =>
    .ok ("TunnelingReq(sequence counter=".toList ++ decimal seq ++ ", status=".toList ++ st.repr ++ ")".toList)
  | .tunnelingAck seq st =>
    .ok ("TunnelingAck(sequence counter=".toList ++ decimal seq ++ ", status=".toList ++ decimal st.toNat ++ ")".toList)

/-- The messages of a list behind the opening bracket, and the closing one (`{}` of a list, client/usbhid.py:91). -/
def listItems (fr : PyFloat → List Char) (order : DptClass → List DptProp) : List OutMsg → Except Err (List Char)
  | [] => .ok "]".toList
  | [m] =>
    match m.text fr order with
    | .error e => .error e
    | .ok t => .ok (t ++ "]".toList)
  | m :: ms =>
    match m.text fr order with
    | .error e => .error e
    | .ok t =>
      match listItems fr order ms with
      | .error e => .error e
      | .ok ts => .ok (t ++ ", ".toList ++ ts)

/-- `{}` of a list of messages (client/usbhid.py:91, decode/layer/transport/t_data_group/ind.py:23). -/
def listText (fr : PyFloat → List Char) (order : DptClass → List DptProp) (l : List OutMsg) : Except Err (List Char) :=
  match listItems fr order l with
  | .error e => .error e
  | .ok t => .ok ("[".toList ++ t)

end Knx
