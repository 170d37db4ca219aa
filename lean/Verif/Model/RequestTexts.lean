import Verif.Model.TableTexts

/-! # The texts of messages to be sent

`__repr__` of the messages that `encode_msg` takes; the clients log them. -/

namespace Knx

/-- `__repr__` of a message to be sent (definition/knxnet_ip/core/connect/req.py:10-16, core/disconnect/req.py:8-11,
core/connectionstate/req.py:8-11, core/search/req.py:8-9, tunneling/ack.py:8-11, definition/layer/application/
a_group_value_read/req.py:7-8, a_group_value_write/{req,ind}.py:8-9, a_property_value_read/req.py:11-21,
a_property_value_write/req.py:12-23). Simplification: IP addresses are shown as four numbers, which is how a program gives
them, unless it uses one of the other forms that `inet_aton` takes. -/
def InMsg.text (fr : PyFloat → List Char) (order : DptClass → List DptProp) : InMsg → Except Err (List Char)
  | .connectReq ci cp di dp =>
    .ok ("ConnectReq (control endpoint = ".toList ++ inetNtoa ci.toNat ++ ":".toList ++ intText cp ++
      " data endpoint ".toList ++ inetNtoa di.toNat ++ ":".toList ++ intText dp ++ ")".toList)
  | .disconnectReq ip port =>
    .ok ("DisconnectReq (control endpoint = ".toList ++ inetNtoa ip.toNat ++ ":".toList ++ intText port ++ ")".toList)
  | .connectionstateReq ip port =>
    .ok ("ConnectionstateReq (control endpoint = ".toList ++ inetNtoa ip.toNat ++ ":".toList ++ intText port ++ ")".toList)
  | .searchReq ip port => .ok ("SearchReq (".toList ++ inetNtoa ip.toNat ++ ":".toList ++ intText port ++ ")".toList)
  | .tunnelingAck seq st =>
    .ok ("TunnelingAck(sequence counter=".toList ++ decimal seq ++ ", status=".toList ++ decimal st.toNat ++ ")".toList)
  | .groupRead asap => .ok ("GroupValueReadReq (for asap ".toList ++ asapText asap ++ ")".toList)
  | .groupWriteReq asap dpt =>
    match dpt.text fr order with
    | .error e => .error e
    | .ok t => .ok ("GroupValueWriteReq (".toList ++ t ++ " for asap ".toList ++ asapText asap ++ ")".toList)
  | .groupWriteInd asap dpt =>
    match dpt.text fr order with
    | .error e => .error e
    | .ok t => .ok ("GroupValueWriteInd (".toList ++ t ++ " for asap ".toList ++ asapText asap ++ ")".toList)
  | .propertyRead asap oi pid n si =>
    .ok ("PropertyValueReadReq (object index ".toList ++ intText oi ++ ", property id ".toList ++ intText pid ++
      ", number of elements ".toList ++ intText n ++ ", start index ".toList ++ intText si ++ " for asap ".toList ++
      asapText asap ++ ")".toList)
  | .propertyWrite asap oi pid n si data =>
    .ok ("PropertyValueWriteReq ".toList ++ data ++ " (object index ".toList ++ intText oi ++ ", property id ".toList ++
      intText pid ++ ", number of elements ".toList ++ intText n ++ ", start index ".toList ++ intText si ++
      " for asap ".toList ++ asapText asap ++ ")".toList)

end Knx
