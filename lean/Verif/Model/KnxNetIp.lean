import Verif.Model.Decode

/-!
# Decoding KNXnet/IP datagrams (knx_stack/decode/knxnet_ip) and `decode_msg`
-/

namespace Knx

/-- `knxnet_ip.Msg.HPAI` (definition/knxnet_ip/msg.py:9-20): address as number, port, rest; `TypeError` when fewer
than 8 octets are present. Structure length and protocol octets are not checked. Simplification:
`socket.inet_ntoa(struct.pack("!I", ip))` is represented by the number `ip`. -/
def hpai (msg : Msg) : Except Err (Nat × Nat × Msg) :=
  if 8 ≤ msg.length then
    match octect msg with
    | .error e => .error e
    | .ok (_, body) =>
    match octect body with
    | .error e => .error e
    | .ok (_, body) =>
    match long body with
    | .error e => .error e
    | .ok (ip, body) =>
    match short body with
    | .error e => .error e
    | .ok (port, body) => .ok (ip, port, body)
  else .error .typeError

/-- `knxnet_ip.Msg.CRD` (definition/knxnet_ip/msg.py:32-39): connection type, individual address, rest. -/
def crd (msg : Msg) : Except Err (Nat × BitVec 16 × Msg) :=
  match octect msg with
  | .error e => .error e
  | .ok (_, body) =>
  match octect body with
  | .error e => .error e
  | .ok (tc, body) =>
  match short body with
  | .error e => .error e
  | .ok (ia, body) => .ok (tc.toNat, BitVec.ofNat 16 ia, body)

/-- `knxnet_ip.Msg.CRI` (definition/knxnet_ip/msg.py:22-30): connection type, layer, rest. -/
def cri (msg : Msg) : Except Err (Nat × Nat × Msg) :=
  match octect msg with
  | .error e => .error e
  | .ok (_, body) =>
  match octect body with
  | .error e => .error e
  | .ok (tc, body) =>
  match octect body with
  | .error e => .error e
  | .ok (layer, body) =>
  match octect body with
  | .error e => .error e
  | .ok (_, body) => .ok (tc.toNat, layer.toNat, body)

/-- `knxnet_ip.Msg.header` (definition/knxnet_ip/msg.py:41-54): channel, sequence counter, status, rest. -/
def connHeader (msg : Msg) : Except Err (Nat × Nat × Nat × Msg) :=
  match octect msg with
  | .error e => .error e
  | .ok (_, body) =>
  match octect body with
  | .error e => .error e
  | .ok (chan, body) =>
  match octect body with
  | .error e => .error e
  | .ok (seq, body) =>
  match octect body with
  | .error e => .error e
  | .ok (status, body) => .ok (chan.toNat, seq.toNat, status.toNat, body)

/-- `ErrorCodes(n)` (definition/knxnet_ip/definitions.py:46-50): `ValueError` otherwise. -/
def errorCode : Nat → Except Err ErrorCode
  | 0 => .ok .noError
  | 1 => .ok .hostProtocolType
  | 2 => .ok .versionNotSupported
  | 3 => .ok .sequenceNumber
  | _ => .error .valueError

/-- The int value of an `ErrorCodes` member (definition/knxnet_ip/definitions.py:46-50). -/
def ErrorCode.toNat : ErrorCode → Nat
  | .noError => 0
  | .hostProtocolType => 1
  | .versionNotSupported => 2
  | .sequenceNumber => 3

/-- `Status(n)` of a connect response (definition/knxnet_ip/core/connect/res.py:5-9). -/
def connectStatus (n : Nat) : Except Err ConnectStatus :=
  if n = 0 then .ok .noError
  else if n = 0x22 then .ok .connectionType
  else if n = 0x23 then .ok .connectionOption
  else if n = 0x24 then .ok .noMoreConnections
  else .error .valueError

/-- `Status(n)` of a connection state response (definition/knxnet_ip/core/connectionstate/res.py:5-9). -/
def connStateStatus (n : Nat) : Except Err ConnStateStatus :=
  if n = 0 then .ok .noError
  else if n = 0x21 then .ok .connectionId
  else if n = 0x26 then .ok .dataConnection
  else if n = 0x27 then .ok .knxConnection
  else .error .valueError

/-- `search.res.decode` (decode/knxnet_ip/core/search/res.py:18-34). -/
def searchResDecode (msg : Msg) : Except Err (List OutMsg) :=
  match short msg with
  | .error e => .error e
  | .ok (_, body) =>
  match octect body with
  | .error e => .error e
  | .ok (_, body) =>
  match octect body with
  | .error e => .error e
  | .ok (_, body) =>
  match long body with
  | .error e => .error e
  | .ok (ip, body) =>
  match short body with
  | .error e => .error e
  | .ok (port, body) =>
  match octect body with
  | .error e => .error e
  | .ok (_, body) =>
  match octect body with
  | .error e => .error e
  | .ok (_, body) =>
  match short body with
  | .error e => .error e
  | .ok (ia, _) => .ok [.searchRes ip port ia]

/-- `connect.res.decode` (decode/knxnet_ip/core/connect/res.py:16-34): on status 0 the channel id is stored before
the message is built. -/
def connectResDecode (msg : Msg) : Py State Res := fun s =>
  match short msg with
  | .error e => (.error e, s)
  | .ok (_, body) =>
  match octect body with
  | .error e => (.error e, s)
  | .ok (chan, body) =>
  match octect body with
  | .error e => (.error e, s)
  | .ok (status, body) =>
  match hpai body with
  | .error e => (.error e, s)
  | .ok (ip, port, body) =>
  if status.toNat = 0 then
    match crd body with
    | .error e => (.error e, s)
    | .ok (_, ia, _) => (.ok (.list [.connectRes ip port (some ia) .noError]), { s with chan := some chan.toNat })
  else
    match connectStatus status.toNat with
    | .error e => (.error e, s)
    | .ok st => (.ok (.list [.connectRes ip port none st]), s)

/-- `connectionstate.res.decode` (decode/knxnet_ip/core/connectionstate/res.py:16-21). -/
def connectionstateResDecode (msg : Msg) : Except Err (List OutMsg) :=
  match short msg with
  | .error e => .error e
  | .ok (_, body) =>
  match octect body with
  | .error e => .error e
  | .ok (_, body) =>
  match octect body with
  | .error e => .error e
  | .ok (status, _) =>
  match connStateStatus status.toNat with
  | .error e => .error e
  | .ok st => .ok [.connectionstateRes st]

/-- `disconnect.res.decode` (decode/knxnet_ip/core/disconnect/res.py:16-28): nothing is reported on an error. -/
def disconnectResDecode (msg : Msg) : Py State Res := fun s =>
  match short msg with
  | .error e => (.error e, s)
  | .ok (_, body) =>
  match octect body with
  | .error e => (.error e, s)
  | .ok (chan, body) =>
  match octect body with
  | .error e => (.error e, s)
  | .ok (status, _) =>
  if status.toNat = 0 then (.ok (.list [.disconnectRes chan.toNat .noError]), { s with chan := some 0 })
  else (.ok (.list []), s)

/-- `result.extend(result_tmp)` guarded by `if result_tmp` (decode/knxnet_ip/tunneling/req.py:34-35). -/
def extend (l : List OutMsg) : Res → List OutMsg
  | .list r => l ++ r
  | .none => l
  | .tuple r => l ++ r

/-- `tunneling.req.decode` (decode/knxnet_ip/tunneling/req.py:23-49). The remote counter is an octet, so the counter
255 is never recognised as the predecessor of 0 (37). -/
def tunnelingReqDecode (msg : Msg) : Py State Res := fun s =>
  match short msg with
  | .error e => (.error e, s)
  | .ok (_, body) =>
  match connHeader body with
  | .error e => (.error e, s)
  | .ok (_, seq, _, body) =>
  if s.seqRemote = seq then
    match msgCodeDecode body s with
    | (.error e, s') => (.error e, s')
    | (.ok r, s') => (.ok (.list (extend [.tunnelingReq seq .noError] r)), s')
  else if s.seqRemote = seq + 1 then (.ok (.list [.tunnelingReq seq .noError]), s)
  else (.ok (.list [.tunnelingReq seq .sequenceNumber]), s)

/-- `tunneling.ack.decode` (decode/knxnet_ip/tunneling/ack.py:18-27): the counter is advanced before the status is
converted, and the reported counter is the one after the advance. -/
def tunnelingAckDecode (msg : Msg) : Py State Res := fun s =>
  match short msg with
  | .error e => (.error e, s)
  | .ok (_, body) =>
  match connHeader body with
  | .error e => (.error e, s)
  | .ok (_, seq, status, _) =>
  let s' := if s.seqLocal = seq then s.setSeqLocal (s.seqLocal + 1) else s
  match errorCode status with
  | .error e => (.error e, s')
  | .ok st => (.ok (.tuple [.tunnelingAck s'.seqLocal st]), s')

/-- `knxnet_ip.header.decode` (decode/knxnet_ip/header.py:24-45). -/
def ipHeaderDecode (msg : Msg) : Py State Res :=
  match octect msg with
  | .error e => Py.raise e
  | .ok (header, body) =>
  match octect body with
  | .error e => Py.raise e
  | .ok (version, body) =>
  match short body with
  | .error e => Py.raise e
  | .ok (service, body) =>
  if header.toNat = 0x06 ∧ version.toNat = 0x10 then
    if service = 0x0202 then
      match searchResDecode body with
      | .error e => Py.raise e
      | .ok r => Py.pure (.list r)
    else if service = 0x020A then disconnectResDecode body
    else if service = 0x0206 then connectResDecode body
    else if service = 0x0208 then
      match connectionstateResDecode body with
      | .error e => Py.raise e
      | .ok r => Py.pure (.list r)
    else if service = 0x0420 then tunnelingReqDecode body
    else if service = 0x0421 then tunnelingAckDecode body
    else Py.pure (.list [])
  else Py.pure (.list [])

/-- `decode_msg` (knx_stack/__init__.py:37-43). -/
def decodeMsg (msg : Msg) : Py State Res := fun s =>
  match s.medium with
  | .usbHid => reportIdDecode msg s
  | .knxnetIp => ipHeaderDecode msg s
  | .tp => (.error .exception, s)

end Knx
