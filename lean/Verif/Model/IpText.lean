import Verif.Model.Client
import Verif.Model.Texts

/-!
# IP addresses as text

`socket.inet_aton` and `socket.inet_ntoa` as called by definition/knxnet_ip/msg.py, encode/knxnet_ip/core and
decode/knxnet_ip/core/search. They are the functions of the C library; modelled is the one of glibc, whose numbers are
written as in C.
-/

namespace Knx

/-- The digits at the beginning of a text to a base of at most 16, behind the number `acc` (the loop of `strtoul`, called
by `inet_aton` of encode/knxnet_ip/core/connect/req.py:29): the number and the rest. Simplification: `strtoul` stops
counting at 2^64; here the number goes on growing, which `inet_aton` treats the same way. -/
def strtoDigits (base : Nat) : Nat → List Char → Nat × List Char
  | acc, [] => (acc, [])
  | acc, c :: cs =>
    match hexVal c with
    | some v => if v < base then strtoDigits base (acc * base + v) cs else (acc, c :: cs)
    | none => (acc, c :: cs)

/-- `strtoul(.., 0)` on a text that begins with a digit (called by `inet_aton`, encode/knxnet_ip/core/connect/req.py:29):
`0x` before a hex digit means base 16, another leading zero base 8. -/
def strtoul : List Char → Nat × List Char
  | '0' :: x :: c :: cs =>
    if (x = 'x' ∨ x = 'X') ∧ (hexVal c).isSome then strtoDigits 16 0 (c :: cs) else strtoDigits 8 0 ('0' :: x :: c :: cs)
  | '0' :: cs => strtoDigits 8 0 ('0' :: cs)
  | cs => strtoDigits 10 0 cs

/-- The loop of `inet_aton` (called in encode/knxnet_ip/core/connect/req.py:29): `k` dots may still follow, `acc` are the
octets so far; gives the address and the rest of the text. -/
def inetParts : Nat → Nat → List Char → Option (Nat × List Char)
  | _, _, [] => none
  | k, acc, c :: cs =>
    if '0' ≤ c ∧ c ≤ '9' then
      let (v, rest) := strtoul (c :: cs)
      if 0xFFFFFFFF < v then none
      else
        match rest with
        | '.' :: rest' =>
          match k with
          | 0 => none
          | k + 1 => if 0xFF < v then none else inetParts k (acc * 256 + v) rest'
        | _ => if v < 256 ^ (k + 1) then some (acc * 256 ^ (k + 1) + v, rest) else none
    else none

/-- `socket.inet_aton` (encode/knxnet_ip/core/connect/req.py:29-30, connectionstate/req.py:21, disconnect/req.py:21,
search/req.py:20): `OSError` unless the text is an address, which white space and anything behind it may follow;
`ValueError` for a text with a NUL character. -/
def inetAton (text : List Char) : Except Err (BitVec 32) :=
  if Char.ofNat 0 ∈ text then .error .valueError
  else
    match inetParts 3 0 text with
    | some (a, []) => .ok (BitVec.ofNat 32 a)
    | some (a, c :: _) => if isHexSpace c then .ok (BitVec.ofNat 32 a) else .error .osError
    | none => .error .osError

/-- `socket.inet_ntoa(struct.pack("!I", ip))` (definition/knxnet_ip/msg.py:18, decode/knxnet_ip/core/search/res.py:29). -/
def inetNtoa (ip : Nat) : List Char :=
  decimal (ip / 2 ^ 24 % 256) ++ '.' :: decimal (ip / 2 ^ 16 % 256) ++ '.' :: decimal (ip / 2 ^ 8 % 256) ++
    '.' :: decimal (ip % 256)

/-- `knxnet_ip.Msg.HPAI` with the address as text (definition/knxnet_ip/msg.py:9-20). -/
def hpaiText (msg : Msg) : Except Err (List Char × Nat × Msg) :=
  match hpai msg with
  | .error e => .error e
  | .ok (ip, port, rest) => .ok (inetNtoa ip, port, rest)

/-- `encode_msg` of a connect request whose endpoints have texts as addresses
(encode/knxnet_ip/core/connect/req.py:29-44). -/
def connectReqText (ctl : List Char) (ctlPort : Int) (data : List Char) (dataPort : Int) : Py State Msg :=
  Py.bind (Py.lift (inetAton ctl)) fun a =>
    Py.bind (Py.lift (inetAton data)) fun b => encodeMsg (.connectReq a ctlPort b dataPort)

/-- `encode_msg` of a connection state request whose endpoint has a text as address
(encode/knxnet_ip/core/connectionstate/req.py:21-28). -/
def connectionstateReqText (ctl : List Char) (port : Int) : Py State Msg :=
  Py.bind (Py.lift (inetAton ctl)) fun a => encodeMsg (.connectionstateReq a port)

/-- `encode_msg` of a disconnect request whose endpoint has a text as address
(encode/knxnet_ip/core/disconnect/req.py:21-28). -/
def disconnectReqText (ctl : List Char) (port : Int) : Py State Msg :=
  Py.bind (Py.lift (inetAton ctl)) fun a => encodeMsg (.disconnectReq a port)

/-- `encode_msg` of a search request whose endpoint has a text as address (encode/knxnet_ip/core/search/req.py:20-26). -/
def searchReqText (addr : List Char) (port : Int) : Py State Msg :=
  Py.bind (Py.lift (inetAton addr)) fun a => encodeMsg (.searchReq a port)

/-- `Tunneling.connection_made` of a client whose local address is a text (client/knxnet_ip.py:88-99): the transport is
stored before the text is read. -/
def Client.connectionMadeText (text : List Char) : Py Client Unit :=
  Py.bind (Py.modify fun c => { c with transport := true }) fun _ =>
    Py.bind (fun c => Client.onState (connectReqText text c.localPort text c.localPort) c) Client.send

end Knx
