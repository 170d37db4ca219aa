import Verif.Spec.Dpt
import Verif.Spec.MsgTexts
import Verif.Spec.TableTexts

/-! # Specification: the wording of the log

Each kind of message has a pattern, in which `{}` stands for a field. Written without the functions that make the texts;
numbers are written by Lean's own `toString`. -/

namespace Knx.Spec

/-- A pattern with its fields filled in, in order. -/
def fill : List Char → List (List Char) → List Char
  | '{' :: '}' :: cs, v :: vs => v ++ fill cs vs
  | c :: cs, vs => c :: fill cs vs
  | [], _ => []

/-- Texts with a separator between them. -/
def sepBy (sep : String) : List (List Char) → List Char
  | [] => []
  | t :: ts => t ++ ts.flatMap fun t => sep.toList ++ t

/-- A number in decimal notation. -/
def natWord (n : Nat) : List Char := (toString n).toList

/-- A number in decimal notation, with a minus sign if it is negative. -/
def intWord (i : Int) : List Char := (toString i).toList

/-- The last `w` hexadecimal digits of a number. -/
def hexWord : Nat → Nat → List Char
  | 0, _ => []
  | w + 1, n => hexWord w (n / 16) ++ ["0123456789ABCDEF".toList.getD (n % 16) '?']

/-- An IP address, its octets from the left. -/
def ipWord (ip : Nat) : List Char :=
  fill "{}.{}.{}.{}".toList [natWord (ip / 16777216 % 256), natWord (ip / 65536 % 256), natWord (ip / 256 % 256), natWord (ip % 256)]

/-- An ASAP: its number, and its name in parentheses if it has one that is not empty. -/
def asapWord (a : Asap) : List Char :=
  match shownName a with
  | none => intWord a.value
  | some n => fill "{} ({})".toList [intWord a.value, n.toList]

/-- The number that the standard gives to a status of a confirmation. -/
def flagWord : ConfirmFlag → List Char
  | .ok => ['0']
  | .ko => ['1']

/-- The numbers of the errors. -/
def errorNumber : ErrorCode → Nat
  | .noError => 0
  | .hostProtocolType => 1
  | .versionNotSupported => 2
  | .sequenceNumber => 3

/-- The names of the errors. -/
def errorName : ErrorCode → String
  | .noError => "E_NO_ERROR"
  | .hostProtocolType => "E_HOST_PROTOCOL_TYPE"
  | .versionNotSupported => "E_VERSION_NOT_SUPPORTED"
  | .sequenceNumber => "E_SEQUENCE_NUMBER"

/-- Whether a message confirms one that was sent. -/
def confirms : Conf → Bool
  | .ind => false
  | .con _ => true

/-- The pattern of a group value message, `true` for a confirmation. -/
def groupPattern : Svc → Bool → String
  | .read, false => "GroupValueReadInd ({} for asap {})"
  | .response, false => "GroupValueResponseInd ({} for asap {})"
  | .write, false => "GroupValueWriteInd ({} for asap {})"
  | .read, true => "GroupValueReadCon status {} ({} for asap {})"
  | .response, true => "GroupValueResponseCon status {} ({} for asap {})"
  | .write, true => "GroupValueWriteCon status {} ({} for asap {})"

/-- The pattern of a property value message, `true` for a confirmation. -/
def propertyPattern : Svc → Bool → String
  | .read, false =>
    "PropertyValueReadInd (object index {}, property id {}, number of elements {}, start index {} for asap {})"
  | .response, false =>
    "PropertyValueResponseInd {} (object index {}, property id {}, number of elements {}, start index {} for asap {})"
  | .write, false =>
    "PropertyValueWriteInd {} (object index {}, property id {}, number of elements {}, start index {} for asap {})"
  | .read, true =>
    "PropertyValueReadCon status {} (object index {}, property id {}, number of elements {}, start index {} for asap {})"
  | .response, true =>
    "PropertyValueResponseCon {} status {} (object index {}, property id {}, number of elements {}, start index {} for asap {})"
  | .write, true =>
    "PropertyValueWriteCon {} status {} (object index {}, property id {}, number of elements {}, start index {} for asap {})"

/-- The status of a confirmation, as a field. -/
def statusFields : Conf → List (List Char)
  | .ind => []
  | .con f => [flagWord f]

/-- The number of the status of a connect response. -/
def connectNumber : ConnectStatus → Nat
  | .noError => 0
  | .connectionType => 34
  | .connectionOption => 35
  | .noMoreConnections => 36

/-- The number of the status of a connection state response. -/
def connectionstateNumber : ConnStateStatus → Nat
  | .noError => 0
  | .connectionId => 33
  | .dataConnection => 38
  | .knxConnection => 39

/-- Whether there is a bus. -/
def busWord : Bool → String
  | true => "Connected"
  | false => "Disconnected"

/-- The kinds of messages that an interface understands. -/
def emiWord : EmiType → String
  | .cEMI => "cEMI"
  | .emi1 => "emi1"
  | .emi2 => "emi2"

/-- An individual address, or none. -/
def individualWord : Option (BitVec 16) → List Char
  | none => "None".toList
  | some a => fill "0x{}".toList [hexWord 4 a.toNat]

/-- The pattern of a received message and its fields, `t` being the text of the datapoint. -/
def wording (t : List Char) : OutMsg → String × List (List Char)
  | .group svc conf a _ => (groupPattern svc (confirms conf), statusFields conf ++ [t, asapWord a])
  | .property svc conf a oi pid noe si data =>
    (propertyPattern svc (confirms conf),
      (data.map fun d => d.flatMap fun b => hexWord 2 b.toNat).toList ++ statusFields conf ++
        [natWord oi, natWord pid, natWord noe, natWord si, asapWord a])
  | .connectionStatus c => ("ConnectionStatus(status='{}')", [(busWord c).toList])
  | .emiType t => ("EMIType(type='{}')", [(emiWord t).toList])
  | .searchRes ip port ia =>
    ("SearchRes(ip={}, port={}, individual address=0x{})", [ipWord ip, natWord port, hexWord 4 ia])
  | .connectRes ip port ia st =>
    ("ConnectRes(ip={}, port={}, individual address={}, status={})",
      [ipWord ip, natWord port, individualWord ia, natWord (connectNumber st)])
  | .connectionstateRes st => ("ConnectionstateRes(status={})", [natWord (connectionstateNumber st)])
  | .disconnectRes chan st => ("DisconnectRes(communication_channel_id={}, status={})", [natWord chan, natWord (errorNumber st)])
  | .tunnelingReq seq st =>
    ("TunnelingReq(sequence counter={}, status=<ErrorCodes.{}: {}>)",
      [natWord seq, (errorName st).toList, natWord (errorNumber st)])
  | .tunnelingAck seq st => ("TunnelingAck(sequence counter={}, status={})", [natWord seq, natWord (errorNumber st)])

/-- The pattern of a message to be sent and its fields, `t` being the text of the datapoint. -/
def requestWording (t : List Char) : InMsg → String × List (List Char)
  | .connectReq ci cp di dp =>
    ("ConnectReq (control endpoint = {}:{} data endpoint {}:{})", [ipWord ci.toNat, intWord cp, ipWord di.toNat, intWord dp])
  | .disconnectReq ip port => ("DisconnectReq (control endpoint = {}:{})", [ipWord ip.toNat, intWord port])
  | .connectionstateReq ip port => ("ConnectionstateReq (control endpoint = {}:{})", [ipWord ip.toNat, intWord port])
  | .searchReq ip port => ("SearchReq ({}:{})", [ipWord ip.toNat, intWord port])
  | .tunnelingAck seq st => ("TunnelingAck(sequence counter={}, status={})", [natWord seq, natWord (errorNumber st)])
  | .groupRead a => ("GroupValueReadReq (for asap {})", [asapWord a])
  | .groupWriteReq a _ => ("GroupValueWriteReq ({} for asap {})", [t, asapWord a])
  | .groupWriteInd a _ => ("GroupValueWriteInd ({} for asap {})", [t, asapWord a])
  | .propertyRead a oi pid n si =>
    ("PropertyValueReadReq (object index {}, property id {}, number of elements {}, start index {} for asap {})",
      [intWord oi, intWord pid, intWord n, intWord si, asapWord a])
  | .propertyWrite a oi pid n si data =>
    ("PropertyValueWriteReq {} (object index {}, property id {}, number of elements {}, start index {} for asap {})",
      [data, intWord oi, intWord pid, intWord n, intWord si, asapWord a])

/-- The datapoint of a received message. -/
def datapointOf : OutMsg → Option Dpt
  | .group _ _ _ d => some d
  | _ => none

/-- The datapoint of a message to be sent. -/
def datapointIn : InMsg → Option Dpt
  | .groupWriteReq _ d | .groupWriteInd _ d => some d
  | _ => none

/-- A field of a dict, `fr` writing floats. -/
def valueWord (fr : PyFloat → List Char) : PyVal → List Char
  | .int n => intWord n
  | .str s => fill "'{}'".toList [s.toList]
  | .float f => fr f

/-- A dict with texts as keys, `fr` writing floats. -/
def dictWord (fr : PyFloat → List Char) (kvs : List (String × PyVal)) : List Char :=
  fill "{}{}{}".toList [['{'], sepBy ", " (kvs.map fun kv => fill "'{}': {}".toList [kv.1.toList, valueWord fr kv.2]), ['}']]

end Knx.Spec
