import Verif.Spec.Frames

/-! # Specification: the frames of requests, and what the bus makes of them -/

namespace Knx
namespace Spec

/-- The datapoint types whose value travels in the low six bits of the application control octet. -/
def inApci : DptClass → Bool
  | .switch | .alarm | .upDown | .start | .infoSwitch => true
  | _ => false

/-- A telegram to be sent: standard frame, repeat, broadcast, priority and acknowledge bits as 0x96, hop count 6 in the
second control octet, no source; the length counts the octets after the transport control octet. -/
def request (group : Bool) (destination : BitVec 16) (code : Nat) (rest : Msg) : Telegram :=
  { ctrl1 := 0x96, ctrl2 := if group then 0xE0 else 0x60, source := 0, destination := destination,
    length := BitVec.ofNat 8 (rest.length + 1), tpci := BitVec.ofNat 8 (code / 256), apci := BitVec.ofNat 8 code,
    rest := rest }

/-- The telegram writing a number to a group address as a value of a type. -/
def writeTelegram (destination : BitVec 16) (c : DptClass) (n : Nat) : Telegram :=
  if inApci c then request true destination (0x80 + n % 64) [] else request true destination 0x80 (octetsOf (octets c) n)

/-- The number such a telegram carries: the value's octets, or the control octet with the six bits. -/
def writtenValue (c : DptClass) (n : Nat) : Nat := if inApci c then 0x80 + n % 64 else n % 256 ^ octets c

/-- The telegram reading a group address. -/
def readTelegram (destination : BitVec 16) : Telegram := request true destination 0 []

/-- A telegram with a property service. -/
def propertyTelegram (destination : BitVec 16) (code : Nat) (objectIndex propertyId numberOfElements startIndex : Int)
    (data : Msg) : Telegram :=
  request false destination code (octetsOf 4
    ((objectIndex % 256 * 16777216 + propertyId % 256 * 65536 + numberOfElements % 16 * 4096 +
      startIndex % 4096 : Int).toNat) ++ data)

/-- The frame of a state's medium around a cEMI frame; a tunnelling request needs a channel. -/
def envelope (s : State) (m : Msg) : Option Msg :=
  match s.medium with
  | .usbHid => some (usbReport m)
  | .knxnetIp => s.chan.map fun c => tunnelRequest (BitVec.ofNat 8 c) (BitVec.ofNat 8 s.seqLocal) m
  | .tp => some m

/-- The type of an ASAP value in a group object table. -/
def typeIn (g : GroupObjectTable) (v : Int) : Option DptClass := (g.find? fun p => p.1.value = v).map Prod.snd

/-- What the bus interface makes of a request: the message code becomes that of a confirmation and the lowest bit of the
first control octet tells whether sending failed. -/
def confirmation (failed : Bool) : Msg → Msg
  | _ :: len :: c :: rest => 0x2E :: len :: (c &&& 0xFE ||| if failed then 1 else 0) :: rest
  | m => m

/-- What other bus interfaces make of a request: the message code becomes that of an indication. -/
def indication : Msg → Msg
  | _ :: rest => 0x29 :: rest
  | [] => []

/-- The status in a confirmation. -/
def statusOf (failed : Bool) : ConfirmFlag := if failed then .ko else .ok

end Spec
end Knx
