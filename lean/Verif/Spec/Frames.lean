import Verif.Model.Encode
import Verif.Spec.Tables
import Verif.Spec.Dpt

/-! # Specification: telegrams, cEMI frames, USB reports and tunnelling datagrams as octet strings -/

namespace Knx
namespace Spec

/-- The `k` octets of a number, most significant first; higher octets are dropped. -/
def octetsOf : Nat → Nat → Msg
  | 0, _ => []
  | k + 1, n => BitVec.ofNat 8 (n / 256 ^ k) :: octetsOf k n

/-- The number written by some octets, most significant first. -/
def number (m : Msg) : Nat := m.foldl (fun n b => 256 * n + b.toNat) 0

/-- An endpoint of KNXnet/IP: its length, UDP, the address, the port. -/
def endpoint (ip : BitVec 32) (port : Int) : Msg :=
  [0x08, 0x01] ++ octetsOf 4 ip.toNat ++ octetsOf 2 (port % 65536).toNat

/-- A telegram on the bus: two control octets, the two addresses, the length octet, the transport and the application
control octet, and what follows them. -/
structure Telegram where
  ctrl1 : Byte
  ctrl2 : Byte
  source : BitVec 16
  destination : BitVec 16
  length : Byte
  tpci : Byte
  apci : Byte
  rest : Msg
  deriving DecidableEq, Repr

namespace Telegram

/-- The octets of a telegram. -/
def octets (t : Telegram) : Msg :=
  [t.ctrl1, t.ctrl2] ++ octetsOf 2 t.source.toNat ++ octetsOf 2 t.destination.toNat ++
    [t.length, t.tpci, t.apci] ++ t.rest

/-- The most significant bit of the second control octet marks a group destination. -/
def IsGroup (t : Telegram) : Prop := 128 ≤ t.ctrl2.toNat

/-- The upper six bits of the transport control octet are zero for an unnumbered data telegram. -/
def IsData (t : Telegram) : Prop := t.tpci.toNat < 4

/-- The 10 bit application control information. -/
def code (t : Telegram) : Nat := t.tpci.toNat % 4 * 256 + t.apci.toNat

/-- The group value service of an application control information: read is 0, response and write carry six bits of
data. -/
def service (t : Telegram) : Option Svc :=
  if t.code = 0 then some .read
  else if t.code / 64 = 1 then some .response
  else if t.code / 64 = 2 then some .write
  else none

/-- The value a group telegram carries: what follows the application control octet, or that octet itself if nothing
follows. -/
def value (t : Telegram) : Nat := if t.rest = [] then t.apci.toNat else number t.rest

/-- The lowest bit of the first control octet tells that a confirmation is negative. -/
def status (t : Telegram) : ConfirmFlag := if t.ctrl1.toNat % 2 = 0 then .ok else .ko

end Telegram

/-- A cEMI frame: message code, length of the additional information, the additional information, the telegram. -/
def cemi (code : Byte) (info : Msg) (t : Telegram) : Msg :=
  [code, BitVec.ofNat 8 info.length] ++ info ++ t.octets

/-- The USB report of a cEMI frame. -/
def usbReport (m : Msg) : Msg :=
  [0x01, 0x13, BitVec.ofNat 8 (m.length + 8), 0x00, 0x08] ++ octetsOf 2 m.length ++ [0x01, 0x03, 0x00, 0x00] ++ m

/-- The tunnelling request with a cEMI frame. -/
def tunnelRequest (chan seq : Byte) (m : Msg) : Msg :=
  [0x06, 0x10, 0x04, 0x20] ++ octetsOf 2 (m.length + 10) ++ [0x04, chan, seq, 0x00] ++ m

/-- The octets `f` carry the cEMI frame `m` to a state: a padded USB report, or a tunnelling request with the expected
counter, which is itself reported as a first message. -/
inductive Carries (s : State) (m : Msg) : Msg → List OutMsg → Prop
  | usb (padding : Msg) (hm : s.medium = .usbHid) (hl : m.length + 8 < 256) : Carries s m (usbReport m ++ padding) []
  | ip (chan seq : Byte) (hm : s.medium = .knxnetIp) (hs : s.seqRemote = seq.toNat) :
      Carries s m (tunnelRequest chan seq m) [.tunnelingReq seq.toNat .noError]

/-- Message code of an indication (0x29) or of a confirmation (0x2E). -/
def codeOf : Kind → Byte
  | .ind => 0x29
  | .con => 0x2E

/-- What a confirmation says about its telegram. -/
def confOf : Kind → Telegram → Conf
  | .ind, _ => .ind
  | .con, t => .con t.status

/-- A datapoint whose operating mode, if it has one, is defined. -/
def Displayable (d : Dpt) : Prop :=
  ¬ ((d.cls = .setupClima ∨ d.cls = .infoClimaReport) ∧ d.raw / 2 ^ 24 % 16 ∈ [9, 10, 11, 12, 13, 15])

instance (d : Dpt) : Decidable (Displayable d) := by unfold Displayable; infer_instance

/-- The messages for the group objects among some ASAP values: in group object order, each with the number reduced to
the width of its type. -/
def fanOut (svc : Svc) (conf : Conf) (g : GroupObjectTable) (vs : List Int) (n : Nat) : List OutMsg :=
  (g.filter fun p => p.1.value ∈ vs).map fun p => .group svc conf p.1 ⟨p.2, n % 256 ^ octets p.2⟩

/-- The first message shows a datapoint that can be displayed. -/
def FirstDisplayable : List OutMsg → Prop
  | .group _ _ _ d :: _ => Displayable d
  | _ => True

instance (l : List OutMsg) : Decidable (FirstDisplayable l) := by
  unfold FirstDisplayable; split <;> infer_instance

end Spec
end Knx
