import Verif.Spec.Network

/-! # Specification: individually addressed telegrams, with and without application data -/

namespace Knx
namespace Spec

instance (t : Telegram) : Decidable t.IsGroup := by unfold Telegram.IsGroup; infer_instance

instance (t : Telegram) : Decidable t.IsData := by unfold Telegram.IsData; infer_instance

/-- The octets of a telegram without application data: the control telegrams of a transport connection. The length octet
counts the octets after the transport control octet. -/
def controlTelegram (ctrl1 ctrl2 : Byte) (source destination : BitVec 16) (tpci : Byte) : Msg :=
  [ctrl1, ctrl2] ++ octetsOf 2 source.toNat ++ octetsOf 2 destination.toNat ++ [0, tpci]

/-- The request that sends such a telegram. -/
def controlRequest (destination : BitVec 16) (tpci : Byte) : Msg :=
  [0x11, 0x00] ++ controlTelegram 0x96 0x60 0 destination tpci

/-- The three property services among the application control informations. -/
def propertyOf (t : Telegram) : Option Svc :=
  if t.code = 0x3D5 then some .read
  else if t.code = 0x3D6 then some .response
  else if t.code = 0x3D7 then some .write
  else none

/-- An individually addressed telegram that concerns a state with the given own address and group addresses: an
indication from that address, or a confirmation of a telegram to it. -/
def Mine (ind : BitVec 16) (gas : List (BitVec 16)) : Kind → Telegram → Prop
  | .ind, t => t.source = ind
  | .con, t => t.destination = ind ∧ ind ∉ gas

end Spec
end Knx
