import Verif.Spec.Frames

/-! # Standard and extended frames (C110) -/

namespace Knx.Spec

/-- The octets that a standard frame has room for behind the transport control octet. -/
def standardRoom : Nat := 15

/-- A cEMI frame without additional information says rightly by the highest bit of its first control octet (octet 2) whether
it is a standard frame: whether what follows the transport control octet (octet 9) fits one. -/
def RightFrameType (m : Msg) : Prop := ∃ b, m[2]? = some b ∧ (128 ≤ b.toNat ↔ m.length - 10 ≤ standardRoom)

/-- Two telegrams that say the same to the same: they may differ in the type of the frame, in what the control octets say about
its way on the bus (repetition, priority, acknowledgement, hop count), in the format of an extended frame, in the length octet
and, if the destination is a group, in the source. -/
def SameTelegram (t u : Telegram) : Prop :=
  t.ctrl1.toNat % 2 = u.ctrl1.toNat % 2 ∧ (t.IsGroup ↔ u.IsGroup) ∧ (t.IsGroup ∨ t.source = u.source) ∧
  t.destination = u.destination ∧ t.tpci = u.tpci ∧ t.apci = u.apci ∧ t.rest = u.rest

end Knx.Spec
