import Verif.Spec.Requests

/-! # The reports of the KNX standard for USB (C109): 64 octets each, so that a long frame takes several of them -/

namespace Knx.Spec

/-- The octets of a report beside its report id, its packet octet and its length. -/
def packetRoom : Nat := 61

/-- The pieces of a transfer. -/
def pieces (b : Msg) : List Msg :=
  if packetRoom < b.length then b.take packetRoom :: pieces (b.drop packetRoom) else [b]
termination_by b.length
decreasing_by simp only [List.length_drop]; unfold packetRoom at *; omega

/-- The type of the packet with a number among some packets: the only one (3), the first (5), the last (6) or another (4). -/
def packetType (i n : Nat) : Nat :=
  if n ≤ 1 then 3 else if i = 1 then 5 else if i = n then 6 else 4

/-- A report: the packet number, counted from 1, in the upper half of the second octet, the type in the lower half. -/
def packet (n : Nat) (p : Msg × Nat) : Msg :=
  [0x01, BitVec.ofNat 8 (16 * p.2 + packetType p.2 n), BitVec.ofNat 8 p.1.length] ++ p.1 ++
    List.replicate (packetRoom - p.1.length) 0

/-- The transfer of a cEMI frame: version, header length, frame length, protocol and EMI, and no manufacturer. -/
def transfer (m : Msg) : Msg := [0x00, 0x08] ++ octetsOf 2 m.length ++ [0x01, 0x03, 0x00, 0x00] ++ m

/-- The reports of a cEMI frame. -/
def packets (m : Msg) : List Msg :=
  ((pieces (transfer m)).zipIdx 1).map (packet (pieces (transfer m)).length)

/-- The requests whose frame fits a report. -/
def FitsReport (s : State) : InMsg → Prop
  | .groupRead asap | .groupWriteReq asap _ | .groupWriteInd asap _ =>
    ∃ a x as, s.assoc = some a ∧ a.sendAddresses asap = .ok (x :: as)
  | .propertyRead .. => True
  | .propertyWrite _ _ _ _ _ data => data.length / 2 ≤ 38
  | _ => False

end Knx.Spec
