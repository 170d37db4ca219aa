import Verif.Model.Msg

/-!
# Link layer frames (knx_stack/definition/layer/link/ldata.py)
-/

namespace Knx

/-- `AddressType` (ldata.py:33-35). -/
inductive AddressType
  | individual | group
  deriving DecidableEq, Repr

/-- `ConfirmFlag` (ldata.py:38-40). -/
inductive ConfirmFlag
  | ok | ko
  deriving DecidableEq, Repr

/-- `NSDU` (ldata.py:43-52). -/
inductive Nsdu
  | broadcast | group | tagGroup | individual | connected | connect | disconnect | ack | nack
  deriving DecidableEq, Repr

/-- Reading a bit field of an octet union (ldata.py:55-109). -/
def getB (off w : Nat) (b : Byte) : Nat := getField off w b.toNat

/-- Writing a bit field of an octet union (ldata.py:55-109). -/
def setB (off w : Nat) (x : Int) (b : Byte) : Byte := byte (setField off w x b.toNat)

/-- `L_Data` (ldata.py:112-152). -/
structure LData where
  cntrl1 : Byte
  cntrl2 : Byte
  source : BitVec 16
  destination : BitVec 16
  npduLength : Byte
  tpci : Byte
  apci : Byte
  deriving DecidableEq, Repr

namespace LData

/-- `L_Data()` with `_make_default` (ldata.py:131-142): a zeroed structure, then acknowledge request, priority
normal, repeat on error, standard frame, broadcast, hop count 6. -/
def default : LData :=
  { cntrl1 := setB 4 1 1 (setB 7 1 1 (setB 5 1 0 (setB 2 2 1 (setB 1 1 1 0))))
    cntrl2 := setB 4 3 6 0
    source := 0, destination := 0, npduLength := 0, tpci := 0, apci := 0 }

/-- `address_type` getter (ldata.py:170-172): the field has one bit. -/
def addressType (l : LData) : AddressType := if getB 7 1 l.cntrl2 = 0 then .individual else .group

/-- `address_type` setter (ldata.py:174-176). -/
def setAddressType (t : AddressType) (l : LData) : LData :=
  { l with cntrl2 := setB 7 1 (match t with | .individual => 0 | .group => 1) l.cntrl2 }

/-- `connected` setter (ldata.py:185-190). -/
def setConnected (c : Bool) (l : LData) : LData := { l with tpci := setB 7 1 (if c then 1 else 0) l.tpci }

/-- `connected` getter (ldata.py:178-183). -/
def connected (l : LData) : Bool := getB 7 1 l.tpci != 0

/-- `status` (ldata.py:192-194). -/
def status (l : LData) : ConfirmFlag := if getB 0 1 l.cntrl1 = 0 then .ok else .ko

/-- `apci` getter (ldata.py:196-198): 10 bits, the two upper ones from the TPCI octet. -/
def apciFull (l : LData) : Nat := getB 0 2 l.tpci * 2 ^ 8 + l.apci.toNat

/-- `apci` setter (ldata.py:208-211). -/
def setApci (v : Int) (l : LData) : LData :=
  { l with tpci := setB 0 2 (v / 2 ^ 8) l.tpci, apci := octetOf v }

/-- `data` getter (ldata.py:213-215). -/
def data (l : LData) : Nat := getB 0 6 l.apci

/-- `data` setter (ldata.py:217-219). -/
def setData (v : Int) (l : LData) : LData := { l with apci := setB 0 6 v l.apci }

/-- `nsdu` getter (ldata.py:221-294), branch by branch; `none` is python's `None`. The branches for `T_Connect_PDU`
and `T_Disconnect_PDU` come after a branch that covers them. -/
def nsdu (l : LData) : Option Nsdu :=
  let at_ := l.addressType
  let control := getB 7 1 l.tpci
  let numbered := getB 6 1 l.tpci
  let seq := getB 2 4 l.tpci
  let ackNack := getB 0 2 l.tpci
  if at_ = .group ∧ control = 0 ∧ numbered = 0 ∧ seq = 0 ∧ l.destination = 0 then some .broadcast
  else if at_ = .group ∧ control = 0 ∧ numbered = 0 ∧ seq = 0 ∧ l.destination ≠ 0 then some .group
  else if at_ = .group ∧ control = 0 ∧ numbered = 0 ∧ seq = 1 then some .tagGroup
  else if at_ = .individual ∧ control = 0 ∧ numbered = 0 ∧ seq = 0 then some .individual
  else if at_ = .individual ∧ control = 0 ∧ numbered = 1 then some .connected
  else if at_ = .individual ∧ control = 1 ∧ numbered = 0 then some .connected
  else if at_ = .individual ∧ control = 1 ∧ numbered = 0 ∧ ackNack = 0 then some .connect
  else if at_ = .individual ∧ control = 1 ∧ numbered = 0 ∧ ackNack = 1 then some .disconnect
  else if at_ = .individual ∧ control = 1 ∧ numbered = 1 ∧ ackNack = 2 then some .ack
  else if at_ = .individual ∧ control = 1 ∧ numbered = 1 ∧ ackNack = 3 then some .nack
  else none

/-- `nsdu` setter (ldata.py:296-344); the second branch for `T_Data_Connected_PDU` (322-324) is unreachable. -/
def setNsdu (p : Nsdu) (l : LData) : LData :=
  { l with tpci :=
      match p with
      | .broadcast | .group | .individual => setB 2 4 0 (setB 6 1 0 (setB 7 1 0 l.tpci))
      | .tagGroup => setB 2 4 1 (setB 6 1 0 (setB 7 1 0 l.tpci))
      | .connected => setB 6 1 1 (setB 7 1 0 l.tpci)
      | .connect => setB 0 2 0 (setB 6 1 0 (setB 7 1 1 l.tpci))
      | .disconnect => setB 0 2 1 (setB 6 1 0 (setB 7 1 1 l.tpci))
      | .ack => setB 0 2 2 (setB 6 1 1 (setB 7 1 1 l.tpci))
      | .nack => setB 0 2 3 (setB 6 1 1 (setB 7 1 1 l.tpci)) }

/-- `L_Data.make_from` (ldata.py:346-369): the payload is what follows the APCI octet, or that octet itself if
nothing follows. -/
def makeFrom (msg : Msg) : Except Err (LData × Msg) :=
  match octect msg with
  | .error e => .error e
  | .ok (cntrl1, body) =>
  match octect body with
  | .error e => .error e
  | .ok (cntrl2, body) =>
  match short body with
  | .error e => .error e
  | .ok (source, body) =>
  match short body with
  | .error e => .error e
  | .ok (destination, body) =>
  match octect body with
  | .error e => .error e
  | .ok (npduLength, body) =>
  match octect body with
  | .error e => .error e
  | .ok (tpci, body) =>
  match octect body with
  | .error e => .error e
  | .ok (apci, body) =>
  let l : LData :=
    { cntrl1 := cntrl1, cntrl2 := cntrl2, source := BitVec.ofNat 16 source,
      destination := BitVec.ofNat 16 destination, npduLength := npduLength, tpci := tpci, apci := apci }
  .ok (l, if body = [] then [apci] else body)

end LData
end Knx
