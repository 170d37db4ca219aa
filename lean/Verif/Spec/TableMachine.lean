import Verif.Spec.Tables

/-!
# Specification: a reference machine for the address table and the association table

No sorted lists, no positions, no objects and no index: a bag of known addresses, the associations, and a memory of
both at the last successful call of `associate` or `disassociate`.
-/

namespace Knx

/-- What the calls of a history raised, one after the other. -/
def AssocTable.callResults : AssocTable → List AssocTable.Op → List (Except Err Unit)
  | _, [] => []
  | t, op :: ops => (AssocTable.perform op t).1 :: AssocTable.callResults (AssocTable.perform op t).2 ops

/-- A table nothing is associated in yet: what `AssociationTable.__init__` starts from. -/
def AssocTable.blank (at_ : AddressTable) : AssocTable := { at_ := at_, asapAddrs := [], tsapAsaps := [] }

namespace Spec

/-- The state of the reference machine. -/
structure TableState where
  /-- the addresses of the address table, in no particular order -/
  known : List (BitVec 16)
  /-- the associations -/
  assoc : Assoc
  /-- the address table when `associate` or `disassociate` last succeeded -/
  seenKnown : List (BitVec 16)
  /-- the associations when `associate` or `disassociate` last succeeded -/
  seenAssoc : Assoc
  deriving DecidableEq, Repr

/-- The place of an address among the known ones: one more than there are smaller ones; zero for the individual
address; none for an unknown address. -/
def place (ind : BitVec 16) (known : List (BitVec 16)) (x : BitVec 16) : Option Nat :=
  if x ∈ known then some (known.countP (fun y => y.toNat < x.toNat) + 1) else if x = ind then some 0 else none

/-- The ASAPs listed for an address: those that were associated, at the last successful call, with an address that had
then the place the given address has now. -/
def TableState.listed (ind : BitVec 16) (s : TableState) (x : BitVec 16) : List Int :=
  s.seenAssoc.flatMap fun p =>
    List.replicate (p.2.countP fun y => place ind s.seenKnown y = place ind s.known x) p.1

/-- An address without a place: neither known nor the individual address. -/
def TableState.Unknown (ind : BitVec 16) (s : TableState) (x : BitVec 16) : Prop := x ∉ s.known ∧ x ≠ ind

instance (ind : BitVec 16) (s : TableState) (x : BitVec 16) : Decidable (s.Unknown ind x) := by
  unfold TableState.Unknown
  infer_instance

/-- What an ASAP is sent to. -/
def TableState.sent (ind : BitVec 16) (s : TableState) (v : Int) : Except Err (List (BitVec 16)) :=
  if v ∉ s.assoc.map (·.1) then .error .keyError
  else if ∃ x ∈ addressesOf s.assoc v, s.Unknown ind x then .error .typeError
  else .ok (addressesOf s.assoc v)

/-- The addresses a call of `associate` has to add: those not known yet, each once, except for the individual address
object itself. -/
def newOnes (ind : Addr) (known : List (BitVec 16)) (as : List Addr) : List (BitVec 16) :=
  (((as.filter fun a => a.oid ≠ ind.oid).map Addr.fs).filter fun x => x ∉ known).eraseDups

/-- The memory is renewed. -/
def TableState.renewed (s : TableState) : TableState := { s with seenKnown := s.known, seenAssoc := s.assoc }

/-- `associate` succeeds exactly if there is room for all new addresses; otherwise as many as fit are known from now
on, and nothing else happens. -/
def TableState.associate (ind : Addr) (max : Nat) (s : TableState) (v : Int) (as : List Addr) :
    Except Err Unit × TableState :=
  let new := newOnes ind s.known as
  if new = [] ∨ s.known.length + new.length ≤ max then
    (.ok (), ({ s with known := s.known ++ new, assoc := Spec.associate s.assoc v (as.map Addr.fs) } : TableState).renewed)
  else (.error .addressTable, { s with known := s.known ++ new.take (max - s.known.length) })

/-- The addresses are given up one after the other: each is forgotten (the individual address is not), then taken from
the ASAP. -/
def TableState.giveUp (ind : BitVec 16) (v : Int) : TableState → List (BitVec 16) → Except Err Unit × TableState
  | s, [] => (.ok (), s)
  | s, x :: xs =>
    if s.Unknown ind x then (.error .valueError, s)
    else
      let s' : TableState := if x = ind then s else { s with known := s.known.erase x }
      if v ∉ s.assoc.map (·.1) then (.error .keyError, s')
      else if x ∉ addressesOf s.assoc v then (.error .valueError, s')
      else TableState.giveUp ind v { s' with assoc := Spec.disassociate s.assoc v [x] } xs

/-- `disassociate`: the memory is renewed if all addresses could be given up. -/
def TableState.disassociate (ind : BitVec 16) (s : TableState) (v : Int) (xs : List (BitVec 16)) :
    Except Err Unit × TableState :=
  match s.giveUp ind v xs with
  | (.ok _, s') => (.ok (), s'.renewed)
  | (.error e, s') => (.error e, s')

/-- One call; `add` and `remove` of the address table leave the memory alone. -/
def TableState.call (ind : Addr) (max : Nat) (s : TableState) : AssocTable.Op → Except Err Unit × TableState
  | .associate asap as => s.associate ind max asap.value as
  | .disassociate asap as => s.disassociate ind.fs asap.value (as.map Addr.fs)
  | .addAddress a =>
    if a.fs ∈ s.known ∧ a.fs = ind.fs then (.ok (), s)
    else if s.known.length < max then (.ok (), { s with known := s.known ++ [a.fs] })
    else (.error .addressTable, s)
  | .removeAddress a =>
    if a.fs ∈ s.known then (.ok (), { s with known := s.known.erase a.fs }) else (.error .valueError, s)

/-- The state after a history. -/
def TableState.run (ind : Addr) (max : Nat) (s : TableState) (ops : List AssocTable.Op) : TableState :=
  ops.foldl (fun s op => (s.call ind max op).2) s

/-- What the calls of a history raise. -/
def TableState.raises (ind : Addr) (max : Nat) : TableState → List AssocTable.Op → List (Except Err Unit)
  | _, [] => []
  | s, op :: ops => (s.call ind max op).1 :: TableState.raises ind max (s.call ind max op).2 ops

/-- The state of a table nothing is associated in yet. -/
def TableState.start (known : List (BitVec 16)) : TableState := ⟨known, [], known, []⟩

end Spec
end Knx
