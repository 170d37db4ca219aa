import Verif.Model.Address

/-!
# Address table, association table, group object table

definition/layer/network/address_table.py, definition/layer/transport/association_table.py.
-/

namespace Knx

/-- `AddressTable` (address_table.py:8-170): `_max_size`, `_individual_address`, `_group_addresses`.
Simplification: `max_size` is a natural number. -/
structure AddressTable where
  maxSize : Nat
  ind : Addr
  gas : List Addr
  deriving DecidableEq, Repr

namespace AddressTable

/-- Inserting an address in front of the first one that is not smaller (one step of the stable sort of
address_table.py:91, 143-145, 157: the inserted address came before all those of the list). -/
def insert (a : Addr) : List Addr → List Addr
  | [] => [a]
  | b :: l => if a.fs.toNat ≤ b.fs.toNat then a :: b :: l else b :: insert a l

/-- `self._group_addresses.sort(key=lambda group_address: group_address.free_style)`
(address_table.py:91, 143-145, 157). Python's sort is stable; any stable sorting function gives the same list, here it
is insertion sort. -/
def sort : List Addr → List Addr
  | [] => []
  | a :: l => insert a (sort l)

/-- `AddressTable.__init__` (address_table.py:77-91): no check of `max_size` and duplicates. -/
def init (ia : Addr) (addresses : List Addr) (maxSize : Nat) : AddressTable :=
  { maxSize := maxSize, ind := ia, gas := sort addresses }

/-- `AddressTable.individual_address` setter (address_table.py:97-99). -/
def setInd (t : AddressTable) (ia : Addr) : AddressTable := { t with ind := ia }

/-- `AddressTable.tsaps` (address_table.py:105-107). -/
def tsaps (t : AddressTable) : List Nat := List.range (t.gas.length + 1)

/-- `list.index` with python equality of addresses: position of the first equal element
(address_table.py:121; `ValueError` is `none`). -/
def index (l : List Addr) (a : Addr) : Option Nat :=
  match l with
  | [] => none
  | x :: xs => if x.eq a then some 0 else (index xs a).map (· + 1)

/-- `address in list` with python equality (address_table.py:135, association_table.py:187). -/
def mem (l : List Addr) (a : Addr) : Bool := l.any fun x => x.eq a

/-- `list.remove` with python equality (address_table.py:156, association_table.py:205): removes the first equal
element, `ValueError` is `none`. -/
def removeFirst (l : List Addr) (a : Addr) : Option (List Addr) :=
  match l with
  | [] => none
  | x :: xs => if x.eq a then some xs else (removeFirst xs a).map (x :: ·)

/-- `AddressTable.get_address` (address_table.py:113-117). -/
def getAddress (t : AddressTable) (tsap : Int) : Except Err Addr :=
  if tsap ≥ 1 then
    match t.gas[(tsap - 1).toNat]? with
    | some a => .ok a
    | none => .error .indexError
  else .ok t.ind

/-- `AddressTable.get_tsap` (address_table.py:119-126): `none` is python's `None`. -/
def getTsap (t : AddressTable) (a : Addr) : Option Nat :=
  match index t.gas a with
  | some i => some (i + 1)
  | none => if a.eq t.ind then some 0 else none

/-- `AddressTable.add` (address_table.py:128-147). The guard is `not in ... or != individual address`, so an
address that is already present is appended again unless it equals the individual address. -/
def add (a : Addr) : Py AddressTable Unit := fun t =>
  if !(mem t.gas a) || !(a.eq t.ind) then
    if t.gas.length ≥ t.maxSize then (.error .addressTable, t)
    else (.ok (), { t with gas := sort (t.gas ++ [a]) })
  else (.ok (), t)

/-- `AddressTable.remove` (address_table.py:149-157). -/
def remove (a : Addr) : Py AddressTable Unit := fun t =>
  match removeFirst t.gas a with
  | none => (.error .valueError, t)
  | some l => (.ok (), { t with gas := sort l })

end AddressTable

/-- `ASAP` (association_table.py:7-53): a value and an optional name. -/
structure Asap where
  value : Int
  name : Option String := none
  deriving DecidableEq, Repr

/-- `ASAP.__eq__` (association_table.py:49-50); `__hash__` (52-53) agrees with it. -/
def Asap.eq (a b : Asap) : Bool := a.value == b.value

/-- `AssociationTable` (association_table.py:56-214): the shared `_address_table`, the dict `_asap_addresses` and the
derived dict `_tsap_asaps`. A key `none` of `tsapAsaps` is python's `None`. -/
structure AssocTable where
  at_ : AddressTable
  asapAddrs : List (Asap × List Addr)
  tsapAsaps : List (Option Nat × List Asap)
  deriving DecidableEq, Repr

namespace AssocTable

/-- `AssociationTable.individual_address` (association_table.py:132-134). -/
def ind (t : AssocTable) : Addr := t.at_.ind

/-- `AssociationTable.get_tsap` (association_table.py:136-137). -/
def getTsap (t : AssocTable) (a : Addr) : Option Nat := t.at_.getTsap a

/-- `AssociationTable.get_tsaps` (association_table.py:139-145): `KeyError` for an unknown ASAP. -/
def getTsaps (t : AssocTable) (asap : Asap) : Except Err (List (Option Nat)) :=
  match dictGet Asap.eq t.asapAddrs asap with
  | none => .error .keyError
  | some l => .ok (l.map t.at_.getTsap)

/-- `AssociationTable.get_asaps` (association_table.py:147-148). -/
def getAsaps (t : AssocTable) (tsap : Option Nat) : Except Err (List Asap) :=
  match dictGet (· == ·) t.tsapAsaps tsap with
  | none => .error .keyError
  | some l => .ok l

/-- `AssociationTable.get_asaps_from_address` (association_table.py:150-154). -/
def getAsapsFromAddress (t : AssocTable) (a : Addr) : Except Err (List Asap) :=
  t.getAsaps (t.at_.getTsap a)

/-- `AssociationTable.asaps` (association_table.py:156-158). -/
def asaps (t : AssocTable) : List Asap := t.asapAddrs.map (·.1)

/-- The loop of `get_free_asap_value` (association_table.py:162-164) from index `e` on; reaching the end returns the
number of keys (165). -/
def freeFrom (e : Nat) : List Asap → Nat
  | [] => e
  | a :: as => if (e : Int) ≠ a.value then e else freeFrom (e + 1) as

/-- `AssociationTable.get_free_asap_value` (association_table.py:160-165). -/
def getFreeAsapValue (t : AssocTable) : Nat := freeFrom 0 t.asaps

/-- `AssociationTable.get_addresses` (association_table.py:167-171): `None >= 1` raises `TypeError`
(address_table.py:114). -/
def getAddresses (t : AssocTable) : List (Option Nat) → Except Err (List Addr)
  | [] => .ok []
  | none :: _ => .error .typeError
  | some n :: ts =>
    match t.at_.getAddress n with
    | .error e => .error e
    | .ok a =>
      match getAddresses t ts with
      | .error e => .error e
      | .ok as => .ok (a :: as)

/-- One iteration of the inner loop of `_rebuild_tsap_asaps` (association_table.py:176-180). -/
def rebuildStep (at_ : AddressTable) (asap : Asap) (d : List (Option Nat × List Asap)) (a : Addr) :
    List (Option Nat × List Asap) :=
  let tsap := at_.getTsap a
  match dictGet (· == ·) d tsap with
  | none => dictSet (· == ·) d tsap [asap]
  | some l => dictSet (· == ·) d tsap (l ++ [asap])

/-- `AssociationTable._rebuild_tsap_asaps` (association_table.py:173-180). -/
def rebuild (t : AssocTable) : AssocTable :=
  { t with tsapAsaps :=
      t.asapAddrs.foldl (fun d p => p.2.foldl (rebuildStep t.at_ p.1) d) [] }

/-- Calling a method of the shared address table object from the association table
(association_table.py:190, 204). -/
def onAddressTable {α : Type} (f : Py AddressTable α) : Py AssocTable α := fun t =>
  match f t.at_ with
  | (r, at') => (r, { t with at_ := at' })

/-- The first loop of `associate` (association_table.py:185-190); the second conjunct is an identity test. -/
def associateAdd (a : Addr) : Py AssocTable Unit := fun t =>
  if !(AddressTable.mem t.at_.gas a) && !(a.oid == t.ind.oid) then
    onAddressTable (AddressTable.add a) t
  else (.ok (), t)

/-- The ASAP dictionary update of `associate` (association_table.py:192-195). -/
def associateAppend (asap : Asap) (addresses : List Addr) (t : AssocTable) : AssocTable :=
  let old := (dictGet Asap.eq t.asapAddrs asap).getD []
  { t with asapAddrs := dictSet Asap.eq t.asapAddrs asap (old ++ addresses) }

/-- `AssociationTable.associate` (association_table.py:182-197): if an `add` raises, the addresses added before
stay in the address table and neither the dictionary nor the derived index are updated. -/
def associate (asap : Asap) (addresses : List Addr) : Py AssocTable Unit :=
  Py.bind (Py.forEach addresses associateAdd) fun _ =>
    Py.modify fun t => (associateAppend asap addresses t).rebuild

/-- The body of the loop of `disassociate` (association_table.py:202-205). -/
def disassociateOne (asap : Asap) (a : Addr) : Py AssocTable Unit :=
  Py.bind (fun t => if !(a.eq t.ind) then onAddressTable (AddressTable.remove a) t else (.ok (), t)) fun _ t =>
    match dictGet Asap.eq t.asapAddrs asap with
    | none => (.error .keyError, t)
    | some l =>
      match AddressTable.removeFirst l a with
      | none => (.error .valueError, t)
      | some l' => (.ok (), { t with asapAddrs := dictSet Asap.eq t.asapAddrs asap l' })

/-- `AssociationTable.disassociate` (association_table.py:199-207): the derived index is rebuilt only if no
exception was raised. -/
def disassociate (asap : Asap) (addresses : List Addr) : Py AssocTable Unit :=
  Py.bind (Py.forEach addresses (disassociateOne asap)) fun _ => Py.modify rebuild

/-- Setting `individual_address` of the shared address table object (address_table.py:97-99); the association table
(association_table.py:132-134) sees the new address but keeps its dictionaries. -/
def readdress (t : AssocTable) (ia : Addr) : AssocTable := { t with at_ := t.at_.setInd ia }

/-- `AssociationTable.__init__` (association_table.py:117-130): ASAP 0 is associated with the individual address
object itself, then the given associations one by one. -/
def init (at_ : AddressTable) (associations : List (Asap × Addr)) : Except Err Unit × AssocTable :=
  (Py.bind (associate ⟨0, some "individual address"⟩ [at_.ind]) fun _ =>
    Py.forEach associations fun p => associate p.1 [p.2]) { at_ := at_, asapAddrs := [], tsapAsaps := [] }

end AssocTable

end Knx
