import Verif.Model.Tables

/-! # Specification: histories of table operations and the abstract routing dictionary -/

namespace Knx

/-- A call on an address table. -/
inductive AddressTable.Op
  | add (a : Addr)
  | remove (a : Addr)
  | setInd (a : Addr)
  deriving DecidableEq, Repr

/-- The table after a call, successful or not. -/
def AddressTable.after (t : AddressTable) : AddressTable.Op → AddressTable
  | .add a => (AddressTable.add a t).2
  | .remove a => (AddressTable.remove a t).2
  | .setInd a => t.setInd a

/-- The table after a history of calls. -/
def AddressTable.afterAll (t : AddressTable) (ops : List AddressTable.Op) : AddressTable :=
  ops.foldl AddressTable.after t

/-- A call on an association table, or directly on the address table it shares. -/
inductive AssocTable.Op
  | associate (asap : Asap) (addresses : List Addr)
  | disassociate (asap : Asap) (addresses : List Addr)
  | addAddress (a : Addr)
  | removeAddress (a : Addr)
  deriving DecidableEq, Repr

/-- Performing a call: what it raised, if anything, and the table afterwards. -/
def AssocTable.perform (op : AssocTable.Op) : Py AssocTable Unit :=
  match op with
  | .associate asap as => AssocTable.associate asap as
  | .disassociate asap as => AssocTable.disassociate asap as
  | .addAddress a => AssocTable.onAddressTable (AddressTable.add a)
  | .removeAddress a => AssocTable.onAddressTable (AddressTable.remove a)

/-- The table after a history of calls, whatever they raised. -/
def AssocTable.afterAll (t : AssocTable) (ops : List AssocTable.Op) : AssocTable :=
  ops.foldl (fun t op => (AssocTable.perform op t).2) t

/-- The addresses a telegram for an ASAP is sent to: `get_addresses(get_tsaps(asap))`, the calls the encoder
makes. -/
def AssocTable.sendAddresses (t : AssocTable) (asap : Asap) : Except Err (List (BitVec 16)) :=
  match t.getTsaps asap with
  | .error e => .error e
  | .ok ts =>
    match t.getAddresses ts with
    | .error e => .error e
    | .ok l => .ok (l.map Addr.fs)

/-- No call of the history raises. -/
def AssocTable.AllOk : AssocTable → List AssocTable.Op → Prop
  | _, [] => True
  | t, op :: ops => (AssocTable.perform op t).1 = .ok () ∧ AssocTable.AllOk (AssocTable.perform op t).2 ops

/-- The ASAPs that `get_asaps_from_address` lists are these (a `KeyError` stands for none). -/
def AssocTable.Routes (t : AssocTable) (a : Addr) (vs : List Int) : Prop :=
  if vs = [] then t.getAsapsFromAddress a = .error .keyError
  else ∃ r, t.getAsapsFromAddress a = .ok r ∧ r.map Asap.value = vs

/-- A call of `associate` or `disassociate`; an address object that is the individual address object itself has its
value. -/
def AssocTable.Op.Proper (ind : Addr) : AssocTable.Op → Prop
  | .associate _ as => ∀ a ∈ as, a.oid = ind.oid → a.fs = ind.fs
  | .disassociate _ _ => True
  | _ => False

namespace Spec

/-- The abstract state of the associations: ASAP values in creation order, each with its addresses in order. -/
abbrev Assoc := List (Int × List (BitVec 16))

/-- The addresses of an ASAP value. -/
def addressesOf (d : Assoc) (v : Int) : List (BitVec 16) :=
  match d with
  | [] => []
  | (w, l) :: d => if w = v then l else addressesOf d v

/-- Associating appends the addresses to the ASAP, creating it last if it is new. -/
def associate (d : Assoc) (v : Int) (as : List (BitVec 16)) : Assoc :=
  match d with
  | [] => [(v, as)]
  | (w, l) :: d => if w = v then (w, l ++ as) :: d else (w, l) :: associate d v as

/-- Disassociating removes one occurrence of each address from the ASAP. -/
def disassociate (d : Assoc) (v : Int) (as : List (BitVec 16)) : Assoc :=
  match d with
  | [] => []
  | (w, l) :: d => if w = v then (w, as.foldl List.erase l) :: d else (w, l) :: disassociate d v as

/-- The ASAPs a telegram to an address is for: in creation order, as often as the address is associated. -/
def routed (d : Assoc) (a : BitVec 16) : List Int := d.flatMap fun p => List.replicate (p.2.count a) p.1

/-- How often an address is associated, over all ASAPs. -/
def total (d : Assoc) (a : BitVec 16) : Nat := (d.map fun p => p.2.count a).sum

/-- The associations after a successful call. -/
def step (d : Assoc) : AssocTable.Op → Assoc
  | .associate asap as => associate d asap.value (as.map Addr.fs)
  | .disassociate asap as => disassociate d asap.value (as.map Addr.fs)
  | _ => d

/-- The associations after a history of successful calls. -/
def follow (d : Assoc) (ops : List AssocTable.Op) : Assoc := ops.foldl step d

/-- No call disassociates a group address that is associated a second time. -/
def Exclusive (ind : BitVec 16) : Assoc → List AssocTable.Op → Prop
  | _, [] => True
  | d, .disassociate asap as :: ops =>
    (∀ a ∈ as, a.fs = ind ∨ total d a.fs ≤ 1) ∧ Exclusive ind (step d (.disassociate asap as)) ops
  | d, op :: ops => Exclusive ind (step d op) ops

end Spec
end Knx
