import Verif.Model.Tables

/-!
# Other iterables than lists as arguments of the association table

`associate` and `disassociate` (definition/layer/transport/association_table.py:182-207) take any iterable of addresses.
-/

namespace Knx

/-- What is handed to `associate` and `disassociate`, whose parameter is an `Iterable` (association_table.py:183, 200): a
list (or a tuple, a set in its order, ...) that can be run through any number of times, an iterator or generator that
gives its elements once, or the list of group addresses that the address table itself returns
(`AddressTable.addresses`, address_table.py:109-111, which is no copy). -/
inductive Iter
  | list (l : List Addr)
  | once (l : List Addr)
  | live
  deriving DecidableEq, Repr

/-- Where the elements are at the time of the call (association_table.py:183, 200; address_table.py:109-111). -/
def Iter.elements (it : Iter) (t : AssocTable) : List Addr :=
  match it with
  | .list l => l
  | .once l => l
  | .live => t.at_.gas

namespace AssocTable

/-- A `for` statement over the list of group addresses of the table, while the body may change that list: python keeps an
index and compares it with the length at each round (association_table.py:185, 202 with address_table.py:109-111).
`fuel` bounds the rounds; the bodies never lengthen the list by an address that is in it, so its length is enough. -/
def forLive (f : Addr → Py AssocTable Unit) : Nat → Nat → Py AssocTable Unit
  | 0, _ => Py.pure ()
  | fuel + 1, i => fun t =>
    match t.at_.gas[i]? with
    | none => (.ok (), t)
    | some a => Py.bind (f a) (fun _ => forLive f fuel (i + 1)) t

/-- The first loop of `associate` over an iterable (association_table.py:185-190). -/
def associateLoop (it : Iter) : Py AssocTable Unit := fun t =>
  match it with
  | .list l => Py.forEach l associateAdd t
  | .once l => Py.forEach l associateAdd t
  | .live => forLive associateAdd t.at_.gas.length 0 t

/-- What the second loop of `associate` runs through (association_table.py:194-195): nothing is left of an iterator. -/
def secondPass (it : Iter) (t : AssocTable) : List Addr :=
  match it with
  | .list l => l
  | .once _ => []
  | .live => t.at_.gas

/-- `AssociationTable.associate` with any iterable (association_table.py:182-197). -/
def associateFrom (asap : Asap) (it : Iter) : Py AssocTable Unit :=
  Py.bind (associateLoop it) fun _ =>
    Py.modify fun t => (associateAppend asap (secondPass it t) t).rebuild

/-- `AssociationTable.disassociate` with any iterable (association_table.py:199-207). -/
def disassociateFrom (asap : Asap) (it : Iter) : Py AssocTable Unit :=
  Py.bind (fun t =>
    match it with
    | .list l => Py.forEach l (disassociateOne asap) t
    | .once l => Py.forEach l (disassociateOne asap) t
    | .live => forLive (disassociateOne asap) t.at_.gas.length 0 t) fun _ => Py.modify rebuild

end AssocTable
end Knx
