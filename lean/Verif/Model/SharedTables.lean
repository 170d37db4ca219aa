import Verif.Model.State
import Verif.Spec.TableMachine

/-!
# Tables that share an object

A `GroupObjectTable` keeps the dict it is given (definition/layer/application/groupobject_table.py:23-27), an
`AssociationTable` keeps the address table it is given (definition/layer/transport/association_table.py:116-121).
-/

namespace Knx

/-- The dict objects of the caller, by number, and the group object tables in the order they were made: a table holds a
dict object of the caller, or one of its own (groupobject_table.py:23-27). -/
structure GoHeap where
  dicts : List GroupObjectTable := []
  tables : List (Nat ⊕ GroupObjectTable) := []
  deriving DecidableEq, Repr

/-- What a caller can do with dicts and group object tables (groupobject_table.py:23-39): make a dict, make a table of no
dict or of a dict made before, put a table's association or remove it, put an item into a dict. -/
inductive GoCall
  | dict (items : List (Asap × DptClass))
  | table (given : Option Nat)
  | associate (table : Nat) (asap : Asap) (c : DptClass)
  | disassociate (table : Nat) (asap : Asap)
  | setItem (dict : Nat) (asap : Asap) (c : DptClass)
  deriving DecidableEq, Repr

namespace GoHeap

/-- The dict object `d` of the caller (groupobject_table.py:23-27). -/
def dictOf (h : GoHeap) (d : Nat) : GroupObjectTable := (h.dicts[d]?).getD []

/-- The associations of a table (groupobject_table.py:29-31): those in the dict object it holds. -/
def content (h : GoHeap) (table : Nat) : GroupObjectTable :=
  match h.tables[table]? with
  | none => []
  | some (.inl d) => h.dictOf d
  | some (.inr t) => t

/-- A method of a table changes the dict object it holds (groupobject_table.py:33-39). -/
def change (h : GoHeap) (table : Nat) (f : GroupObjectTable → GroupObjectTable) : GoHeap :=
  match h.tables[table]? with
  | none => h
  | some (.inl d) => { h with dicts := h.dicts.modify d f }
  | some (.inr t) => { h with tables := h.tables.set table (.inr (f t)) }

/-- One call (groupobject_table.py:23-39). `if associations:` is false of an empty dict, so that only a nonempty one is
kept; otherwise the table gets a new dict object. Calls on objects that do not exist do nothing. -/
def call (h : GoHeap) : GoCall → Except Err Unit × GoHeap
  | .dict items => (.ok (), { h with dicts := h.dicts ++ [GroupObjectTable.init items] })
  | .table none => (.ok (), { h with tables := h.tables ++ [.inr []] })
  | .table (some d) => (.ok (), { h with tables := h.tables ++ [if h.dictOf d = [] then .inr [] else .inl d] })
  | .associate i asap c => (.ok (), h.change i fun t => t.associate asap c)
  | .disassociate i asap =>
    ((GroupObjectTable.disassociate asap (h.content i)).1, h.change i fun t => (GroupObjectTable.disassociate asap t).2)
  | .setItem d asap c => (.ok (), { h with dicts := h.dicts.modify d fun t => dictSet Asap.eq t asap c })

/-- A history of calls (groupobject_table.py:23-39). -/
def run (h : GoHeap) (calls : List GoCall) : GoHeap := calls.foldl (fun h c => (h.call c).2) h

end GoHeap

/-- Two association tables made with one address table object (association_table.py:121); both copies of it are kept
equal. -/
structure TwoTables where
  one : AssocTable
  two : AssocTable
  deriving DecidableEq, Repr

namespace TwoTables

/-- Two association tables before the first call of their constructors (association_table.py:121-123). -/
def blank (at_ : AddressTable) : TwoTables := ⟨AssocTable.blank at_, AssocTable.blank at_⟩

/-- A call on the first (`false`) or the second (`true`): what it does to the address table both see
(association_table.py:121, 182-207). -/
def perform (p : TwoTables) (second : Bool) (op : AssocTable.Op) : Except Err Unit × TwoTables :=
  if second then
    ((AssocTable.perform op p.two).1,
      ⟨{ p.one with at_ := (AssocTable.perform op p.two).2.at_ }, (AssocTable.perform op p.two).2⟩)
  else
    ((AssocTable.perform op p.one).1,
      ⟨(AssocTable.perform op p.one).2, { p.two with at_ := (AssocTable.perform op p.one).2.at_ }⟩)

/-- A history of calls on both (association_table.py:182-207). -/
def run (p : TwoTables) (ops : List (Bool × AssocTable.Op)) : TwoTables :=
  ops.foldl (fun p o => (p.perform o.1 o.2).2) p

/-- What the calls of a history raise (association_table.py:182-207). -/
def results : TwoTables → List (Bool × AssocTable.Op) → List (Except Err Unit)
  | _, [] => []
  | p, o :: ops => (p.perform o.1 o.2).1 :: results (p.perform o.1 o.2).2 ops

end TwoTables
end Knx
