import Verif.Model.SharedTables

/-!
# What tables that share an object should do

Group object tables as values of their own, and two association tables as reference machines with one bag of addresses.
-/

namespace Knx.Spec

/-- Dicts and tables, each with its own content. -/
structure GoWorld where
  dicts : List GroupObjectTable := []
  tables : List GroupObjectTable := []

/-- A table starts with what is in the dict it is given; from then on only its own calls change it. -/
def GoWorld.call (w : GoWorld) : GoCall → GoWorld
  | .dict items => { w with dicts := w.dicts ++ [GroupObjectTable.init items] }
  | .table given => { w with tables := w.tables ++ [(given.bind (w.dicts[·]?)).getD []] }
  | .associate i asap c => { w with tables := w.tables.modify i fun t => t.associate asap c }
  | .disassociate i asap => { w with tables := w.tables.modify i fun t => (GroupObjectTable.disassociate asap t).2 }
  | .setItem d asap c => { w with dicts := w.dicts.modify d fun t => dictSet Asap.eq t asap c }

def GoWorld.run (w : GoWorld) (calls : List GoCall) : GoWorld := calls.foldl GoWorld.call w

/-- A call that hands over no dict twice and changes none that was handed over. An empty dict may be handed over any
number of times, since it is not kept. -/
def Separate (given : List Nat) : GoCall → Prop
  | .table (some d) => d ∉ given
  | .setItem d _ _ => d ∉ given
  | _ => True

/-- The dicts handed over, other than empty ones. -/
def givenBy (w : GoWorld) : GoCall → List Nat
  | .table (some d) => if (w.dicts[d]?).getD [] = [] then [] else [d]
  | _ => []

/-- A history of such calls. -/
def AllSeparate : GoWorld → List Nat → List GoCall → Prop
  | _, _, [] => True
  | w, given, c :: calls => Separate given c ∧ AllSeparate (w.call c) (givenBy w c ++ given) calls

/-- Two reference machines; the addresses known to one are those known to the other. -/
def callTwo (ind : Addr) (max : Nat) (s : TableState × TableState) (second : Bool) (op : AssocTable.Op) :
    Except Err Unit × (TableState × TableState) :=
  if second then
    ((s.2.call ind max op).1, ({ s.1 with known := (s.2.call ind max op).2.known }, (s.2.call ind max op).2))
  else
    ((s.1.call ind max op).1, ((s.1.call ind max op).2, { s.2 with known := (s.1.call ind max op).2.known }))

def runTwo (ind : Addr) (max : Nat) (s : TableState × TableState) (ops : List (Bool × AssocTable.Op)) :
    TableState × TableState := ops.foldl (fun s o => (callTwo ind max s o.1 o.2).2) s

def raisesTwo (ind : Addr) (max : Nat) : TableState × TableState → List (Bool × AssocTable.Op) → List (Except Err Unit)
  | _, [] => []
  | s, o :: ops => (callTwo ind max s o.1 o.2).1 :: raisesTwo ind max (callTwo ind max s o.1 o.2).2 ops

end Knx.Spec
