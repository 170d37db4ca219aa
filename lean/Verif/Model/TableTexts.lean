import Verif.Model.MsgTexts
import Verif.Model.Texts

/-! # The texts of the group object table and of the association table

`__repr__` of the two tables; the programs of the README print them. -/

namespace Knx

/-- One line of `GroupObjectTable.__repr__` (groupobject_table.py:44), `datapointtype.__name__` being the name of the class. -/
def objectLine (p : Asap × DptClass) : List Char :=
  "    ".toList ++ asapText p.1 ++ " -> ".toList ++ p.2.name.toList ++ "\n".toList

/-- `GroupObjectTable.__repr__` (definition/layer/application/groupobject_table.py:41-45). -/
def GroupObjectTable.text (g : GroupObjectTable) : List Char :=
  "GroupObjectTable: ASAP -> datapointtype\n".toList ++ g.flatMap objectLine

/-- `repr` of an address object, `grp` telling the objects of class `GroupAddress` (address.py:35-37, 82-90). -/
def objText (grp : Addr → Bool) (a : Addr) : List Char := if grp a then groupText a.fs else addressText a.fs

/-- The elements of a list of addresses behind the opening bracket, and the closing one (association_table.py:212). -/
def addrItems (grp : Addr → Bool) : List Addr → List Char
  | [] => "]".toList
  | [a] => objText grp a ++ "]".toList
  | a :: as => objText grp a ++ ", ".toList ++ addrItems grp as

/-- One line of `AssociationTable.__repr__` (association_table.py:212). -/
def assocLine (grp : Addr → Bool) (p : Asap × List Addr) : List Char :=
  "    ".toList ++ asapText p.1 ++ " -> ".toList ++ "[".toList ++ addrItems grp p.2 ++ "\n".toList

/-- `AssociationTable.__repr__` (definition/layer/transport/association_table.py:209-214), `grp` telling the objects of class
`GroupAddress`. Simplification: those of the address table all are, as in `AddressTable.text`. -/
def AssocTable.text (grp : Addr → Bool) (t : AssocTable) : List Char :=
  "AssociationTable: asap -> addresses\n".toList ++ t.asapAddrs.flatMap (assocLine grp) ++ t.at_.text

end Knx
