import Verif.Model.Tables

/-!
# Changing an address object that is stored in tables

`Address` and `GroupAddress` are ctypes unions (address.py:19-45, 48-99): their fields can be assigned at any time, and the
tables keep the objects they are given (definition/layer/network/address_table.py:87-90,
definition/layer/transport/association_table.py:194-195).
-/

namespace Knx

/-- `address.free_style = v` seen at another reference: the object `o` has the new value (address.py:31-33, 76-80). -/
def Addr.rename (o : Nat) (v : BitVec 16) (a : Addr) : Addr := if a.oid = o then { a with fs := v } else a

/-- `address.free_style = v` seen by the tables that hold the object (address_table.py:87-90,
association_table.py:194-195): the list of group addresses is not sorted again and the derived index, which has positions
and ASAPs only, not rebuilt. -/
def AssocTable.rename (o : Nat) (v : BitVec 16) (t : AssocTable) : AssocTable where
  at_ := { t.at_ with ind := t.at_.ind.rename o v, gas := t.at_.gas.map (Addr.rename o v) }
  asapAddrs := t.asapAddrs.map fun p => (p.1, p.2.map (Addr.rename o v))
  tsapAsaps := t.tsapAsaps

end Knx
