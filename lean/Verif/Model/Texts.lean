import Verif.Model.Msg
import Verif.Model.Tables

/-!
# Texts of addresses and of the address table

`__repr__` of knx_stack/address.py and definition/layer/network/address_table.py.
-/

namespace Knx

/-- The decimal digits of a natural number in front of a text, at most `fuel` of them (`%d` and `{}` of an int in
address.py:83, address_table.py:160, 168). -/
def decimalAux : Nat → Nat → List Char → List Char
  | 0, _, acc => acc
  | fuel + 1, n, acc =>
    if n < 10 then Char.ofNat ('0'.toNat + n) :: acc
    else decimalAux fuel (n / 10) (Char.ofNat ('0'.toNat + n % 10) :: acc)

/-- `%d` and `{}` of a natural number (address.py:83, address_table.py:160, 168). -/
def decimal (n : Nat) : List Char := decimalAux (n + 1) n []

/-- `%04X` of a number below 65536 (address.py:37, 83). -/
def hex4 (n : Nat) : List Char :=
  [hexDigit (n / 4096), hexDigit (n / 256 % 16), hexDigit (n / 16 % 16), hexDigit (n % 16)]

/-- `Address.__repr__` (address.py:36-37). -/
def addressText (a : BitVec 16) : List Char := '0' :: 'x' :: hex4 a.toNat

/-- `GroupAddress.__repr__` (address.py:82-90). -/
def groupText (a : BitVec 16) : List Char :=
  "(0x".toList ++ hex4 a.toNat ++ " ".toList ++
  decimal (toTwo a).main ++ "/".toList ++ decimal (toTwo a).sub ++ " ".toList ++
  decimal (toThree a).main ++ "/".toList ++ decimal (toThree a).middle ++ "/".toList ++ decimal (toThree a).sub ++
  ")".toList

/-- The lines of the group addresses, the first one numbered `n` (address_table.py:167-168). -/
def AddressTable.entries : Nat → List Addr → List Char
  | _, [] => []
  | n, a :: as =>
    "    ".toList ++ decimal n ++ " -> ".toList ++ groupText a.fs ++ "\n".toList ++ entries (n + 1) as

/-- `AddressTable.__repr__` (address_table.py:159-170). Simplification: the own address is an `Address` object and all
others are `GroupAddress` objects, as the types of the parameters say (address_table.py:79-80). -/
def AddressTable.text (t : AddressTable) : List Char :=
  "AddressTable: individual address: ".toList ++ addressText t.ind.fs ++ ", max_size=".toList ++ decimal t.maxSize ++
  "\n\n".toList ++
  "    tsap -> individual address\n".toList ++
  "    0 -> ".toList ++ addressText t.ind.fs ++ "\n".toList ++
  "    tsap -> group address (hex_free_style two_level_style three_level_style)\n".toList ++
  entries 1 t.gas

end Knx
