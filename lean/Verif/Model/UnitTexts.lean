import Verif.Model.LData
import Verif.Model.Texts

/-!
# Texts of octets, shorts, longs and link layer data

`__repr__` of knx_stack/msg.py and definition/layer/link/ldata.py.
-/

namespace Knx

/-- `Octect.__repr__` (msg.py:111-112). -/
def octectText (n : Int) : List Char :=
  let v := trunc 8 n
  '0' :: 'x' :: [hexDigit (v / 16), hexDigit (v % 16)]

/-- `Short.__repr__` (msg.py:153-154). -/
def shortText (n : Int) : List Char := '0' :: 'x' :: hex4 (trunc 16 n)

/-- `Long.__repr__` (msg.py:204-205). -/
def longText (n : Int) : List Char :=
  let v := trunc 32 n
  '0' :: 'x' :: (hex4 (v / 65536) ++ hex4 (v % 65536))

/-- `%s` of an `AddressType` (ldata.py:33-35, 377): its name up to python 3.10, its number since. -/
def addressTypeText (named : Bool) : AddressType → List Char
  | .individual => if named then "AddressType.individual".toList else "0".toList
  | .group => if named then "AddressType.group".toList else "1".toList

/-- `L_Data.__repr__` (ldata.py:371-379). -/
def LData.text (named : Bool) (l : LData) : List Char :=
  "source: ".toList ++ decimal l.source.toNat ++ " (0x".toList ++ hex4 l.source.toNat ++ "), destination: ".toList ++
  decimal l.destination.toNat ++ " (0x".toList ++ hex4 l.destination.toNat ++ "), address_type: ".toList ++
  addressTypeText named l.addressType

end Knx
