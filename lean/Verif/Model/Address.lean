import Verif.Model.Base

/-!
# Addresses (knx_stack/address.py)
-/

namespace Knx

/-- An `Address` or `GroupAddress` object (address.py:19-46, 48-99): `fs` is `free_style` (a `c_uint16`), `oid` the
identity of the python object (needed for the `is not` test in association_table.py:188).
Simplification: address objects are not mutated after construction (other than in Model/Rename.lean), and `Address`/`GroupAddress` are not
distinguished (they compare equal by `free_style`, address.py:38-42, 92-96). -/
structure Addr where
  oid : Nat
  fs : BitVec 16
  deriving DecidableEq, Repr

/-- `Address.__eq__` / `GroupAddress.__eq__` (address.py:38-42, 92-96). -/
def Addr.eq (a b : Addr) : Bool := a.fs == b.fs

/-- The three components of `ThreeLevelStyle` (address.py:4-9). -/
structure ThreeLevel where
  main : Nat
  middle : Nat
  sub : Nat
  deriving DecidableEq, Repr

/-- The two components of `TwoLevelStyle` (address.py:12-16). -/
structure TwoLevel where
  main : Nat
  sub : Nat
  deriving DecidableEq, Repr

/-- `GroupAddress(free_style=n)` (address.py:76-80). -/
def ofFree (n : Int) : BitVec 16 := BitVec.ofNat 16 (trunc 16 n)

/-- `GroupAddress(three_level_style=ThreeLevelStyle(main=.., middle=.., sub=..))` (address.py:4-9, 76-80). -/
def ofThree (main middle sub : Int) : BitVec 16 :=
  BitVec.ofNat 16 (setField 11 5 main (setField 8 3 middle (setField 0 8 sub 0)))

/-- `GroupAddress(two_level_style=TwoLevelStyle(main=.., sub=..))` (address.py:12-16, 76-80). -/
def ofTwo (main sub : Int) : BitVec 16 :=
  BitVec.ofNat 16 (setField 11 5 main (setField 0 11 sub 0))

/-- Reading `three_level_style` (address.py:4-9, 79). -/
def toThree (a : BitVec 16) : ThreeLevel :=
  { main := getField 11 5 a.toNat, middle := getField 8 3 a.toNat, sub := getField 0 8 a.toNat }

/-- Reading `two_level_style` (address.py:12-16, 78). -/
def toTwo (a : BitVec 16) : TwoLevel :=
  { main := getField 11 5 a.toNat, sub := getField 0 11 a.toNat }

end Knx
