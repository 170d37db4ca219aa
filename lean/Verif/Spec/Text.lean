import Verif.Model.Base
import Verif.Spec.Digits

/-! # Specification: hexadecimal text and big-endian numbers

Written without the functions of the model. -/

namespace Knx.Spec

/-- The 22 hexadecimal digits and their values. -/
def hexTable : List (Char × Nat) :=
  [('0', 0), ('1', 1), ('2', 2), ('3', 3), ('4', 4), ('5', 5), ('6', 6), ('7', 7), ('8', 8), ('9', 9),
   ('a', 10), ('b', 11), ('c', 12), ('d', 13), ('e', 14), ('f', 15),
   ('A', 10), ('B', 11), ('C', 12), ('D', 13), ('E', 14), ('F', 15)]

/-- `v` is the value of the digit `c`. -/
def HexDigit (c : Char) (v : Nat) : Prop := (c, v) ∈ hexTable

/-- `c` is a hexadecimal digit. -/
def IsHex (c : Char) : Prop := ∃ v, HexDigit c v

instance (c : Char) (v : Nat) : Decidable (HexDigit c v) := inferInstanceAs (Decidable ((c, v) ∈ hexTable))

instance (c : Char) : Decidable (IsHex c) :=
  decidable_of_iff (c ∈ hexTable.map (·.1)) (by simp [IsHex, HexDigit])

/-- `c` is the decimal digit `v` of a script other than ASCII. -/
def ForeignDigit (c : Char) (v : Nat) : Prop := v < 10 ∧ ∃ z ∈ digitZeros, c.toNat = z + v

/-- `v` is the value python gives to the digit `c`. -/
def PyDigit (c : Char) (v : Nat) : Prop := HexDigit c v ∨ ForeignDigit c v

/-- `c` is a digit for python. -/
def IsPyDigit (c : Char) : Prop := ∃ v, PyDigit c v

instance (c : Char) : Decidable (IsPyDigit c) :=
  decidable_of_iff (IsHex c ∨ ∃ z ∈ digitZeros, z ≤ c.toNat ∧ c.toNat < z + 10) (by
    constructor
    · rintro (⟨v, h⟩ | ⟨z, hz, h1, h2⟩)
      · exact ⟨v, .inl h⟩
      · exact ⟨c.toNat - z, .inr ⟨by omega, z, hz, by omega⟩⟩
    · rintro ⟨v, h | ⟨hv, z, hz, h⟩⟩
      · exact .inl ⟨v, h⟩
      · exact .inr ⟨z, hz, by omega, by omega⟩)

/-- The number written by octets, most significant first. -/
def bigEndian : List (BitVec 8) → Nat
  | [] => 0
  | b :: bs => b.toNat * 256 ^ bs.length + bigEndian bs

end Knx.Spec
