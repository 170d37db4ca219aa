import Verif.Spec.Digits
import Mathlib.Data.List.Chain

/-! # Specification: numbers as text -/

namespace Knx
namespace Spec

/-- The value of a decimal digit of any script. -/
def decimalOf (c : Char) : Option Nat :=
  ((0x30 :: digitZeros).find? fun z => decide (z ≤ c.toNat ∧ c.toNat < z + 10)).map fun z => c.toNat - z

/-- Decimal digits, possibly grouped by single underscores. -/
def Grouped (s : List Char) : Prop :=
  s ≠ [] ∧ (∀ c ∈ s, c = '_' ∨ (decimalOf c).isSome) ∧ s.head? ≠ some '_' ∧ s.getLast? ≠ some '_' ∧
    s.IsChain fun a b => a ≠ '_' ∨ b ≠ '_'

instance (s : List Char) : Decidable (Grouped s) := by unfold Grouped; infer_instance

/-- The digits of a text. -/
def digitsOf (s : List Char) : List Nat := s.filterMap decimalOf

/-- The number that decimal digits stand for. -/
def numeral : List Nat → Nat
  | [] => 0
  | d :: ds => d * 10 ^ ds.length + numeral ds

end Spec
end Knx
