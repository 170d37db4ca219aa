import Mathlib.Algebra.Order.Ring.Rat
import Mathlib.Algebra.Order.Field.Basic

/-!
# Specification: rounding to binary floating point numbers (IEEE 754)

Written without the functions of the model.
-/

namespace Knx
namespace Spec

/-- The numbers that a binary floating point format with `p` digits, none of which is worth less than `2^emin`, can hold; the
largest exponent is left open, as in the definition of rounding in IEEE 754. -/
def InFormat (p : Nat) (emin : Int) (x : ℚ) : Prop :=
  ∃ m e : Int, |m| < 2 ^ p ∧ emin ≤ e ∧ x = (m : ℚ) * (2 : ℚ) ^ e

/-- `x` is `q` rounded as IEEE 754 rounds: no number of the format is nearer, and if another one is as near, the last digit of
`x` is 0. -/
def Nearest (p : Nat) (emin : Int) (q x : ℚ) : Prop :=
  InFormat p emin x ∧ (∀ y, InFormat p emin y → |x - q| ≤ |y - q|) ∧
    ((∃ y, InFormat p emin y ∧ y ≠ x ∧ |y - q| = |x - q|) → InFormat (p - 1) (emin + 1) x)

end Spec
end Knx
