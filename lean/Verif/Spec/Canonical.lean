import Verif.Spec.Dpt

/-! # The form of 2-octet floats on the wire -/

namespace Knx.Spec

/-- The exponent is the least for which the mantissa is below 2048: it is 0, or the mantissa is at least 1024. -/
def LeastExponent (raw : Nat) : Prop := exponent16 raw = 0 ∨ 1024 ≤ |mantissa16 raw| ∧ mantissa16 raw ≠ -2048

end Knx.Spec
