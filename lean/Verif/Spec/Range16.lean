import Verif.Spec.Dpt
import Mathlib.Data.Rat.Defs

/-! # Specification: the ranges of the two octet floats

Independent of the code of the package: KNX standard 03.07.02, section 3.10 "Datapoint Types 2-Octet Float Value". -/

namespace Knx.Spec

/-- The lowest number of the datapoint types 9.001 (temperature, absolute zero), 9.004 (illuminance) and 9.005 (wind speed). -/
def lowest16 : DptClass → Option ℚ
  | .valueTemp => some (-273)
  | .valueLux | .valueWsp => some 0
  | _ => none

/-- The highest number of these types. -/
def highest16 : ℚ := 670760

/-- A number is in the range of a type. -/
def InRange16 (c : DptClass) (q : ℚ) : Prop := ∃ lo, lowest16 c = some lo ∧ lo ≤ q ∧ q ≤ highest16

/-- The octets that denote invalid data in all types 9.xxx. -/
def invalid16 : Nat := 0x7FFF

end Knx.Spec
