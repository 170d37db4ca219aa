import Verif.Spec.Dpt
import Verif.Spec.Number

/-! # Specification: what the fields given to the factory amount to -/

namespace Knx
namespace Spec

/-- Ten times a number as the float arithmetic of the machine gives it, without its fraction. Ten times a text of at most
430 digits is the number with the digits repeated ten times. -/
def tenfold : PyVal → Option Int
  | .int n => some (10 * n)
  | .float (.fin q) =>
    match fl64 (10 * q) with
    | .fin r => some (if r < 0 then -⌊-r⌋ else ⌊r⌋)
    | .negZero => some 0
    | _ => none
  | .float .negZero => some 0
  | .str s =>
    if Grouped s.toList ∧ (digitsOf s.toList).length ≤ 430 then
      some (numeral (List.replicate 10 (digitsOf s.toList)).flatten : Int)
    else none
  | _ => none

/-- The numeral a value stands for in a property of a datapoint type. -/
def valueCode (c : DptClass) (f : String) (v : PyVal) : Option Int :=
  if f = "temperatura" then tenfold v
  else
    match v with
    | .int n => if f ∈ numbers c then some n else none
    | .str s =>
      match (names c).find? fun x => x.1 == f with
      | none => none
      | some x =>
        match x.2.find? fun y => y.1 == s with
        | none => none
        | some y => some y.2
    | .float _ => none

/-- Position and width of a property of a datapoint type. -/
def fieldPlace (c : DptClass) (f : String) : Nat × Nat :=
  if f = "temperatura" then (0, 9)
  else
    match (packed 0 (fieldWidths c)).find? fun x => x.1 == f with
    | none => (0, 0)
    | some x => x.2

/-- What a field contributes to the number that a datapoint holds: its code, cut to the width of the property, at the
place of the property. Fields that are no properties contribute nothing. `none` if the value is not one for the
property. -/
def part (c : DptClass) (kv : String × PyVal) : Option Nat :=
  if kv.1 ∈ properties c then
    (valueCode c kv.1 kv.2).map fun n => (n % 2 ^ (fieldPlace c kv.1).2).toNat * 2 ^ (fieldPlace c kv.1).1
  else some 0

/-- The keys that stand for the whole datapoint. -/
def wholeKeys : List String := ["value", "bits", "decoded_value"]

end Spec
end Knx
