import Verif.Spec.FieldOrder

/-! # Specification: what the factory refuses -/

namespace Knx
namespace Spec

/-- What text gives for a property that is set by names: nothing for a name, `ValueError` for the name of an attribute that
numbers have, `AttributeError` otherwise. -/
def refusedName (ms : List (String × Nat)) (s : String) : Option Err :=
  if s ∈ ms.map Prod.fst then none
  else if s ∈ numberAttributes then some .valueError
  else some .attributeError

/-- What is raised for a temperature. -/
def refusedTemperature : PyVal → Option Err
  | .int _ => none
  | .str s => if Grouped s.toList ∧ (digitsOf s.toList).length ≤ 430 then none else some .valueError
  | .float .nan => some .valueError
  | .float (.inf _) => some .overflowError
  | .float .negZero => none
  | .float (.fin q) =>
    match fl64 (10 * q) with
    | .inf _ => some .overflowError
    | _ => none

/-- What is raised for a number to be encoded in 16 bits: hundredths must be less than `2 ^ 26` after rounding to two decimals;
beyond 28 digits the rounding itself fails. -/
def refusedFloat16 : PyFloat → Option Err
  | .nan => some .valueError
  | .inf _ => some .invalidOperation
  | .negZero => none
  | .fin q =>
    match fl64 (q / c001) with
    | .fin y =>
      if 10 ^ 26 - 1 / 200 ≤ |y| then some .invalidOperation
      else if 2 ^ 26 - 1 / 200 ≤ |y| then some .exception
      else none
    | .inf _ => some .invalidOperation
    | _ => none

/-- The float that a number is taken for: ints beyond the largest double are none, nor is text. -/
def asFloat : PyVal → Except Err PyFloat
  | .float f => .ok f
  | .str _ => .error .typeError
  | .int n =>
    match fl64 n with
    | .inf _ => .error .overflowError
    | f => .ok f

/-- What is raised for a number to be encoded. -/
def refusedNumber (c : DptClass) (v : PyVal) : Option Err :=
  if isFloat16 c then
    match asFloat v with
    | .error e => some e
    | .ok f => refusedFloat16 f
  else if isFloat32 c then
    match asFloat v with
    | .error e => some e
    | .ok _ => none
  else some .attributeError

/-- What the factory raises for a field, if anything. -/
def refusal (c : DptClass) (kv : String × PyVal) : Option Err :=
  if kv.1 = "decoded_value" then refusedNumber c kv.2
  else if kv.1 = "temperatura" ∧ c = .infoClimaReport then refusedTemperature kv.2
  else if kv.1 ∈ numbers c ∨ kv.1 = "value" ∨ (kv.1 = "bits" ∧ c = .brightness) then
    match kv.2 with
    | .int _ => none
    | _ => some .typeError
  else if kv.1 = "bits" then
    if isFloat32 c then refusedNumber c kv.2 else some .typeError
  else
    match (names c).find? fun x => x.1 == kv.1 with
    | none => none
    | some x =>
      match kv.2 with
      | .str s => refusedName x.2 s
      | _ => some .typeError

end Spec
end Knx
