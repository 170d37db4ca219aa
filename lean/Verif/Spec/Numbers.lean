import Verif.Spec.EndToEnd

/-! # Specification: numbers on their way from one installation to another -/

namespace Knx.Spec

/-- Both types are 2-octet floats, or both are 4-octet floats. -/
def SameFloat (c c' : DptClass) : Prop := isFloat16 c = true ∧ isFloat16 c' = true ∨ isFloat32 c = true ∧ isFloat32 c' = true

instance (c c' : DptClass) : Decidable (SameFloat c c') := by unfold SameFloat; infer_instance

/-- A message tells a group object that something was written, and, if it is of such a type as `c`, the number `f`. -/
def Tells (c : DptClass) (f : PyFloat) (p : Asap × DptClass) (o : OutMsg) : Prop :=
  ∃ d : Dpt, o = .group .write .ind p.1 d ∧ d.cls = p.2 ∧ (SameFloat c p.2 → d.decode = .ok f)

/-- The group objects with some ASAP values. -/
def listening (g : GroupObjectTable) (vs : List Int) : List (Asap × DptClass) := g.filter fun p => p.1.value ∈ vs

end Knx.Spec
