import Verif.Model.State

/-! # Specification: histories of a group object table -/

namespace Knx

/-- A call on a group object table. -/
inductive GroupObjectTable.Op
  | associate (asap : Asap) (c : DptClass)
  | disassociate (asap : Asap)
  deriving DecidableEq, Repr

/-- The table after a call, whether it raised or not. -/
def GroupObjectTable.after (t : GroupObjectTable) : GroupObjectTable.Op → GroupObjectTable
  | .associate a c => GroupObjectTable.associate t a c
  | .disassociate a => (GroupObjectTable.disassociate a t).2

namespace Spec

/-- The datapoint type of an ASAP value after a history given latest call first: that of the latest `associate` with an
equal value unless a `disassociate` came later. -/
def typeOf (v : Int) : List GroupObjectTable.Op → Option DptClass
  | [] => none
  | .associate a c :: earlier => if a.value = v then some c else typeOf v earlier
  | .disassociate a :: earlier => if a.value = v then none else typeOf v earlier

/-- The registered ASAP values after a history given latest call first, in order of registration: a new value goes last,
a known value keeps its place, a disassociated one leaves. -/
def registered : List GroupObjectTable.Op → List Int
  | [] => []
  | .associate a _ :: earlier =>
    if a.value ∈ registered earlier then registered earlier else registered earlier ++ [a.value]
  | .disassociate a :: earlier => (registered earlier).filter (· ≠ a.value)

end Spec
end Knx
