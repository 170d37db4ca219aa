import Verif.Model.NumberAsap

/-! # Specification: numbers in place of ASAPs -/

namespace Knx.Spec

/-- The message that has an ASAP with the number, named or not. -/
def withAsap (name : Option String) : NumMsg → InMsg
  | .groupRead n => .groupRead ⟨n, name⟩
  | .groupWriteReq n d => .groupWriteReq ⟨n, name⟩ d
  | .groupWriteInd n d => .groupWriteInd ⟨n, name⟩ d
  | .propertyRead n oi pid k si => .propertyRead ⟨n, name⟩ oi pid k si
  | .propertyWrite n oi pid k si data => .propertyWrite ⟨n, name⟩ oi pid k si data

/-- The number. -/
def numberIn : NumMsg → Int
  | .groupRead n | .groupWriteReq n _ | .groupWriteInd n _ | .propertyRead n .. | .propertyWrite n .. => n

/-- Whether the message is about a group value. -/
def aboutGroup : NumMsg → Bool
  | .groupRead _ | .groupWriteReq .. | .groupWriteInd .. => true
  | .propertyRead .. | .propertyWrite .. => false

end Knx.Spec
