import Verif.Spec.MsgTexts
import Verif.Spec.TableTexts

/-! # Specification: what the text of a message to be sent tells

Written without the functions that make the texts and the frames. -/

namespace Knx.Spec

/-- Two ASAPs look the same. -/
def SameAsap (a b : Asap) : Prop := a.value = b.value ∧ shownName a = shownName b

/-- Two messages to be sent say the same: they are the same but for bits of a datapoint that are not shown, and an empty
name counting as none. -/
def SameRequest : InMsg → InMsg → Prop
  | .groupRead a, m' => ∃ a', m' = .groupRead a' ∧ SameAsap a a'
  | .groupWriteReq a d, m' => ∃ a' d', m' = .groupWriteReq a' d' ∧ SameAsap a a' ∧ SameDisplay d d'
  | .groupWriteInd a d, m' => ∃ a' d', m' = .groupWriteInd a' d' ∧ SameAsap a a' ∧ SameDisplay d d'
  | .propertyRead a oi pid n si, m' => ∃ a', m' = .propertyRead a' oi pid n si ∧ SameAsap a a'
  | .propertyWrite a oi pid n si data, m' => ∃ a', m' = .propertyWrite a' oi pid n si data ∧ SameAsap a a'
  | m, m' => m' = m

/-- The data of a property write, if the message is one, is without spaces. -/
def Spaceless : InMsg → Prop
  | .propertyWrite _ _ _ _ _ data => ' ' ∉ data
  | _ => True

/-- The datapoint in a message, if it has one, is within the width of its type. -/
def WfRequest : InMsg → Prop
  | .groupWriteReq _ d | .groupWriteInd _ d => d.Wf
  | _ => True

/-- The number of a datapoint is written in the way the library itself writes it: bits that no property shows are zero, the
mantissa of a 2 octet float is not -2048, and as large as it can be unless the exponent is 0, and the only 4 octet NaN is
the quiet one. -/
def Canonical (d : Dpt) : Prop :=
  if isFloat16 d.cls then
    -2047 ≤ mantissa16 d.raw ∧ (exponent16 d.raw = 0 ∨ 1024 ≤ (mantissa16 d.raw).natAbs)
  else if isFloat32 d.cls then
    d.raw / 2 ^ 23 % 2 ^ 8 ≠ 255 ∨ d.raw % 2 ^ 23 = 0 ∨ d.raw = 0x7FC00000
  else ∀ i, d.raw.testBit i = true → i ∈ shownBits d.cls

/-- The datapoint in a message, if it has one, is written as the library writes it. -/
def CanonicalRequest : InMsg → Prop
  | .groupWriteReq _ d | .groupWriteInd _ d => Canonical d
  | _ => True

end Knx.Spec
