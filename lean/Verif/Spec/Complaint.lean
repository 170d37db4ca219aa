import Verif.Spec.Requests
import Verif.Spec.Tables
import Verif.Spec.Text
import Verif.Model.Encode
import Verif.Lemmas.Assoc

/-! # Specification: what is missing when a message cannot be encoded -/

namespace Knx
namespace Spec

/-- Sending on KNXnet/IP needs a connection, i.e. a channel. -/
def needsChannel (s : State) : Option Err :=
  if s.medium = .knxnetIp ∧ s.chan = none then some .attributeError else none

/-- A group value needs the type of its ASAP. -/
def needsType (s : State) (v : Int) : Option Err :=
  match s.got with
  | none => some .attributeError
  | some g => if typeIn g v = none then some .keyError else none

/-- Group messages need an ASAP with associations, and all its addresses in the address table. -/
def needsAddress (s : State) (v : Int) : Option Err :=
  match s.assoc with
  | none => some .attributeError
  | some a =>
    if v ∉ a.absDict.map Prod.fst then some .keyError
    else if ∀ x ∈ addressesOf a.absDict v, x ∈ a.at_.gas.map Addr.fs ∨ x = a.at_.ind.fs then none
    else some .typeError

/-- Property messages need an association table, for the own address. -/
def needsTable (s : State) : Option Err := if s.assoc = none then some .attributeError else none

/-- What the first thing missing for a message is reported as. -/
def complaint (s : State) : InMsg → Option Err
  | .connectReq .. | .searchReq .. => none
  | .disconnectReq .. | .connectionstateReq .. | .tunnelingAck .. => if s.chan = none then some .attributeError else none
  | .groupRead asap => (needsAddress s asap.value).or (needsChannel s)
  | .groupWriteReq asap _ => ((needsType s asap.value).or (needsAddress s asap.value)).or (needsChannel s)
  | .groupWriteInd asap _ => (needsType s asap.value).or (needsAddress s asap.value)
  | .propertyRead .. => (needsTable s).or (needsChannel s)
  | .propertyWrite _ _ _ _ _ data =>
    if ∃ c ∈ data, ¬ IsPyDigit c then some .valueError else (needsTable s).or (needsChannel s)

end Spec
end Knx
