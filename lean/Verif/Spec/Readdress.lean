import Verif.Spec.Tables
import Verif.Model.Encode

/-! # Specification: the life of a device whose own individual address changes -/

namespace Knx

/-- What happens to the tables of a device: a call, or setting the own individual address. -/
inductive AssocTable.Event
  | call (op : AssocTable.Op)
  | readdress (ia : Addr)
  deriving DecidableEq, Repr

namespace AssocTable

/-- The tables after an event, whatever it raised. -/
def live (t : AssocTable) : Event → AssocTable
  | .call op => (perform op t).2
  | .readdress ia => t.readdress ia

/-- The tables after a life. -/
def liveAll (t : AssocTable) (es : List Event) : AssocTable := es.foldl live t

/-- What the calls of a life returned or raised, in order. -/
def outcomes (t : AssocTable) : List Event → List (Except Err Unit)
  | [] => []
  | .call op :: es => (perform op t).1 :: outcomes (perform op t).2 es
  | .readdress ia :: es => outcomes (t.readdress ia) es

end AssocTable

namespace Spec

/-- The calls of a life, in order. -/
def callsOf : List AssocTable.Event → List AssocTable.Op
  | [] => []
  | .call op :: es => op :: callsOf es
  | .readdress _ :: es => callsOf es

/-- All own addresses a device has in its life. -/
def ownAddresses (ia : Addr) : List AssocTable.Event → List Addr
  | [] => [ia]
  | .call _ :: es => ownAddresses ia es
  | .readdress ia' :: es => ia :: ownAddresses ia' es

/-- The own address at the end. -/
def lastOwn (ia : Addr) : List AssocTable.Event → Addr
  | [] => ia
  | .call _ :: es => lastOwn ia es
  | .readdress ia' :: es => lastOwn ia' es

/-- An address that is none of these, neither as a value nor as an object. -/
def Foreign (O : List Addr) (a : Addr) : Prop := ∀ o ∈ O, a.fs ≠ o.fs ∧ a.oid ≠ o.oid

/-- A call about other ASAPs than 0 and other addresses than the own ones. -/
def Elsewhere (O : List Addr) : AssocTable.Op → Prop
  | .associate asap as => asap.value ≠ 0 ∧ ∀ a ∈ as, Foreign O a
  | .disassociate asap as => asap.value ≠ 0 ∧ ∀ a ∈ as, Foreign O a
  | .addAddress a => Foreign O a
  | .removeAddress a => Foreign O a

/-- A message to send that is not a group message of ASAP 0. -/
def NotOfZero : InMsg → Prop
  | .groupRead asap => asap.value ≠ 0
  | .groupWriteReq asap _ => asap.value ≠ 0
  | .groupWriteInd asap _ => asap.value ≠ 0
  | _ => True

end Spec
end Knx
