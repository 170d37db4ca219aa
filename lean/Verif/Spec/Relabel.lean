import Verif.Spec.Tables
import Verif.Spec.GroupObjects
import Verif.Spec.Sessions

/-! # Specification: other numbers and names for the ASAPs of an installation -/

namespace Knx
namespace Spec

/-- Other numbers and names for ASAPs that tell apart exactly what the old numbers told apart. -/
def Faithful (f : Asap → Asap) : Prop := ∀ a b : Asap, (f a).value = (f b).value ↔ a.value = b.value

/-- The ASAP without its name. -/
def nameless (a : Asap) : Asap := ⟨a.value, none⟩

/-- An association table with other ASAPs. -/
def relabelTable (f : Asap → Asap) (t : AssocTable) : AssocTable :=
  { t with asapAddrs := t.asapAddrs.map fun p => (f p.1, p.2), tsapAsaps := t.tsapAsaps.map fun p => (p.1, p.2.map f) }

/-- A group object table with other ASAPs. -/
def relabelObjects (f : Asap → Asap) (g : GroupObjectTable) : GroupObjectTable := g.map fun p => (f p.1, p.2)

/-- A state with other ASAPs. -/
def relabelState (f : Asap → Asap) (s : State) : State :=
  { s with assoc := s.assoc.map (relabelTable f), got := s.got.map (relabelObjects f), asap := s.asap.map f }

/-- A request with another ASAP. -/
def relabelRequest (f : Asap → Asap) : InMsg → InMsg
  | .groupRead a => .groupRead (f a)
  | .groupWriteReq a d => .groupWriteReq (f a) d
  | .groupWriteInd a d => .groupWriteInd (f a) d
  | .propertyRead a oi pid n si => .propertyRead (f a) oi pid n si
  | .propertyWrite a oi pid n si data => .propertyWrite (f a) oi pid n si data
  | m => m

/-- A received message with another ASAP; property messages always carry ASAP 0. -/
def relabelMessage (f : Asap → Asap) : OutMsg → OutMsg
  | .group svc conf a d => .group svc conf (f a) d
  | m => m

/-- What a decoder returns, with other ASAPs. -/
def relabelResult (f : Asap → Asap) : Res → Res
  | .list l => .list (l.map (relabelMessage f))
  | .none => .none
  | .tuple l => .tuple (l.map (relabelMessage f))

/-- Something the owner of an installation does: a call on the association table or the address table it shares, an
assignment of the individual address, a call on the group object table or on the state. -/
inductive Deed
  | table (op : AssocTable.Op)
  | readdress (ia : Addr)
  | object (op : GroupObjectTable.Op)
  | encode (m : InMsg)
  | decode (data : Msg)
  | setRemote (v : Int)
  | setLocal (v : Int)
  deriving DecidableEq, Repr

/-- What comes of it: nothing or an exception, the octets to send, or the messages received. -/
inductive Effect
  | done (r : Except Err Unit)
  | octets (r : Except Err Msg)
  | received (r : Except Err Res)
  deriving DecidableEq, Repr

/-- A call on a group object table: what it raised and the table afterwards. -/
def objectCall (op : GroupObjectTable.Op) : Py GroupObjectTable Unit :=
  match op with
  | .associate a c => fun g => (.ok (), GroupObjectTable.associate g a c)
  | .disassociate a => GroupObjectTable.disassociate a

/-- A deed: its effect and the state afterwards. A table that the state does not have cannot be called. -/
def doDeed (d : Deed) (s : State) : Effect × State :=
  match d with
  | .table op =>
    match s.assoc with
    | none => (.done (.error .attributeError), s)
    | some t => (.done (AssocTable.perform op t).1, { s with assoc := some (AssocTable.perform op t).2 })
  | .readdress ia => (.done (.ok ()), { s with assoc := s.assoc.map fun t => t.readdress ia })
  | .object op =>
    match s.got with
    | none => (.done (.error .attributeError), s)
    | some g => (.done (objectCall op g).1, { s with got := some (objectCall op g).2 })
  | .encode m => (.octets (encodeMsg m s).1, (encodeMsg m s).2)
  | .decode data => (.received (decodeMsg data s).1, (decodeMsg data s).2)
  | .setRemote v => (.done (.ok ()), s.setSeqRemote v)
  | .setLocal v => (.done (.ok ()), s.setSeqLocal v)

/-- The effects of a history of deeds, one for each. -/
def effects (s : State) : List Deed → List Effect
  | [] => []
  | d :: ds => (doDeed d s).1 :: effects (doDeed d s).2 ds

/-- A deed with other ASAPs. -/
def relabelDeed (f : Asap → Asap) : Deed → Deed
  | .table (.associate a l) => .table (.associate (f a) l)
  | .table (.disassociate a l) => .table (.disassociate (f a) l)
  | .object (.associate a c) => .object (.associate (f a) c)
  | .object (.disassociate a) => .object (.disassociate (f a))
  | .encode m => .encode (relabelRequest f m)
  | d => d

/-- An outcome with other ASAPs: octets and exceptions stay as they are. -/
def relabelEffect (f : Asap → Asap) : Effect → Effect
  | .received (.ok r) => .received (.ok (relabelResult f r))
  | o => o

/-- The octets sent in a history. -/
def octetsSent : List Effect → List Msg
  | [] => []
  | .octets (.ok m) :: os => m :: octetsSent os
  | _ :: os => octetsSent os

end Spec
end Knx
