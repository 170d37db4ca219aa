import Verif.Spec.Gateway

/-! # Specification: a server that refuses a request

Independent of the code of the package: KNX standard 03.08.04 "Tunnelling", section 2.6: a server that cannot take the request it
expects tells so by the status of its acknowledgement, and goes on expecting the same counter. -/

namespace Knx
namespace Spec

/-- What can happen on a network with a server that may refuse requests. -/
inductive RefusalEvent
  | net (e : NetEvent)
  | refused (status : Byte)
  deriving DecidableEq, Repr

/-- The first datagram under way to the server arrives, and if it is the request that the server expects, it is refused. -/
def Net.refuse (n : Net) (status : Byte) : Net :=
  match n.up with
  | [] => n
  | d :: ds =>
    match requestOf d with
    | none => n.step .upArrives
    | some (c, q, _) =>
      if c = n.gateway.chan ∧ q = n.gateway.expected then
        { n with up := ds, down := n.down ++ [ackFrame c.toNat q.toNat status.toNat] }
      else n.step .upArrives

/-- One event. -/
def Net.stepOr (n : Net) : RefusalEvent → Net
  | .net e => n.step e
  | .refused st => n.refuse st

/-- A sequence of events. -/
def Net.runOr (n : Net) (es : List RefusalEvent) : Net := es.foldl Net.stepOr n

/-- The event leaves the connection alone. -/
def ApartOr : RefusalEvent → Prop
  | .net e => Apart e
  | .refused _ => True

end Spec
end Knx
