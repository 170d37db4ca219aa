import Verif.Spec.Sessions

/-! # Specification: a tunnelling server, and a network between it and the client

Independent of the code of the package: KNX standard 03.08.04 "Tunnelling", section 2.6. -/

namespace Knx
namespace Spec

/-- A tunnelling request: channel, counter and cEMI frame. -/
def requestOf : Msg → Option (Byte × Byte × Msg)
  | 0x06 :: 0x10 :: 0x04 :: 0x20 :: _ :: _ :: _ :: c :: q :: _ :: m => some (c, q, m)
  | _ => none

/-- The cEMI frames of the tunnelling requests among datagrams. -/
def framesOf (ds : List Msg) : List Msg := ds.filterMap fun d => (requestOf d).map fun r => r.2.2

/-- A tunnelling server: the channel of the connection, the counter it expects, and the cEMI frames it accepted. -/
structure Gateway where
  chan : Byte
  expected : Byte
  accepted : List Msg := []
  deriving DecidableEq, Repr

/-- A server accepts a request with the expected counter and acknowledges it; it acknowledges but discards a request with the
counter before; it ignores everything else. -/
def Gateway.receive (g : Gateway) (d : Msg) : Gateway × List Msg :=
  match requestOf d with
  | none => (g, [])
  | some (c, q, m) =>
    if c ≠ g.chan then (g, [])
    else if q = g.expected then
      ({ g with expected := g.expected + 1, accepted := g.accepted ++ [m] }, [ackFrame c.toNat q.toNat 0])
    else if q = g.expected - 1 then (g, [ackFrame c.toNat q.toNat 0])
    else (g, [])

/-- A client, a server, the datagrams on their way to the server and the acknowledgements on their way back. -/
structure Net where
  client : Client
  up : List Msg := []
  down : List Msg := []
  gateway : Gateway
  deriving DecidableEq, Repr

/-- What can happen. Datagrams can be lost or doubled, but do not overtake each other. -/
inductive NetEvent
  | client (e : Client.Event)
  | upLost (i : Nat)
  | upDoubled
  | upArrives
  | downLost (i : Nat)
  | downDoubled
  | downArrives
  deriving DecidableEq, Repr

/-- One event. -/
def Net.step (n : Net) : NetEvent → Net
  | .client e =>
    let c := Client.step n.client e
    { n with client := c, up := n.up ++ c.wire.drop n.client.wire.length }
  | .upLost i => { n with up := n.up.eraseIdx i }
  | .upDoubled => { n with up := n.up.take 1 ++ n.up }
  | .upArrives =>
    match n.up with
    | [] => n
    | d :: ds => { n with up := ds, gateway := (n.gateway.receive d).1, down := n.down ++ (n.gateway.receive d).2 }
  | .downLost i => { n with down := n.down.eraseIdx i }
  | .downDoubled => { n with down := n.down.take 1 ++ n.down }
  | .downArrives =>
    match n.down with
    | [] => n
    | d :: ds =>
      let c := Client.step n.client (.datagram d)
      { n with client := c, down := ds, up := n.up ++ c.wire.drop n.client.wire.length }

/-- A sequence of events. -/
def Net.run (n : Net) (es : List NetEvent) : Net := es.foldl Net.step n

/-- The event leaves the connection alone: no acknowledgement and no change of the channel besides those on the network. -/
def Apart : NetEvent → Prop
  | .client (.datagram d) => ackCounter d = none ∧ connectedTo d = none ∧ disconnected d = false
  | _ => True

/-- A connection on which nothing is under way: client and server agree on channel and counter. -/
structure Net.Idle (n : Net) : Prop where
  medium : n.client.state.medium = .knxnetIp
  chan : n.client.state.chan = some n.gateway.chan.toNat
  counter : n.client.state.seqLocal = n.gateway.expected.toNat
  up : n.up = []
  down : n.down = []

end Spec
end Knx
