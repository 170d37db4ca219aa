import Verif.Model.Client

/-!
# The tunnelling client and its remote endpoint (knx_stack/client/knxnet_ip.py:77-78, 108-111, 148-162)

`start_tunneling` makes the transport with a local and a remote endpoint, so that its socket is connected: the kernel gives
it only datagrams from the remote endpoint, and `sendto` with the same endpoint sends there.
-/

namespace Knx

/-- An address and a port (client/knxnet_ip.py:72-73). Simplification: the address is given by its four octets; a host name in
its place is not modelled. -/
abbrev Endpoint := BitVec 32 × Nat

/-- `Tunneling` with `_remote_addr` and `_remote_port` (client/knxnet_ip.py:77-78). An observation is added that python does
not store: the datagrams given to `sendto` with the endpoint they are sent to. -/
structure Bound where
  client : Client
  remote : Endpoint
  sent : List (Endpoint × Msg) := []
  deriving DecidableEq, Repr

namespace Bound

/-- What the network and the event loop can do (client/knxnet_ip.py:88-145): as for `Client.Event`, but a datagram has a
sender. -/
inductive Event
  | made
  | lost
  | arrives (sender : Endpoint) (data : Msg)
  | write (m : InMsg)
  deriving DecidableEq, Repr

/-- A method of the client has been called: what it gave to `sendto` goes to `_remote_addr` and `_remote_port`
(client/knxnet_ip.py:109-111). -/
def called (b : Bound) (c : Client) : Bound :=
  { b with client := c, sent := b.sent ++ (c.wire.drop b.client.wire.length).map fun f => (b.remote, f) }

/-- One event (client/knxnet_ip.py:88-145): a datagram from elsewhere than the remote endpoint is not given to the socket, which
is connected (client/knxnet_ip.py:160); `datagram_received` does not look at the sender (113). -/
def step (b : Bound) : Event → Bound
  | .made => b.called (Client.step b.client .made)
  | .lost => b.called (Client.step b.client .lost)
  | .arrives sender data => if sender = b.remote then b.called (Client.step b.client (.datagram data)) else b
  | .write m => b.called (Client.step b.client (.write m))

/-- A sequence of events (client/knxnet_ip.py:88-145). -/
def run (b : Bound) (es : List Event) : Bound := es.foldl step b

/-- `Tunneling.__init__` and `start_tunneling` (client/knxnet_ip.py:68-86, 148-162). -/
def init (localAddr : BitVec 32) (localPort : Int) (remote : Endpoint) (s : State) : Bound :=
  { client := Client.init localAddr localPort s, remote := remote }

end Bound
end Knx
