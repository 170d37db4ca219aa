import Verif.Model.IpText
import Verif.Model.Remote

/-!
# The discovery program (knx_stack/client/knxnet_ip_discovery.py:137-187)

What the program has done when the event loop has begun to run for ever: the endpoint at which `Listen` receives, the
multicast group joined, and the datagram that `Request` has sent.
-/

namespace Knx

/-- `DISCOVERY_MULTICAST_ADDR` (definition/knxnet_ip/definitions.py:3). -/
def discoveryGroup : List Char := "224.0.23.12".toList

/-- `DISCOVERY_MULTICAST_PORT` (definition/knxnet_ip/definitions.py:4). -/
def discoveryPort : Nat := 3671

/-- What the program has done (client/knxnet_ip_discovery.py:137-159): where it listens, the port at which the requester
receives, the group it has joined, and what it has sent where to. These are observations, python does not store them. -/
structure Discovery where
  listens : Option Endpoint := none
  port : Option Nat := none
  joined : Option (BitVec 32) := none
  sent : List (Endpoint × Msg) := []
  deriving DecidableEq, Repr

/-- `listen_discovery_responses` (client/knxnet_ip_discovery.py:154-159): the address is resolved by `getaddrinfo`, here a
parameter; `gaierror` is an `OSError`. Simplification: the address resolved can be bound. -/
def listenDiscovery (resolve : List Char → Option (BitVec 32)) (addr : List Char) (port : Nat) : Py Discovery Unit := fun d =>
  match resolve addr with
  | none => (.error .osError, d)
  | some a => (.ok (), { d with listens := some (a, port) })

/-- `send_discovery_request` and `Request.connection_made` (client/knxnet_ip_discovery.py:137-151, 44-60). An exception of
`connection_made` is reported by asyncio and does not stop the program. Simplification: the port can be bound. -/
def sendDiscovery (addr : List Char) (port : Nat) : Py Discovery Unit := fun d =>
  let d := { d with port := some discoveryPort }
  match inetAton discoveryGroup with
  | .error e => (.error e, d)
  | .ok group =>
    let d := { d with joined := some group }
    match inetAton addr with
    | .error _ => (.ok (), d)
    | .ok a =>
      match discoveryRequest a port with
      | .error _ => (.ok (), d)
      | .ok m => (.ok (), { d with sent := d.sent ++ [((group, discoveryPort), m)] })

/-- The program (client/knxnet_ip_discovery.py:162-178) up to the loop that runs for ever (181), with `sys.argv`. -/
def discoveryMain (resolve : List Char → Option (BitVec 32)) : List (List Char) → Except Err Unit × Discovery
  | [] => (.ok (), {})
  | name :: _ => Py.bind (listenDiscovery resolve name 5544) (fun _ => sendDiscovery name 5544) {}

end Knx
