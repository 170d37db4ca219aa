import Verif.Model.DiscoveryLog
import Verif.Spec.DecodeLog
import Verif.Spec.Discovery
import Verif.Spec.LogTexts
import Verif.Spec.StateText

/-! # Specification: the log of the discovery -/

namespace Knx.Spec

/-- The octets of a datagram, in lower case. -/
def octetsWord (d : Msg) : List Char := (d.flatMap fun b => hexWord 2 b.toNat).map Char.toLower

/-- The wording of a message, unless it has a datapoint without description. -/
def messageWord (v : Display) (m : OutMsg) : Option (List Char) :=
  match datapointOf m with
  | some d => (d.text v.floats v.order).toOption.map fun t => fill (wording t m).1.toList (wording t m).2
  | none => some (fill (wording [] m).1.toList (wording [] m).2)

/-- The wordings of messages. -/
def messagesWord (v : Display) (ms : List OutMsg) : Option (List Char) :=
  (ms.mapM (messageWord v)).map fun ts => fill "[{}]".toList [sepBy ", " ts]

/-- The wording of what `decode_msg` returned, `s` being the state afterwards, which it returns with an acknowledgement. -/
def resultWord (v : Display) (s : State) : Res → Option (List Char)
  | .list ms => messagesWord v ms
  | .tuple ms => (messagesWord v ms).map fun t => fill "({}, {})".toList [t, stateWord v.named (fun _ => false) s]
  | .none => some "None".toList

/-- A line of the discovery. -/
def discoveryLine (level : LogLevel) (pattern : String) (field : List Char) : LogLine :=
  ⟨"client.knxnet_ip_discovery", level, fill pattern.toList [field]⟩

/-- The line about what was decoded, if anything was. -/
def decodedLines (v : Display) (s : State) : Except Err Res → List LogLine
  | .ok r => ((resultWord v s r).map (discoveryLine .info "read decoded: {}")).toList
  | .error _ => []

/-- The lines of the listener for an event, `s` being its state before it. -/
def listenerLines (v : Display) (s : State) : DiscoveryEvent → List LogLine
  | .made t => [discoveryLine .info "Connection made: {}" t]
  | .lost t => [discoveryLine .error "Connection lost: {}" t]
  | .failed t => [discoveryLine .error "Error received: {}" t]
  | .datagram d a =>
    [discoveryLine .info "read    {}" (octetsWord d), discoveryLine .info "read    {}" a] ++ frameLines v s d ++
      decodedLines v (decodeMsg d s).2 (decodeMsg d s).1

/-- The state of the listener after an event: only datagrams change it. -/
def listenerState (s : State) : DiscoveryEvent → State
  | .datagram d _ => (decodeMsg d s).2
  | _ => s

/-- The lines of the listener for events, one after the other. -/
def listenerLog (v : Display) : State → List DiscoveryEvent → List LogLine
  | _, [] => []
  | s, e :: es => listenerLines v s e ++ listenerLog v (listenerState s e) es

/-- The datagrams among events. -/
def datagramsIn (es : List DiscoveryEvent) : List Msg :=
  es.filterMap fun e => match e with | .datagram d _ => some d | _ => none

/-- The lines of the requester for an event, `ip` being the address its text stands for, if it does for one. -/
def requesterLines (ip : Option (BitVec 32)) (port : Int) : DiscoveryEvent → List LogLine
  | .made t => discoveryLine .info "Connection made: {}" t ::
    (ip.map fun ip => discoveryLine .info "encode: {}" ((searchRequest ip port).flatMap fun b => hexWord 2 b.toNat)).toList
  | .lost t => [discoveryLine .error "Connection lost: {}" t]
  | .failed t => [discoveryLine .error "Error received: {}" t]
  | .datagram d a => [discoveryLine .info "read data:    {}" (octetsWord d), discoveryLine .info "read from:    {}" a]

/-- The datagrams sent for an event. -/
def requestsFor (ip : Option (BitVec 32)) (port : Int) : DiscoveryEvent → List Msg
  | .made _ => (ip.map fun ip => searchRequest ip port).toList
  | _ => []

end Knx.Spec
