import Verif.Spec.Tunnels
import Verif.Spec.TunnelProgram

/-! # Specification: the program, a server, and a network with delays

Independent of the code of the package: KNX standard 03.08.02 "Core", section 7.8, and 03.08.04 "Tunnelling", section 2.6. -/

namespace Knx.Spec

/-- A tunnelling server with one channel: its answer to a connect request, and how it treats tunnelling requests. -/
structure Server where
  welcome : Msg
  gateway : Gateway
  deriving DecidableEq, Repr

/-- A datagram arrives at the server: its new state, and what it sends back. -/
def Server.receive (v : Server) (d : Msg) : Server × List Msg :=
  if OfService 0x02 0x05 d then (v, [v.welcome])
  else ({ v with gateway := (v.gateway.receive d).1 }, (v.gateway.receive d).2)

/-- The program, the server, and the datagrams on their way with the times at which they were sent. -/
structure TimedNet where
  program : Program
  server : Server
  up : List (Nat × Msg)
  down : List (Nat × Msg) := []
  now : Nat
  deriving DecidableEq, Repr

/-- What can happen: the program continues, a datagram arrives and possibly will do so again, or the program receives
something else. -/
inductive TimedEvent
  | wake
  | up (again : Bool)
  | down (again : Bool)
  | other (d : Msg)
  deriving DecidableEq, Repr

/-- The program does something, and what it sends is on its way. -/
def TimedNet.act (w : TimedNet) (t : Nat) (e : Program.Tick) : TimedNet :=
  let p := w.program.step (t, e)
  { w with program := p, up := w.up ++ p.sent.drop w.program.sent.length, now := t }

/-- One event at a time; time does not go back. -/
def TimedNet.step (w : TimedNet) (x : Nat × TimedEvent) : TimedNet :=
  if x.1 < w.now then w
  else
    match x.2 with
    | .wake => w.act x.1 .wake
    | .other d => w.act x.1 (.datagram d)
    | .up again =>
      match w.up with
      | [] => { w with now := x.1 }
      | d :: ds =>
        let r := w.server.receive d.2
        { w with
          server := r.1
          up := if again then d :: ds else ds
          down := w.down ++ r.2.map fun a => (x.1, a)
          now := x.1 }
    | .down again =>
      match w.down with
      | [] => { w with now := x.1 }
      | d :: ds => { w with down := if again then d :: ds else ds }.act x.1 (.datagram d.2)

/-- The events one after the other. -/
def TimedNet.run (w : TimedNet) (es : List (Nat × TimedEvent)) : TimedNet := es.foldl TimedNet.step w

/-- Nothing happens while a datagram is more than `D` milliseconds on its way, or while the program is more than `δ`
milliseconds late. -/
def Prompt (D δ : Nat) : TimedNet → List (Nat × TimedEvent) → Prop
  | _, [] => True
  | w, x :: es => (w.now ≤ x.1 → (∀ d ∈ w.up ++ w.down, x.1 ≤ d.1 + D) ∧
      (w.program.running = true → x.1 ≤ w.program.due + δ)) ∧ Prompt D δ (w.step x) es

/-- What the program receives besides the answers of the server: neither acknowledgements nor anything about the connection. -/
def Besides : TimedEvent → Prop
  | .other d => ackCounter d = none ∧ disconnected d = false ∧ ¬ OfService 0x02 0x06 d
  | _ => True

/-- The frame of a group request of an installation with these tables. -/
def Asks (aA : AssocTable) (gA : GroupObjectTable) : InMsg → Msg → Prop
  | .groupWriteReq asap d, x =>
    ∃ c a, typeIn gA asap.value = some c ∧ SendsTo aA asap a ∧ x = cemi 0x11 [] (writeTelegram a c d.raw)
  | .groupRead asap, x => ∃ a, SendsTo aA asap a ∧ x = cemi 0x11 [] (readTelegram a)
  | _, _ => False

/-- The program has been started, and its connect request is on its way to the server. -/
def begun (addr : BitVec 32) (port : Int) (s : State) (msgs : List InMsg) (v : Server) (t : Nat) : TimedNet :=
  let p := Program.start addr port s msgs t
  { program := p, server := v, up := p.sent, now := t }

end Knx.Spec
