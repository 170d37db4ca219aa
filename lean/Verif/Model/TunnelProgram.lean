import Verif.Model.Client

/-!
# The tunnelling client as a program (knx_stack/client/knxnet_ip.py:137-145, 164-212)

The program of client/knxnet_ip.py with its clock: the coroutine `writer` sleeps between its rounds, and while it sleeps the
event loop calls the methods of the client. Times are in milliseconds.
-/

namespace Knx

/-- Where the coroutine `writer` is (client/knxnet_ip.py:137-145): asleep in the loop waiting for the connection (138-139),
asleep in the loop over the messages with some left (140-144), past `stop` (145), or left by an exception, which
`run_until_complete` passes on so that the program ends (210). -/
inductive Writer
  | waiting
  | sending (rest : List InMsg)
  | stopped
  | failed (e : Err)
  deriving DecidableEq, Repr

/-- The running program (client/knxnet_ip.py:137-145, 210): the client, the messages to write, where `writer` is and when its
sleep is over. Observations are added that python does not store: the time of the last event, the messages written with
their times, the datagrams sent with their times, and the time at which `connected` was set first. -/
structure Program where
  client : Client
  msgs : List InMsg
  writer : Writer
  due : Nat
  now : Nat
  wrote : List (Nat × InMsg) := []
  sent : List (Nat × Msg) := []
  since : Option Nat := none
  deriving DecidableEq, Repr

namespace Program

/-- Whether the event loop is running (client/knxnet_ip.py:145, 210). -/
def running (p : Program) : Bool :=
  match p.writer with
  | .waiting | .sending _ => true
  | .stopped | .failed _ => false

/-- A method of the client has been called at a time (client/knxnet_ip.py:88-135, 140-143): the new client, and what is
observed of the call. -/
def called (p : Program) (t : Nat) (c : Client) : Program :=
  { p with
    client := c
    now := t
    sent := p.sent ++ (c.wire.drop p.client.wire.length).map (fun f => (t, f))
    since := if p.since = none ∧ c.connected then some t else p.since }

/-- The loop of `writer` over the messages (client/knxnet_ip.py:140-145): one message and the sleep of three seconds, or
the end. -/
def round (p : Program) (t : Nat) : List InMsg → Program
  | [] => { p with writer := .stopped, now := t }
  | m :: rest =>
    match Client.write m p.client with
    | (.error e, c) => { p.called t c with writer := .failed e }
    | (.ok _, c) => { p.called t c with writer := .sending rest, due := t + 3000, wrote := p.wrote ++ [(t, m)] }

/-- `writer` continues after a sleep (client/knxnet_ip.py:137-145). -/
def wake (p : Program) (t : Nat) : Program :=
  match p.writer with
  | .waiting => if p.client.connected then p.round t p.msgs else { p with due := t + 1000, now := t }
  | .sending rest => p.round t rest
  | .stopped | .failed _ => p

/-- What the event loop can do while `writer` sleeps (client/knxnet_ip.py:88-145): call the client with a datagram, tell it
that the transport is closed, or continue `writer`. -/
inductive Tick
  | datagram (data : Msg)
  | lost
  | wake
  deriving DecidableEq, Repr

/-- One event at a time (client/knxnet_ip.py:88-145, 210). Time does not go back, a sleep is never cut short, and nothing
happens once the event loop has ended. Exceptions raised by the methods of the client are reported by asyncio and do not
stop the program; those raised by `writer` do. -/
def step (p : Program) (x : Nat × Tick) : Program :=
  if p.running && p.now ≤ x.1 then
    match x.2 with
    | .datagram d => p.called x.1 (Client.step p.client (.datagram d))
    | .lost => p.called x.1 (Client.step p.client .lost)
    | .wake => if p.due ≤ x.1 then p.wake x.1 else { p with now := x.1 }
  else p

/-- The events of the event loop, one after the other (client/knxnet_ip.py:210). -/
def run (p : Program) (es : List (Nat × Tick)) : Program := es.foldl step p

/-- The program when `writer` is about to start (client/knxnet_ip.py:204-210): the endpoint has been created, so that
`connection_made` has been called. -/
def start (addr : BitVec 32) (port : Int) (s : State) (msgs : List InMsg) (t : Nat) : Program :=
  let c := Client.init addr port s
  { client := c, msgs := msgs, writer := .waiting, due := t, now := t : Program }.called t (Client.step c .made)

end Program
end Knx
