import Verif.Model.Daemon

/-!
# The daemon as a process (daemon/usbhid.c): its loop around `select`, and what the kernel answers

The descriptors 0, 1 and 2 are open when the daemon starts and nothing else is, so the listening socket gets descriptor
3 and the device descriptor 4 (usbhid.c:212, 218). The behaviour of sockets is that of TCP on Linux.
-/

namespace Knx
namespace Daemon

/-- The listening socket (usbhid.c:212). -/
def sockFd : Nat := 3

/-- The device (usbhid.c:218). -/
def deviceFd : Nat := 4

/-- `FD_SETSIZE` (usbhid.c:231, 236; 1024 in glibc). -/
def fdSetSize : Nat := 1024

/-- What the kernel limits: the number of descriptors of a process, and the characters that may be under way to a client
that does not read them (usbhid.c:166, 243). -/
structure Limits where
  descriptors : Nat
  buffer : Nat
  deriving DecidableEq, Repr

/-- The other end of a connection: open, closed in order, or reset (usbhid.c:134, 166). -/
inductive Peer
  | up
  | closed
  | reset
  deriving DecidableEq, Repr

/-- A connection of the daemon as the kernel sees it (usbhid.c:134, 166): the descriptor, the characters received and not
yet read, the other end, whether something was written after the other end had been closed, whether an error is still
to be reported, and how many characters are under way. -/
structure Conn where
  fd : Nat
  input : List Char := []
  peer : Peer := .up
  poked : Bool := false
  error : Bool := false
  unread : Nat := 0
  deriving DecidableEq, Repr

/-- How the process ended: by `exit` or by the signal for writing to a broken connection, which the daemon does not
handle (usbhid.c:55, 71, 166, 233, 246). -/
inductive Stop
  | exited
  | killed
  deriving DecidableEq, Repr

/-- The process and the kernel: the variables of the daemon (usbhid.c:186, 219-227); the descriptors in `read_fd_set` that
the loop has not come to (236); the text being written to clients and the clients it is still to be written to
(260-264); the connections waiting to be accepted; the reports the device holds; whether the device has been
removed; the connections; whether the process has ended; and whether `FD_SET` was used outside its set (251). `wrote` and
`trace` are added: the writes to clients that have been done, and the events of the loop so far. -/
structure Sys where
  d : Dmn
  todo : List Nat := []
  writing : Option (List Char × List Nat) := none
  backlog : Nat := 0
  reports : List (List Byte) := []
  unplugged : Bool := false
  conns : List Conn := []
  stopped : Option Stop := none
  wild : Bool := false
  wrote : List (Nat × List Char) := []
  trace : List Event := []
  deriving DecidableEq, Repr

namespace Sys

/-- The system when the loop starts (usbhid.c:219-229). -/
def start (packet : List Byte) : Sys := { d := init packet }

/-- The connection with a descriptor (usbhid.c:134, 166). -/
def conn (s : Sys) (fd : Nat) : Option Conn := s.conns.find? fun c => decide (c.fd = fd)

/-- Changing the connection with a descriptor (usbhid.c:134, 166). -/
def update (s : Sys) (fd : Nat) (f : Conn → Conn) : Sys :=
  { s with conns := s.conns.map fun c => if c.fd = fd then f c else c }

/-- Whether reading from a connection does not block (usbhid.c:232): there is input, or the other end is gone. -/
def Conn.ready (c : Conn) : Bool := decide (c.input ≠ [] ∨ c.peer ≠ .up)

/-- Whether `select` finds a descriptor of `active_fd_set` ready (usbhid.c:221-223, 231-232). -/
def ready (s : Sys) (i : Nat) : Bool :=
  if i = sockFd then decide (0 < s.backlog)
  else if i = deviceFd then decide (s.reports ≠ []) || s.unplugged
  else decide (i ∈ s.d.active) && (s.conns.any fun c => decide (c.fd = i) && Conn.ready c)

/-- The descriptor `accept` returns (usbhid.c:242-243): the lowest one not in use, if the limit allows. -/
def freeFd (l : Limits) (s : Sys) : Option Nat :=
  (List.range l.descriptors).find? fun fd => decide (deviceFd < fd ∧ ∀ c ∈ s.conns, c.fd ≠ fd)

/-- `accept` and what follows (usbhid.c:238-257). -/
def acceptOne (zx : Option Byte) (l : Limits) (s : Sys) : Sys :=
  match s.freeFd l with
  | none => { s with stopped := some .exited }
  | some fd =>
    { s with
      d := step zx s.d (.accept fd)
      trace := s.trace ++ [.accept fd]
      backlog := s.backlog - 1
      conns := { fd := fd } :: s.conns
      wild := s.wild || decide (fdSetSize ≤ fd) }

/-- Reading a report; writing it to the clients begins (usbhid.c:48-63, 258-264). -/
def reportOne (zx : Option Byte) (s : Sys) : Sys :=
  if s.unplugged then { s with stopped := some .exited }
  else
    match s.reports with
    | [] => s
    | data :: rest =>
      { s with
        d := step zx s.d (.report data)
        trace := s.trace ++ [.report data]
        reports := rest
        writing := some (clientText (overwrite data s.d.packet) data.length,
          (s.d.slots.filterMap id).filter fun fd => decide (0 < fd)) }

/-- What `read` returns on a connection that is ready (usbhid.c:134): at most `packetLen * 2 + 1` characters of those
received; if there are none, an error if one is to be reported, and end of file otherwise. -/
def readResult (c : Conn) : Option (List Char) :=
  if c.input ≠ [] then some (c.input.take (packetLen * 2 + 1)) else if c.error then none else some []

/-- Reading from a client, and writing to the device or closing the connection (usbhid.c:265-277). `stale` is what lies in
memory behind the text. Writing to a device that has been removed fails. -/
def inputOne (zx : Option Byte) (stale : List Char) (s : Sys) (fd : Nat) : Sys :=
  match s.conn fd with
  | none => s
  | some c =>
    let e := Event.input fd (readResult c) stale
    if c.input ≠ [] then
      if s.unplugged then { s with stopped := some .exited }
      else
        { (s.update fd fun c => { c with input := c.input.drop (packetLen * 2 + 1) }) with
          d := step zx s.d e
          trace := s.trace ++ [e] }
    else
      { s with
        d := step zx s.d e
        trace := s.trace ++ [e]
        conns := s.conns.filter fun c => decide (c.fd ≠ fd) }

/-- The `write` of `write_to_client` (usbhid.c:166), whose result is ignored; `none` if it blocks. The connection takes
the characters if they fit. One that was reset reports its error, if it has one, and after that the process gets the
signal. -/
def writeOne (l : Limits) (s : Sys) (text : List Char) (fd : Nat) (fds : List Nat) : Option Sys :=
  let s' := { s with writing := some (text, fds), wrote := s.wrote ++ [(fd, text)] }
  match s.conn fd with
  | none => some s'
  | some c =>
    match c.peer with
    | .up =>
      if c.unread + text.length ≤ l.buffer then
        some (s'.update fd fun c => { c with unread := c.unread + text.length })
      else none
    | .closed =>
      if c.unread + text.length ≤ l.buffer then
        some (s'.update fd fun c => { c with unread := c.unread + text.length, poked := true })
      else none
    | .reset =>
      if c.error then some (s'.update fd fun c => { c with error := false }) else some { s with stopped := some .killed }

/-- The next step of the daemon (usbhid.c:229-281), `none` if there is none: the process has ended, it waits in `select`,
or it is blocked in `write`. -/
def daemon (zx : Option Byte) (l : Limits) (stale : List Char) (s : Sys) : Option Sys :=
  if s.stopped ≠ none then none
  else
    match s.writing with
    | some (_, []) => some { s with writing := none }
    | some (text, fd :: fds) => writeOne l s text fd fds
    | none =>
      match s.todo with
      | [] =>
        match (List.range fdSetSize).filter s.ready with
        | [] => none
        | todo => some { s with todo := todo }
      | i :: rest =>
        let s := { s with todo := rest }
        if i = sockFd then some (s.acceptOne zx l)
        else if i = deviceFd then some (s.reportOne zx)
        else some (s.inputOne zx stale i)

/-- What can happen: a connection is asked for; a client sends, closes, resets or reads; the device has a report or is
removed; the daemon does its next step, if it can (usbhid.c:229-281). -/
inductive Act
  | connect
  | send (fd : Nat) (text : List Char)
  | close (fd : Nat)
  | reset (fd : Nat)
  | read (fd : Nat) (n : Nat)
  | report (data : List Byte)
  | unplug
  | daemon (stale : List Char)
  deriving DecidableEq, Repr

/-- A reset: one that comes while the other end is open is an error to be reported, and one that answers what was
written after it was closed is not (usbhid.c:134, 166; Linux). -/
def Conn.onReset (c : Conn) : Conn :=
  match c.peer with
  | .up => { c with peer := .reset, error := true }
  | .closed => if c.poked then { c with peer := .reset } else c
  | .reset => c

/-- One action (usbhid.c:229-281). A report of the device is cut to the length asked for (52). -/
def act (zx : Option Byte) (l : Limits) (s : Sys) : Act → Sys
  | .connect => { s with backlog := s.backlog + 1 }
  | .send fd text => s.update fd fun c => if c.peer = .up then { c with input := c.input ++ text } else c
  | .close fd => s.update fd fun c => if c.peer = .up then { c with peer := .closed } else c
  | .reset fd => s.update fd Conn.onReset
  | .read fd n => s.update fd fun c => { c with unread := c.unread - n }
  | .report data => { s with reports := s.reports ++ [data.take packetLen] }
  | .unplug => { s with unplugged := true }
  | .daemon stale => (s.daemon zx l stale).getD s

/-- A sequence of actions (usbhid.c:229-281). -/
def acts (zx : Option Byte) (l : Limits) (s : Sys) (as : List Act) : Sys := as.foldl (act zx l) s

end Sys
end Daemon
end Knx
