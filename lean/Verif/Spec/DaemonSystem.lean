import Verif.Spec.Daemon
import Verif.Model.DaemonSystem

/-! # Specification: what the daemon's clients and its device do -/

namespace Knx.Spec
open Daemon Daemon.Sys

/-- The reports of the device, each as far as the daemon asks for it. -/
def reportsMade : List Act → List (List (BitVec 8))
  | [] => []
  | .report data :: as => data.take 56 :: reportsMade as
  | _ :: as => reportsMade as

/-- The number of connections asked for. -/
def connectsMade : List Act → Nat
  | [] => 0
  | .connect :: as => connectsMade as + 1
  | _ :: as => connectsMade as

/-- The reports a history of the daemon's loop dealt with. -/
def reportsSeen : List Event → List (List (BitVec 8))
  | [] => []
  | .report data :: es => data :: reportsSeen es
  | _ :: es => reportsSeen es

/-- The number of connections a history of the daemon's loop dealt with. -/
def connectsSeen : List Event → Nat
  | [] => 0
  | .accept _ :: es => connectsSeen es + 1
  | _ :: es => connectsSeen es

/-- The process is about to end: it is to write to a connection that was reset and has reported its error; or to accept a
connection when all descriptors are in use; or to use a device that has been removed. -/
def Fatal (l : Limits) (s : Sys) : Prop :=
  (∃ text fd fds, s.writing = some (text, fd :: fds) ∧
    ∃ c ∈ s.conns, c.fd = fd ∧ c.peer = .reset ∧ c.error = false) ∨
  (s.writing = none ∧ (∃ rest, s.todo = 3 :: rest) ∧
    ∀ fd, 5 ≤ fd → fd < l.descriptors → ∃ c ∈ s.conns, c.fd = fd) ∨
  (s.writing = none ∧ s.unplugged = true ∧ ∃ i rest, s.todo = i :: rest ∧
    (i = 4 ∨ ∃ c ∈ s.conns, c.fd = i ∧ c.input ≠ []))

/-- The process is blocked in writing to a client, for which too much is under way. -/
def Blocked (l : Limits) (s : Sys) : Prop :=
  ∃ text fd fds, s.writing = some (text, fd :: fds) ∧
    ∃ c ∈ s.conns, c.fd = fd ∧ c.peer ≠ .reset ∧ l.buffer < c.unread + text.length

/-- Nothing is ready for the process. -/
def Idle (s : Sys) : Prop :=
  s.writing = none ∧ s.todo = [] ∧ s.backlog = 0 ∧ s.reports = [] ∧ s.unplugged = false ∧
    ∀ c ∈ s.conns, c.fd < 1024 → c.input = [] ∧ c.peer = .up

/-- The client with a descriptor does something. -/
def ActOf (fd : Nat) : Act → Prop
  | .send f _ => f = fd
  | .close f => f = fd
  | .reset f => f = fd
  | .read f _ => f = fd
  | _ => False

end Knx.Spec
