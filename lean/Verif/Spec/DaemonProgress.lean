import Verif.Spec.DaemonSystem

/-! # Specification: that the daemon goes on -/

namespace Knx.Spec
open Daemon Daemon.Sys

/-- How often the daemon had the opportunity to do its next step. -/
def steps : List Act → Nat
  | [] => 0
  | .daemon _ :: as => steps as + 1
  | _ :: as => steps as

/-- The daemon neither ends nor is blocked by a client at any time of the continuation. -/
def Running (zx : Option (BitVec 8)) (l : Limits) (s : Sys) (bs : List Act) : Prop :=
  ∀ bs', bs' <+: bs → (s.acts zx l bs').stopped = none ∧ ¬ Blocked l (s.acts zx l bs')

/-- Something of the daemon's loop deals with a descriptor: the socket, the device, or the connection of a client. -/
def Serves (i : Nat) : Event → Prop
  | .accept _ => i = 3
  | .report _ => i = 4
  | .input fd _ _ => i = fd

/-- Something waits at a descriptor: a connection asked for, a report of the device, or text or the end of a client. -/
def Waits (s : Sys) (i : Nat) : Prop :=
  (i = 3 ∧ 0 < s.backlog) ∨ (i = 4 ∧ s.reports ≠ []) ∨ ∃ c ∈ s.conns, c.fd = i ∧ (c.input ≠ [] ∨ c.peer ≠ .up)

end Knx.Spec
