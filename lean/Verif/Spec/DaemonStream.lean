import Verif.Spec.DaemonSystem

/-! # Specification: the text that passes the daemon -/

namespace Knx.Spec
open Daemon Daemon.Sys

/-- The text a client sends on a connection until it closes or resets it, if it has not done so before. -/
def textSent (fd : Nat) : Bool → List Act → List Char
  | _, [] => []
  | true, .send f text :: as => if f = fd then text ++ textSent fd true as else textSent fd true as
  | true, .close f :: as => textSent fd (decide (f ≠ fd)) as
  | true, .reset f :: as => textSent fd (decide (f ≠ fd)) as
  | b, _ :: as => textSent fd b as

/-- The text a history of the daemon's loop reads from a descriptor. -/
def textRead (fd : Nat) : List Event → List Char
  | [] => []
  | .input f (some text) _ :: es => if f = fd then text ++ textRead fd es else textRead fd es
  | _ :: es => textRead fd es

/-- The daemon does not close a descriptor. -/
def Kept (fd : Nat) (es : List Event) : Prop :=
  ∀ st, .input fd none st ∉ es ∧ .input fd (some []) st ∉ es

/-- The texts written to a descriptor. -/
def linesTo (fd : Nat) : List (Nat × List Char) → List (List Char)
  | [] => []
  | (f, text) :: l => if f = fd then text :: linesTo fd l else linesTo fd l

/-- The line for a report: two lower case digits for each octet. -/
def ReportLine (data : List (BitVec 8)) (text : List Char) : Prop :=
  ∃ line, HexText line data ∧ (∀ c ∈ line, c.isUpper = false) ∧ text = line ++ ['\n']

end Knx.Spec
