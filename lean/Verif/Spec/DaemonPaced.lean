import Verif.Spec.DaemonStream

/-! # Specification: clients of the daemon that send line by line -/

namespace Knx.Spec
open Daemon Daemon.Sys

/-- The pieces in which a history of the daemon's loop reads from a descriptor. -/
def piecesRead (fd : Nat) : List Event → List (List Char)
  | [] => []
  | .input f (some text) _ :: es => if f = fd then text :: piecesRead fd es else piecesRead fd es
  | _ :: es => piecesRead fd es

/-- The pieces a client sends on a connection until it closes or resets it, if it has not done so before. -/
def piecesSent (fd : Nat) : Bool → List Act → List (List Char)
  | _, [] => []
  | true, .send f text :: as => if f = fd then text :: piecesSent fd true as else piecesSent fd true as
  | true, .close f :: as => piecesSent fd (decide (f ≠ fd)) as
  | true, .reset f :: as => piecesSent fd (decide (f ≠ fd)) as
  | b, _ :: as => piecesSent fd b as

/-- All that a history of the daemon's loop reads from clients, each piece with its descriptor, but for the end of
connections. -/
def allRead : List Event → List (Nat × List Char)
  | [] => []
  | .input f (some (c :: text)) _ :: es => (f, c :: text) :: allRead es
  | _ :: es => allRead es

/-- A line for a report. -/
def LineOfReport (text : List Char) : Prop := ∃ line m, HexText line m ∧ m.length ≤ 56 ∧ text = line ++ ['\n']

/-- In the continuation the client with a descriptor sends single lines, and each only when all that it sent before has been
read. -/
def LineByLine (zx : Option (BitVec 8)) (l : Limits) (s : Sys) (fd : Nat) (bs : List Act) : Prop :=
  ∀ bs' text, bs' ++ [.send fd text] <+: bs →
    LineOfReport text ∧ ∀ c ∈ (s.acts zx l bs').conns, c.fd = fd → c.input = []

/-- What has been sent on a connection and is still to be read. -/
def unreadPiece (c : Conn) : List (List Char) := if c.input = [] then [] else [c.input]

/-- A report of full length that begins with the octets of the line, if it is one. -/
def BeginsWith (text : List Char) (report : List (BitVec 8)) : Prop :=
  report.length = 56 ∧ ∀ line m, text = line ++ ['\n'] → HexText line m → m.length ≤ 56 → m <+: report

end Knx.Spec
