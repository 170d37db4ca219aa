import Verif.Spec.TimedNet

/-! # Specification: a network that may lose and reorder datagrams -/

namespace Knx.Spec

/-- What can happen: what can happen on a network that neither loses nor reorders datagrams, or a datagram on its way overtakes
the others or is lost. -/
inductive LossyEvent
  | event (e : TimedEvent)
  | overtakeUp (i : Nat)
  | overtakeDown (i : Nat)
  | loseUp (i : Nat)
  | loseDown (i : Nat)
  deriving DecidableEq, Repr

/-- One event at a time; time does not go back. -/
def TimedNet.lossy (w : TimedNet) (x : Nat × LossyEvent) : TimedNet :=
  match x.2 with
  | .event e => w.step (x.1, e)
  | .overtakeUp i => if x.1 < w.now then w else { w with up := w.up[i]?.toList ++ w.up.eraseIdx i, now := x.1 }
  | .overtakeDown i => if x.1 < w.now then w else { w with down := w.down[i]?.toList ++ w.down.eraseIdx i, now := x.1 }
  | .loseUp i => if x.1 < w.now then w else { w with up := w.up.eraseIdx i, now := x.1 }
  | .loseDown i => if x.1 < w.now then w else { w with down := w.down.eraseIdx i, now := x.1 }

/-- The events one after the other. -/
def TimedNet.lossyRun (w : TimedNet) (es : List (Nat × LossyEvent)) : TimedNet := es.foldl TimedNet.lossy w

/-- Nothing happens while a datagram is more than `D` milliseconds on its way, or while the program is more than `δ`
milliseconds late. -/
def PromptLossy (D δ : Nat) : TimedNet → List (Nat × LossyEvent) → Prop
  | _, [] => True
  | w, x :: es => (w.now ≤ x.1 → (∀ d ∈ w.up ++ w.down, x.1 ≤ d.1 + D) ∧
      (w.program.running = true → x.1 ≤ w.program.due + δ)) ∧ PromptLossy D δ (w.lossy x) es

/-- What the program receives besides the answers of the server: neither acknowledgements nor anything about the connection. -/
def BesidesLossy : LossyEvent → Prop
  | .event e => Besides e
  | _ => True

def LossyEvent.isLoss : LossyEvent → Bool
  | .loseUp _ => true
  | .loseDown _ => true
  | _ => false

/-- How many datagrams are lost. -/
def losses (es : List (Nat × LossyEvent)) : Nat := es.countP fun x => x.2.isLoss

end Knx.Spec
