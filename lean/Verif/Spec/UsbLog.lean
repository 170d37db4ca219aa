import Verif.Model.UsbLog
import Verif.Spec.LogTexts
import Verif.Spec.UsbClient

/-! # Specification: the log of the USB client -/

namespace Knx.Spec

/-- The line shows what was decoded, every message with its text. -/
def ShowsRead (fr : PyFloat → List Char) (order : DptClass → List DptProp) (r : Res) (line : List Char) : Prop :=
  match r with
  | .none => line = "read None".toList
  | .list l | .tuple l =>
    ∃ ts, List.Forall₂ (fun (m : OutMsg) t => m.text fr order = .ok t) l ts ∧ line = fill "read [{}]".toList [sepBy ", " ts]

/-- The line shows the message. -/
def ShowsWritten (fr : PyFloat → List Char) (order : DptClass → List DptProp) (m : InMsg) (line : List Char) : Prop :=
  ∃ t, m.text fr order = .ok t ∧ line = fill "written {}".toList [t]

/-- The line writes an encoding of the message. -/
def WritesFrame (m : InMsg) (line : List Char) : Prop :=
  ∃ s f, (encodeMsg m s).1 = .ok f ∧ ∃ x, HexText x f ∧ line = x ++ ['\n']

/-- The lines about what was read. -/
def readLines (log : List (List Char)) : List (List Char) := log.filter fun l => l.head? == some 'r'

/-- The lines about what was written. -/
def writtenLines (log : List (List Char)) : List (List Char) := log.filter fun l => l.head? == some 'w'

end Knx.Spec
