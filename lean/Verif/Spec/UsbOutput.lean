import Verif.Model.UsbOutput
import Verif.Spec.ClientOutput
import Verif.Spec.UsbLog

/-! # Specification: what the USB program prints

From the lines of the decoders (`Spec/DecodeLog.lean`), of the encoders (`Spec/EncodeLog.lean`) and of the client (`Spec/UsbLog.lean`). -/

namespace Knx.Spec

/-- The lines of level ERROR, in order. -/
def errorTexts (lines : List (LogLevel × List Char)) : List (List Char) := (lines.filter fun x => x.1 = .error).map Prod.snd

/-- The line, if any, about what a report was decoded to. -/
def ReadLine (v : Display) (r : Except Err Res) (own : List (LogLevel × List Char)) : Prop :=
  match r with
  | .error _ => own = []
  | .ok r => (∃ line, ShowsRead v.floats v.order r line ∧ own = [(.error, line)]) ∨
      own = [] ∧ ∀ line, ¬ ShowsRead v.floats v.order r line

/-- The line, if any, about a message that was encoded. -/
def WrittenLine (v : Display) (m : InMsg) (r : Except Err Msg) (own : List (LogLevel × List Char)) : Prop :=
  match r with
  | .error _ => own = []
  | .ok _ => (∃ line, ShowsWritten v.floats v.order m line ∧ own = [(.error, line)]) ∨
      own = [] ∧ ∀ line, ¬ ShowsWritten v.floats v.order m line

end Knx.Spec
