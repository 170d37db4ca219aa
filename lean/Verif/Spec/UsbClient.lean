import Verif.Spec.Daemon
import Verif.Spec.Frames
import Verif.Model.UsbClient

/-! # Specification: what the USB client reads and writes -/

namespace Knx.Spec

/-- The text writes the octet strings, each as a line of hexadecimal digits. -/
def HexLines : List (List (BitVec 8)) → List Char → Prop
  | [], text => text = []
  | d :: ds, text => ∃ line rest, HexText line d ∧ text = line ++ '\n' :: rest ∧ HexLines ds rest

/-- All the characters received, in whatever pieces. -/
def textOf (es : List UsbClient.Event) : List Char :=
  es.flatMap fun
    | .received text => text
    | _ => []

/-- The messages the client is told to write. -/
def messagesOf (es : List UsbClient.Event) : List InMsg :=
  es.flatMap fun
    | .write m => [m]
    | _ => []

/-- The reports of the device in a history of the daemon. -/
def reportsOf (es : List Daemon.Event) : List (List (BitVec 8)) :=
  es.flatMap fun
    | .report data => [data]
    | _ => []

/-- All datapoints of the result can be displayed. -/
def Shown (r : Res) : Prop := ∀ k a x d, OutMsg.group k a x d ∈ messages r → Displayable d

/-- In state `s` the octets are decoded to `r`, which can be displayed. -/
def Readable (s : State) (d : List (BitVec 8)) (r : Res) : Prop := (decodeMsg d s).1 = .ok r ∧ Shown r

/-- In state `s` the message is encoded to octets that the line writes in capital letters, and it can be displayed. -/
def Writable (s : State) (m : InMsg) (line : List Char) : Prop :=
  ∃ f x, (encodeMsg m s).1 = .ok f ∧ HexText x f ∧ (∀ c ∈ x, c.isLower = false) ∧ line = x ++ ['\n'] ∧
    ∃ u, Client.formatIn m = .ok u

end Knx.Spec
