import Verif.Model.RequestTexts
import Verif.Model.UsbClient

/-!
# The log of the USB client (knx_stack/client/usbhid.py)

The client of Model/UsbClient.lean with its calls of `logger.error`, each of which makes a line of the log.
-/

namespace Knx

/-- `{}` of what `decode_msg` returned (client/usbhid.py:91). Simplification: the pair for an acknowledgement is shown as the list in
it; there are no acknowledgements on USB. -/
def Res.text (fr : PyFloat → List Char) (order : DptClass → List DptProp) : Res → Except Err (List Char)
  | .list l | .tuple l => listText fr order l
  | .none => .ok "None".toList

/-- The client and the lines it has logged (client/usbhid.py:73, 82, 91). -/
structure LoggedUsb where
  usb : UsbClient
  log : List (List Char) := []
  deriving DecidableEq, Repr

namespace LoggedUsb

/-- One round of `_knx_read` for what `readline` returned (client/usbhid.py:86-91, 96-98). -/
def readOne (fr : PyFloat → List Char) (order : DptClass → List DptProp) (c : LoggedUsb) (line : List Char) : LoggedUsb :=
  if c.usb.reading then
    match stringToOctets line.dropLast with
    | .error _ => { c with usb := { c.usb with reading := false } }
    | .ok msg =>
      match decodeMsg msg c.usb.state with
      | (.error _, s) => { c with usb := { c.usb with state := s, reading := false } }
      | (.ok r, s) =>
        match r.text fr order with
        | .error _ => { c with usb := { c.usb with state := s, reading := false } }
        | .ok t => ⟨{ c.usb with state := s, seen := c.usb.seen ++ [r] }, c.log ++ ["read ".toList ++ t]⟩
  else c

/-- Characters arrive (client/usbhid.py:86-91, 96-98). -/
def received (fr : PyFloat → List Char) (order : DptClass → List DptProp) (c : LoggedUsb) (text : List Char) : LoggedUsb :=
  match UsbClient.splitLines [] (c.usb.buffer ++ text) with
  | (ls, rest) =>
    let d := ls.foldl (readOne fr order) c
    { d with usb := { d.usb with buffer := rest } }

/-- The daemon has closed the connection (client/usbhid.py:97). -/
def closed (fr : PyFloat → List Char) (order : DptClass → List DptProp) (c : LoggedUsb) : LoggedUsb :=
  let d := readOne fr order (readOne fr order c c.usb.buffer) []
  { d with usb := { d.usb with buffer := [] } }

/-- One round of `_knx_write` (client/usbhid.py:78-83): the message is logged after the line was written. -/
def write (fr : PyFloat → List Char) (order : DptClass → List DptProp) (c : LoggedUsb) (m : InMsg) : LoggedUsb :=
  if c.usb.writing then
    match usbWriteLine m c.usb.state with
    | (.error _, s) => { c with usb := { c.usb with state := s, writing := false } }
    | (.ok line, s) =>
      match m.text fr order with
      | .error _ => { c with usb := { c.usb with state := s, written := c.usb.written ++ [line], writing := false } }
      | .ok t => ⟨{ c.usb with state := s, written := c.usb.written ++ [line] }, c.log ++ ["written ".toList ++ t]⟩
  else c

/-- One event (client/usbhid.py:78-98). -/
def step (fr : PyFloat → List Char) (order : DptClass → List DptProp) (c : LoggedUsb) : UsbClient.Event → LoggedUsb
  | .received text => c.received fr order text
  | .closed => c.closed fr order
  | .write m => c.write fr order m
  | .finish => { c with usb := c.usb.finish }

/-- A sequence of events (client/usbhid.py:78-101). -/
def run (fr : PyFloat → List Char) (order : DptClass → List DptProp) (c : LoggedUsb) (es : List UsbClient.Event) : LoggedUsb :=
  es.foldl (step fr order) c

end LoggedUsb
end Knx
