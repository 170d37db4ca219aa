import Verif.Model.EncodeLog
import Verif.Model.UsbLog

/-!
# What the USB program prints (knx_stack/client/usbhid.py)

The USB client with all lines that are logged for it: its own, those of the decoders and those of the encoders. The main part gives the
root logger the level DEBUG and a handler that prints the text of every line to stdout (106-109), so that all are printed. Not modelled:
the lines that asyncio logs.
-/

namespace Knx

/-- The client and all lines logged, by level and text (client/usbhid.py:73, 106-109). -/
structure PrintedUsb where
  usb : UsbClient
  lines : List (LogLevel × List Char) := []
  deriving DecidableEq, Repr

namespace PrintedUsb

/-- One round of `_knx_read` for what `readline` returned (client/usbhid.py:86-91, 96-98). -/
def readOne (v : Display) (c : PrintedUsb) (line : List Char) : PrintedUsb :=
  if c.usb.reading then
    match stringToOctets line.dropLast with
    | .error _ => { c with usb := { c.usb with reading := false } }
    | .ok msg =>
      match decodeMsgLog v msg ⟨c.usb.state, []⟩ with
      | (.error _, l) => ⟨{ c.usb with state := l.state, reading := false }, c.lines ++ l.log.map fun x => (x.level, x.text)⟩
      | (.ok r, l) =>
        let lines := c.lines ++ l.log.map fun x => (x.level, x.text)
        match r.text v.floats v.order with
        | .error _ => ⟨{ c.usb with state := l.state, reading := false }, lines⟩
        | .ok t => ⟨{ c.usb with state := l.state, seen := c.usb.seen ++ [r] }, lines ++ [(.error, "read ".toList ++ t)]⟩
  else c

/-- Characters arrive (client/usbhid.py:86-91, 96-98). -/
def received (v : Display) (c : PrintedUsb) (text : List Char) : PrintedUsb :=
  match UsbClient.splitLines [] (c.usb.buffer ++ text) with
  | (ls, rest) =>
    let d := ls.foldl (readOne v) c
    { d with usb := { d.usb with buffer := rest } }

/-- The daemon has closed the connection (client/usbhid.py:97). -/
def closed (v : Display) (c : PrintedUsb) : PrintedUsb :=
  let d := readOne v (readOne v c c.usb.buffer) []
  { d with usb := { d.usb with buffer := [] } }

/-- One round of `_knx_write` (client/usbhid.py:78-83): the message is logged after it was encoded and the line was written. -/
def write (v : Display) (c : PrintedUsb) (m : InMsg) : PrintedUsb :=
  if c.usb.writing then
    match encodeMsgLog m ⟨c.usb.state, []⟩ with
    | (.error _, l) => ⟨{ c.usb with state := l.state, writing := false }, c.lines ++ l.log.map fun x => (x.level, x.text)⟩
    | (.ok f, l) =>
      let lines := c.lines ++ l.log.map fun x => (x.level, x.text)
      let written := c.usb.written ++ [msgRepr f ++ ['\n']]
      match m.text v.floats v.order with
      | .error _ => ⟨{ c.usb with state := l.state, written := written, writing := false }, lines⟩
      | .ok t => ⟨{ c.usb with state := l.state, written := written }, lines ++ [(.error, "written ".toList ++ t)]⟩
  else c

/-- One event (client/usbhid.py:78-98). -/
def step (v : Display) (c : PrintedUsb) : UsbClient.Event → PrintedUsb
  | .received text => c.received v text
  | .closed => c.closed v
  | .write m => c.write v m
  | .finish => { c with usb := c.usb.finish }

/-- A sequence of events (client/usbhid.py:78-101). -/
def run (v : Display) (c : PrintedUsb) (es : List UsbClient.Event) : PrintedUsb := es.foldl (step v) c

end PrintedUsb
end Knx
