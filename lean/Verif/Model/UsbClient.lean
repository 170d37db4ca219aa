import Verif.Model.Client

/-!
# The USB client as a program (knx_stack/client/usbhid.py)

The client runs two tasks, one that writes its messages and one that reads. A task that raises ends; nothing starts it
again.
-/

namespace Knx

/-- `Client` (client/usbhid.py:58-76) once the connection to the daemon is open: the state, the characters received but
not yet read (the buffer of asyncio's stream reader), and whether the two tasks are still running. Two observations are
added: the lines written and what the read task logged. Simplifications: characters that are not ASCII and lines longer
than the reader's limit of 65536 are not modelled; the daemon sends neither. -/
structure UsbClient where
  state : State
  buffer : List Char := []
  reading : Bool := true
  writing : Bool := true
  written : List (List Char) := []
  seen : List Res := []
  deriving DecidableEq, Repr

namespace UsbClient

/-- One round of `_knx_read` for what `readline` returned (client/usbhid.py:86-91, 96-98). -/
def readOne (c : UsbClient) (line : List Char) : UsbClient :=
  if c.reading then
    match usbReadLine line c.state with
    | (.ok r, s) => { c with state := s, seen := c.seen ++ [r] }
    | (.error _, s) => { c with state := s, reading := false }
  else c

/-- The lines `readline` (client/usbhid.py:97) finds in a buffer, each with its line end, and the rest; `acc` is the
beginning of the current line, reversed. -/
def splitLines (acc : List Char) : List Char → List (List Char) × List Char
  | [] => ([], acc.reverse)
  | ch :: cs =>
    if ch = '\n' then
      match splitLines [] cs with
      | (ls, rest) => ((ch :: acc).reverse :: ls, rest)
    else splitLines (ch :: acc) cs

/-- Characters arrive: the read task reads the lines that are complete now (client/usbhid.py:86-91, 96-98). -/
def received (c : UsbClient) (text : List Char) : UsbClient :=
  match splitLines [] (c.buffer ++ text) with
  | (ls, rest) => { ls.foldl readOne c with buffer := rest }

/-- The daemon has closed the connection: `readline` returns what is left without line end, then the empty text
(client/usbhid.py:97). Simplification: were the empty text decoded without an exception (it never is, `c65_closed`) the
task would go on reading it. -/
def closed (c : UsbClient) : UsbClient := { readOne (readOne c c.buffer) [] with buffer := [] }

/-- One round of `_knx_write` (client/usbhid.py:78-83): the message is formatted for the log after the line was written
(82). -/
def write (c : UsbClient) (m : InMsg) : UsbClient :=
  if c.writing then
    match usbWriteLine m c.state with
    | (.error _, s) => { c with state := s, writing := false }
    | (.ok line, s) =>
      match Client.formatIn m with
      | .error _ => { c with state := s, written := c.written ++ [line], writing := false }
      | .ok _ => { c with state := s, written := c.written ++ [line] }
  else c

/-- After the last message the write task stops the event loop, if it got that far, and with it both tasks
(client/usbhid.py:84). -/
def finish (c : UsbClient) : UsbClient := if c.writing then { c with reading := false, writing := false } else c

/-- What can happen to the client (client/usbhid.py:78-98). -/
inductive Event
  | received (text : List Char)
  | closed
  | write (m : InMsg)
  | finish
  deriving DecidableEq, Repr

/-- One event (client/usbhid.py:78-98). -/
def step (c : UsbClient) : Event → UsbClient
  | .received text => c.received text
  | .closed => c.closed
  | .write m => c.write m
  | .finish => c.finish

/-- A sequence of events (client/usbhid.py:78-101). -/
def run (c : UsbClient) (es : List Event) : UsbClient := es.foldl step c

end UsbClient
end Knx
