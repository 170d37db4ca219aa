import Verif.Model.Msg

/-!
# The USB HID daemon (daemon/usbhid.c)
-/

namespace Knx
namespace Daemon

/-- `KNXHIDPACKETLEN` (usbhid.c:16). -/
def packetLen : Nat := 56

/-- `MAX_CLIENTS` and the size of `client_fds` (usbhid.c:19, 186). -/
def maxClients : Nat := 64

/-- The daemon: the packet buffer (allocated once and never cleared, usbhid.c:219), the client table (186, 225-227;
`none` is -1) and the set of watched client descriptors (`active_fd_set` without the listening socket and the
device, 221-223). Three observations are added: `device`, the reports written to the device so far, `sent`, the
texts written to clients so far, and `overflow`, whether a buffer was ever written outside its bounds. -/
structure Dmn where
  packet : List Byte
  slots : List (Option Nat)
  active : List Nat
  device : List (List Byte) := []
  sent : List (Nat × List Char) := []
  overflow : Bool := false
  deriving DecidableEq, Repr

/-- The daemon when the loop starts (usbhid.c:219-227); the packet buffer is uninitialised memory. -/
def init (packet : List Byte) : Dmn :=
  { packet := packet, slots := List.replicate maxClients none, active := [] }

/-- `isspace` in the C locale, as `sscanf` uses it to skip white space (usbhid.c:149; C semantics). -/
def isSpace (c : Char) : Bool :=
  c = ' ' ∨ c = '\t' ∨ c = '\n' ∨ c = Char.ofNat 11 ∨ c = Char.ofNat 12 ∨ c = '\r'

/-- The string that starts at a place in memory: it ends before the first NUL (usbhid.c:149, 153; C semantics). Here it
also ends where the memory that is looked at ends. -/
def cString (mem : List Char) : List Char := mem.takeWhile fun c => decide (c ≠ '\x00')

/-- `sscanf(&buffer[i * 2], "%2hhx", ..)` (usbhid.c:149), applied to the memory from position `2 * i` on: after white
space, at most two characters are taken, which are a sign and a hex digit or one or two hex digits; the number is stored
modulo 256. Nothing is stored if there is no digit. The two characters `0x` are an incomplete number: the C standard
demands that nothing is stored, glibc stores 0; `zx` is what happens. -/
def scan (zx : Option Byte) (mem : List Char) : Option Byte :=
  match (cString mem).dropWhile isSpace with
  | [] => none
  | c :: s =>
    if c = '+' ∨ c = '-' then
      match s with
      | [] => none
      | d :: _ => (hexVal d).map fun v => if c = '-' then byte (256 - v) else byte v
    else
      match hexVal c, s with
      | none, _ => none
      | some h, [] => some (byte h)
      | some h, d :: _ =>
        if c = '0' ∧ (d = 'x' ∨ d = 'X') then zx
        else
          match hexVal d with
          | some l => some (byte (16 * h + l))
          | none => some (byte h)

/-- Dropping one trailing line end (usbhid.c:141-144). On an empty text (after a first line end was dropped) the C
code reads the byte before the buffer; whatever it finds, the function returns 0 without touching the packet, as
it does here. -/
def chomp (s : List Char) : List Char :=
  match s.getLast? with
  | none => s
  | some c => if c = '\n' ∨ c = '\r' then s.dropLast else s

/-- The conversion loop (usbhid.c:148-152) from octet `i` on, `n` octets remaining, the memory given from position
`2 * i` on: the packet is overwritten octet by
octet, also when a later conversion fails. The first flag tells whether all conversions succeeded, the second
whether an octet was stored outside the packet, which has `packetLen` octets (219); such an octet is dropped here. -/
def convert (zx : Option Byte) : Nat → Nat → List Char → List Byte → Bool × Bool × List Byte
  | 0, _, _, packet => (true, false, packet)
  | n + 1, i, s, packet =>
    match scan zx s with
    | none => (false, false, packet)
    | some b =>
      match convert zx n (i + 1) (s.drop 2) (packet.set i b) with
      | (ok, over, packet) => (ok, over || decide (packetLen ≤ i), packet)

/-- `read_from_client` (usbhid.c:130-156) for what `read` returned (`none` is an error, the empty text end of file) and
what was in the memory behind that text, in the buffer and after it, none of which is initialised: the return value,
whether `read` or the conversion wrote outside the buffers (132, 134, 219), and the packet. The conversions work on the
memory, from which dropping line ends removes nothing.
Simplification: printing to stderr (153) is not modelled. -/
def readFromClient (zx : Option Byte) (input : Option (List Char)) (stale : List Char) (packet : List Byte) :
    Int × Bool × List Byte :=
  match input with
  | none => (-1, false, packet)
  | some [] => (-1, false, packet)
  | some s =>
    let outside := decide (packetLen * 2 + 1 < s.length)
    let n := (chomp (chomp s)).length
    if n % 2 ≠ 0 then (0, outside, packet)
    else
      match convert zx (n / 2) 0 (s ++ stale) packet with
      | (true, over, packet) => ((n / 2 : Nat), outside || over, packet)
      | (false, over, packet) => (0, outside || over, packet)

/-- How many characters `sscanf` looks at (usbhid.c:149; C semantics), the end of the string included: white space, one
more, and after a sign or a digit another one. -/
def scanReads (mem : List Char) : Nat :=
  let skipped := ((cString mem).takeWhile isSpace).length
  match (cString mem).dropWhile isSpace with
  | [] => skipped + 1
  | c :: _ => if (c = '+' ∨ c = '-') ∨ hexVal c ≠ none then skipped + 2 else skipped + 1

/-- The positions of the buffer that the conversion loop reads (usbhid.c:148-152), and whether all conversions succeed. -/
def convertReads (zx : Option Byte) : Nat → Nat → List Char → List Int × Bool
  | 0, _, _ => ([], true)
  | n + 1, i, mem =>
    let here := (List.range (scanReads mem)).map fun k => ((2 * i + k : Nat) : Int)
    match scan zx mem with
    | none => (here, false)
    | some _ =>
      match convertReads zx n (i + 1) (mem.drop 2) with
      | (reads, ok) => (here ++ reads, ok)

/-- The positions of the buffer that are read after `read` returned the text (usbhid.c:141-153): by the two tests for a
line end, by the conversions, and by printing the buffer as a string. -/
def readPositions (zx : Option Byte) (text stale : List Char) : List Int :=
  let n := (chomp (chomp text)).length
  let tests := [(text.length : Int) - 1, ((chomp text).length : Int) - 1]
  if n % 2 ≠ 0 then tests
  else
    match convertReads zx (n / 2) 0 (text ++ stale) with
    | (reads, false) => tests ++ reads
    | (reads, true) => tests ++ reads ++ (List.range ((cString (text ++ stale)).length + 1)).map Int.ofNat

/-- `write_to_client` (usbhid.c:158-167): the text for the first `len` octets of the packet. -/
def clientText (packet : List Byte) (len : Nat) : List Char := hexLower (packet.take len) ++ ['\n']

/-- Whether `write_to_client` writes outside its buffer of `packetLen * 2 + 1` characters (usbhid.c:159, 162-165): the
last position written is `len * 2`, by the line end and before that by the terminator of `sprintf`. -/
def clientOverflow (len : Nat) : Bool := decide (packetLen * 2 < len * 2)

/-- Putting a new descriptor in the first free slot, if there is one (usbhid.c:252-257). -/
def fillSlot (fd : Nat) : List (Option Nat) → List (Option Nat)
  | [] => []
  | none :: slots => some fd :: slots
  | some f :: slots => some f :: fillSlot fd slots

/-- Clearing the first slot that holds a descriptor (usbhid.c:270-275). -/
def clearSlot (fd : Nat) : List (Option Nat) → List (Option Nat)
  | [] => []
  | none :: slots => none :: clearSlot fd slots
  | some f :: slots => if f = fd then none :: slots else some f :: clearSlot fd slots

/-- What wakes up `select` (usbhid.c:231-280): a connection, for which the kernel hands out a descriptor; a report of
the device, at most `packetLen` octets long; input on a client's descriptor, with what lies behind it in memory. -/
inductive Event
  | accept (fd : Nat)
  | report (data : List Byte)
  | input (fd : Nat) (text : Option (List Char)) (stale : List Char)
  deriving DecidableEq, Repr

/-- `read` on the device overwrites the front of the packet buffer (usbhid.c:52). -/
def overwrite (data packet : List Byte) : List Byte := data ++ packet.drop data.length

/-- The body of the main loop for one ready descriptor (usbhid.c:237-280). A report longer than the packet would be
read outside its bounds (48-52). Failures of `accept`, `read` and `write` on
the device, which terminate the process, are not modelled. -/
def step (zx : Option Byte) (d : Dmn) : Event → Dmn
  | .accept fd => { d with active := fd :: d.active, slots := fillSlot fd d.slots }
  | .report data =>
    let packet := overwrite data d.packet
    { d with
      packet := packet
      overflow := d.overflow || decide (packetLen < data.length) ||
        (((d.slots.filterMap id).any fun fd => decide (0 < fd)) && clientOverflow data.length)
      sent := d.sent ++ ((d.slots.filterMap id).filter fun fd => decide (0 < fd)).map fun fd => (fd, clientText packet data.length) }
  | .input fd text stale =>
    match readFromClient zx text stale d.packet with
    | (r, over, packet) =>
      if r ≥ 0 then { d with packet := packet, overflow := d.overflow || over, device := d.device ++ [packet.take packetLen] }
      else { d with packet := packet, overflow := d.overflow || over, active := d.active.erase fd, slots := clearSlot fd d.slots }

/-- A sequence of events (usbhid.c:229-281). -/
def run (zx : Option Byte) (d : Dmn) (es : List Event) : Dmn := es.foldl (step zx) d

/-- What the kernel guarantees about an event: a new descriptor is positive (0 is taken) and not open, a read returns
at most as many octets as asked for, and input is reported for watched descriptors only (usbhid.c:52, 134, 231-242). -/
def Possible (d : Dmn) : Event → Prop
  | .accept fd => 0 < fd ∧ fd ∉ d.active
  | .report data => data.length ≤ packetLen
  | .input fd text _ => fd ∈ d.active ∧ ∀ s, text = some s → s.length ≤ packetLen * 2 + 1

/-- A history all of whose events are possible (usbhid.c:229-281). -/
def PossibleAll (zx : Option Byte) (d : Dmn) : List Event → Prop
  | [] => True
  | e :: es => Possible d e ∧ PossibleAll zx (step zx d e) es

end Daemon
end Knx
