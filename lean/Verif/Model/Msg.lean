import Verif.Model.Base
import Verif.Model.Unicode

/-!
# Octet messages (knx_stack/msg.py)
-/

namespace Knx

/-- The value of an ASCII hex digit, for `int(c, 16)` (msg.py:36-39), `bytearray.fromhex` (client/knxnet_ip.py:110) and
`sscanf` (daemon/usbhid.c:149); `none` for other characters. -/
def hexVal (c : Char) : Option Nat :=
  if '0' ≤ c ∧ c ≤ '9' then some (c.toNat - '0'.toNat)
  else if 'a' ≤ c ∧ c ≤ 'f' then some (c.toNat - 'a'.toNat + 10)
  else if 'A' ≤ c ∧ c ≤ 'F' then some (c.toNat - 'A'.toNat + 10)
  else none

/-- `int(c, 16)` for one character (msg.py:36-39), which may be a decimal digit of any script: `none` stands for
`ValueError`. -/
def intVal (c : Char) : Option Nat :=
  match hexVal c with
  | some v => some v
  | none => (decimalZeros.find? fun z => decide (z ≤ c.toNat ∧ c.toNat < z + 10)).map fun z => c.toNat - z

/-- The comprehension `[int(nibble, 16) for index, nibble in enumerate(msg) if <parity of index>]`
(msg.py:36-39), the flag telling whether the current index is selected. -/
def nibbles : Bool → List Char → Except Err (List Nat)
  | _, [] => .ok []
  | true, c :: cs =>
    match intVal c with
    | none => .error .valueError
    | some v =>
      match nibbles false cs with
      | .ok vs => .ok (v :: vs)
      | .error e => .error e
  | false, _ :: cs => nibbles true cs

/-- `Octect(Nibbles(high=h, low=l))` (msg.py:42-44, 89-109). -/
def nibblesOctet (h l : Nat) : Byte := byte (setField 4 4 h (setField 0 4 l 0))

/-- `Msg.stringtooctects` / `Msg.make_from_str` (msg.py:29-48): the high nibbles are parsed first, then the low
nibbles, and `map` stops at the shorter list. -/
def stringToOctets (s : List Char) : Except Err Msg :=
  match nibbles true s with
  | .error e => .error e
  | .ok hi =>
    match nibbles false s with
    | .error e => .error e
    | .ok lo => .ok (List.zipWith nibblesOctet hi lo)

/-- One upper-case hex digit as printed by `%X` (msg.py:85). -/
def hexDigit (n : Nat) : Char :=
  if n < 10 then Char.ofNat ('0'.toNat + n) else Char.ofNat ('A'.toNat + (n - 10))

/-- One lower-case hex digit as printed by `%x` / `bytes.hex()` (client/knxnet_ip.py:115, daemon/usbhid.c:163). -/
def hexDigitLower (n : Nat) : Char :=
  if n < 10 then Char.ofNat ('0'.toNat + n) else Char.ofNat ('a'.toNat + (n - 10))

/-- `Msg.__repr__` (msg.py:82-86): `"%02X"` of every octet, concatenated. -/
def msgRepr (m : Msg) : List Char :=
  m.flatMap fun b => [hexDigit (b.toNat / 16), hexDigit (b.toNat % 16)]

/-- `data.hex()` of received bytes (client/knxnet_ip.py:115) and `"%02x"` (daemon/usbhid.c:163). -/
def hexLower (m : Msg) : List Char :=
  m.flatMap fun b => [hexDigitLower (b.toNat / 16), hexDigitLower (b.toNat % 16)]

/-- `Msg.octect` (msg.py:50-56): `self[0]` raises `IndexError` on an empty message. -/
def octect : Msg → Except Err (Byte × Msg)
  | b :: m => .ok (b, m)
  | [] => .error .indexError

/-- Assembling a `Short` from its two bytes (msg.py:64-66, 115-116). -/
def shortOf (msb lsb : Byte) : Nat := setField 0 8 lsb.toNat (setField 8 8 msb.toNat 0)

/-- `Msg.short` (msg.py:58-67): the value of the `Short` and the rest. -/
def short : Msg → Except Err (Nat × Msg)
  | a :: b :: m => .ok (shortOf a b, m)
  | _ => .error .indexError

/-- Assembling a `Long` from its four bytes (msg.py:75-79, 157-163). -/
def longOf (b4 b3 b2 b1 : Byte) : Nat :=
  setField 0 8 b1.toNat (setField 8 8 b2.toNat (setField 16 8 b3.toNat (setField 24 8 b4.toNat 0)))

/-- `Msg.long` (msg.py:69-80): the value of the `Long` and the rest. -/
def long : Msg → Except Err (Nat × Msg)
  | a :: b :: c :: d :: m => .ok (longOf a b c d, m)
  | _ => .error .indexError

/-- `Short(value=n).octects` (msg.py:119-151): `[MSB, LSB]`. -/
def shortOctets (n : Int) : Msg :=
  [byte (getField 8 8 (trunc 16 n)), byte (getField 0 8 (trunc 16 n))]

/-- `Long(value=n).octects` (msg.py:166-202): `[B4, B3, B2, B1]`. -/
def longOctets (n : Int) : Msg :=
  [byte (getField 24 8 (trunc 32 n)), byte (getField 16 8 (trunc 32 n)),
   byte (getField 8 8 (trunc 32 n)), byte (getField 0 8 (trunc 32 n))]

/-- `Octect(value=n)` for an arbitrary python int (msg.py:93-109). -/
def octetOf (n : Int) : Byte := byte (trunc 8 n)

end Knx
