import Verif.Model.Msg

/-! # Numbers as text

What `int` does with text, for the `temperatura` of a climate report (knx_stack/datapointtypes.py:585-588). -/

namespace Knx

/-- The code points that `str.isspace` accepts, which `int` skips at both ends (datapointtypes.py:587-588). Simplification:
in text of ASCII characters only, `int` does not skip 28 to 31; text that was repeated is refused with them either way. -/
def spaceCode (n : Nat) : Bool :=
  (9 ≤ n && n ≤ 13) || (28 ≤ n && n ≤ 32) || n == 0x85 || n == 0xA0 || n == 0x1680 || (0x2000 ≤ n && n ≤ 0x200A) ||
    n == 0x2028 || n == 0x2029 || n == 0x202F || n == 0x205F || n == 0x3000

/-- A character that `int` skips at both ends of a text (datapointtypes.py:587-588). -/
def isPySpace (c : Char) : Bool := spaceCode c.toNat

/-- The value of a decimal digit of any script (datapointtypes.py:587-588). -/
def decVal (c : Char) : Option Nat :=
  match intVal c with
  | some v => if v < 10 then some v else none
  | none => none

/-- The digits that `int` finds in a text, which may be grouped by single underscores (datapointtypes.py:587-588); the flag
tells whether there was a digit just before. -/
def numberDigits : Bool → List Char → Option (List Nat)
  | b, [] => if b then some [] else none
  | b, c :: cs =>
    if c = '_' then (if b then numberDigits false cs else none)
    else
      match decVal c with
      | none => none
      | some v =>
        match numberDigits true cs with
        | none => none
        | some vs => some (v :: vs)

/-- The sign that `int` finds, and the text after it (datapointtypes.py:587-588). -/
def signed : List Char → Int × List Char
  | '+' :: u => (1, u)
  | '-' :: u => (-1, u)
  | u => (1, u)

/-- `int(text)` (datapointtypes.py:587-588): `ValueError` for text that is no number, and for more than the 4300 digits
that python 3.11 converts. -/
def pyInt (s : List Char) : Except Err Int :=
  let t := ((s.dropWhile isPySpace).reverse.dropWhile isPySpace).reverse
  let (sign, u) := signed t
  match numberDigits false u with
  | none => .error .valueError
  | some ds => if 4300 < ds.length then .error .valueError else .ok (sign * (ds.foldl (fun n d => 10 * n + d) 0 : Nat))

/-- `text * n` (datapointtypes.py:587-588): the text repeated. -/
def repeated (n : Nat) (s : List Char) : List Char := (List.replicate n s).flatten

end Knx
