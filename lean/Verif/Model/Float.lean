import Mathlib.Data.Rat.Floor
import Mathlib.Data.Int.Log
import Verif.Model.Base

/-!
# Python floats (IEEE 754 binary64) and ctypes `c_float` (binary32) as rationals
-/

namespace Knx

/-- A python float (IEEE 754 binary64 semantics; used by datapointtypes.py:581-588, 661-692, 765-773).
`fin 0` is `+0.0`; NaN payloads are not distinguished. -/
inductive PyFloat
  | fin (q : ℚ)
  | negZero
  | inf (neg : Bool)
  | nan
  deriving DecidableEq, Repr

/-- Round half to even to an integer: IEEE 754 rounding, and `ROUND_HALF_EVEN` of `decimal`'s default context
(datapointtypes.py:676). -/
def rhe (q : ℚ) : Int :=
  if q - ⌊q⌋ < 1 / 2 then ⌊q⌋
  else if 1 / 2 < q - ⌊q⌋ then ⌊q⌋ + 1
  else if ⌊q⌋ % 2 = 0 then ⌊q⌋ else ⌊q⌋ + 1

/-- Rounding to `p` significant binary digits, no digit below `2^emin` (IEEE 754 round to nearest, ties to even;
used by datapointtypes.py:583-588, 667, 674, 773). -/
def roundBin (p : Nat) (emin : Int) (q : ℚ) : ℚ :=
  if q = 0 then 0
  else
    let e := max (Int.log 2 |q| + 1 - p) emin
    rhe (q / (2 : ℚ) ^ e) * (2 : ℚ) ^ e

/-- The binary64 number nearest to a rational (the result of a python float operation with that exact value;
datapointtypes.py:583-588, 667, 674). -/
def fl64 (q : ℚ) : PyFloat :=
  let r := roundBin 53 (-1074) q
  if (2 : ℚ) ^ (1024 : ℕ) ≤ |r| then .inf (decide (r < 0))
  else if r = 0 ∧ q < 0 then .negZero
  else .fin r

/-- The double written `0.01` (datapointtypes.py:667, 674). -/
def c001 : ℚ := 5764607523034235 / 2 ^ 59

/-- The double with the bits of a `c_float` member (reading `bits` of `DPT_Float_32`, datapointtypes.py:765, 770). -/
def decode32 (raw : Nat) : PyFloat :=
  let neg := getField 31 1 raw == 1
  let e := getField 23 8 raw
  let m := getField 0 23 raw
  if e = 255 then (if m = 0 then .inf neg else .nan)
  else
    let mag : ℚ := if e = 0 then (m : ℚ) * (2 : ℚ) ^ (-149 : Int) else ((2 ^ 23 + m : Nat) : ℚ) * (2 : ℚ) ^ ((e : Int) - 150)
    if neg then (if mag = 0 then .negZero else .fin (-mag)) else .fin mag

/-- The bits of a non-negative binary32 number given as a rational below `2^128` (the C conversion to `float` done
by ctypes when `bits` of `DPT_Float_32` is assigned, datapointtypes.py:773). -/
def mag32 (a : ℚ) : Nat :=
  if a = 0 then 0
  else
    let e := max (Int.log 2 a) (-126)
    let m := ⌊a / (2 : ℚ) ^ (e - 23)⌋.toNat
    if m < 2 ^ 23 then m else (e + 127).toNat * 2 ^ 23 + (m - 2 ^ 23)

/-- The bits stored by assigning a python float to a `c_float` member (datapointtypes.py:772-773). Every NaN is
stored as the quiet NaN `0x7FC00000`. -/
def encode32 : PyFloat → Nat
  | .nan => 0x7FC00000
  | .inf neg => if neg then 0xFF800000 else 0x7F800000
  | .negZero => 0x80000000
  | .fin q =>
    let r := roundBin 24 (-149) q
    let s := if q < 0 then 2 ^ 31 else 0
    if (2 : ℚ) ^ (128 : ℕ) ≤ |r| then s + 0x7F800000 else s + mag32 |r|

/-- `float(n)` of a python int: `OverflowError` when it rounds beyond the largest double (used implicitly by
datapointtypes.py:671-675, 773). -/
def intToFloat (n : Int) : Except Err PyFloat :=
  match fl64 n with
  | .inf _ => .error .overflowError
  | f => .ok f

/-- Division of a float by the double `0.01` (datapointtypes.py:674). -/
def divC001 : PyFloat → PyFloat
  | .fin q => fl64 (q / c001)
  | f => f

/-- `math.copysign(1, value) < 0` (datapointtypes.py:671). Simplification: a NaN counts as positive; it is rejected
later (676) in any case. -/
def PyFloat.signNeg : PyFloat → Bool
  | .fin q => decide (q < 0)
  | .negZero => true
  | .inf n => n
  | .nan => false

/-- `abs(int(round(decimal.Decimal(y), 2)))` (datapointtypes.py:673-676): exact conversion, rounding half even to
two decimals within the 28 digits of the default decimal context (`InvalidOperation` if they do not suffice),
truncation towards zero. -/
def roundMantissa : PyFloat → Except Err Nat
  | .nan => .error .valueError
  | .inf _ => .error .invalidOperation
  | .negZero => .ok 0
  | .fin y =>
    let h := (rhe (100 * y)).natAbs
    if 10 ^ 28 ≤ h then .error .invalidOperation else .ok (h / 100)

/-- The loop `while mantissa > max_mantissa_value` (datapointtypes.py:678-684), returning mantissa and exponent. -/
def normalise (mantissa exp : Nat) : Nat × Nat :=
  if 2047 < mantissa then normalise (mantissa / 2) (exp + 1) else (mantissa, exp)
termination_by mantissa
decreasing_by omega

/-- The `mantissa` property setter (datapointtypes.py:620-623). -/
def setMantissa (m : Nat) (raw : Nat) : Nat :=
  setField 0 8 m (setField 8 3 (m / 2 ^ 8 : Nat) raw)

/-- The `mantissa` property getter (datapointtypes.py:614-618). -/
def getMantissa (raw : Nat) : Nat := getField 8 3 raw * 2 ^ 8 + getField 0 8 raw

/-- `DPT_Float_16.twos_comp(val, 11)` (datapointtypes.py:694-698). -/
def twosComp (val : Nat) : Nat := ((2 ^ 11 - 1 : Int) - val).natAbs + 1

/-- `DPT_Float_16.decode` (datapointtypes.py:661-668): one rounded multiplication by the double `0.01`; the
multiplications by the sign and by the power of two are rounded as well. -/
def decode16 (raw : Nat) : PyFloat :=
  let m := if getField 15 1 raw = 0 then getMantissa raw else twosComp (getMantissa raw)
  match fl64 (c001 * m) with
  | .fin p =>
    let q := if getField 15 1 raw = 0 then p else -p
    fl64 (q * 2 ^ getField 11 4 raw)
  | f => f

/-- The assignments at the end of `DPT_Float_16.encode` (datapointtypes.py:688-692), on the raw value. -/
def store16 (neg : Bool) (m exp : Nat) (raw : Nat) : Nat :=
  let raw1 := setField 11 4 exp raw
  let m' := if neg then 2 ^ 11 - m else m
  let raw2 := setMantissa m' raw1
  setField 15 1 (if neg then 1 else 0) raw2

/-- `DPT_Float_16.encode` of a float argument (datapointtypes.py:670-692), mutating the raw value. -/
def encode16Float (v : PyFloat) : Py Nat Unit :=
  Py.bind (Py.lift (roundMantissa (divC001 v))) fun m0 =>
    let (m, exp) := normalise m0 0
    if exp > 15 then Py.raise .exception
    else Py.modify (store16 v.signNeg m exp)

end Knx
