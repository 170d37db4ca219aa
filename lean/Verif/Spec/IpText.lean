import Verif.Spec.Texts

/-! # Specification: IP addresses as text

Written without the functions of the model. -/

namespace Knx.Spec

/-- The octal digits and their values. -/
def octTable : List (Char × Nat) :=
  [('0', 0), ('1', 1), ('2', 2), ('3', 3), ('4', 4), ('5', 5), ('6', 6), ('7', 7)]

/-- `l` is `n` written as in C: decimal digits of which the first is not 0, or octal digits of which the first is 0, or
`0x` and hexadecimal digits. -/
def CNumber (l : List Char) (n : Nat) : Prop :=
  (Digits decTable 10 l n ∧ l.head? ≠ some '0') ∨ (Digits octTable 8 l n ∧ l.head? = some '0') ∨
    ∃ x r, l = '0' :: x :: r ∧ (x = 'x' ∨ x = 'X') ∧ Digits hexTable 16 r n

/-- `l` are at most four numbers separated by dots; all but the last one are octets of the address, the last one fills the
remaining octets. -/
def Dotted (l : List Char) (a : Nat) : Prop :=
  (∃ p n, CNumber p n ∧ n < 2 ^ 32 ∧ l = p ∧ a = n) ∨
  (∃ p q n m, CNumber p n ∧ CNumber q m ∧ n < 2 ^ 8 ∧ m < 2 ^ 24 ∧ l = p ++ '.' :: q ∧ a = 2 ^ 24 * n + m) ∨
  (∃ p q r n m k, CNumber p n ∧ CNumber q m ∧ CNumber r k ∧ n < 2 ^ 8 ∧ m < 2 ^ 8 ∧ k < 2 ^ 16 ∧
    l = p ++ '.' :: q ++ '.' :: r ∧ a = 2 ^ 24 * n + 2 ^ 16 * m + k) ∨
  ∃ p q r s n m k j, CNumber p n ∧ CNumber q m ∧ CNumber r k ∧ CNumber s j ∧ n < 2 ^ 8 ∧ m < 2 ^ 8 ∧ k < 2 ^ 8 ∧
    j < 2 ^ 8 ∧ l = p ++ '.' :: q ++ '.' :: r ++ '.' :: s ∧ a = 2 ^ 24 * n + 2 ^ 16 * m + 2 ^ 8 * k + j

/-- White space of the C library. -/
def blanks : List Char := [' ', '\t', '\n', '\r', Char.ofNat 11, Char.ofNat 12]

/-- What may follow an address: nothing, or white space and anything. -/
def Trailer (l : List Char) : Prop := ∀ c ∈ l.head?, c ∈ blanks

/-- The address that everybody writes: four decimal octets without leading zeros. -/
def Quad (l : List Char) (a : Nat) : Prop :=
  ∃ p q r s n m k j, Decimal p n ∧ Decimal q m ∧ Decimal r k ∧ Decimal s j ∧ n < 256 ∧ m < 256 ∧ k < 256 ∧ j < 256 ∧
    l = p ++ '.' :: q ++ '.' :: r ++ '.' :: s ∧ a = 2 ^ 24 * n + 2 ^ 16 * m + 2 ^ 8 * k + j

end Knx.Spec
