import Verif.Spec.Text

/-! # Specification: numbers and tables as text

Written without the functions of the model. -/

namespace Knx.Spec

/-- The decimal digits and their values. -/
def decTable : List (Char × Nat) :=
  [('0', 0), ('1', 1), ('2', 2), ('3', 3), ('4', 4), ('5', 5), ('6', 6), ('7', 7), ('8', 8), ('9', 9)]

/-- The upper-case hexadecimal digits and their values. -/
def upperTable : List (Char × Nat) :=
  decTable ++ [('A', 10), ('B', 11), ('C', 12), ('D', 13), ('E', 14), ('F', 15)]

/-- The digits `l` write the number `n` to the base `b`, each digit being in `table`. -/
inductive Digits (table : List (Char × Nat)) (b : Nat) : List Char → Nat → Prop
  | one {c : Char} {v : Nat} : (c, v) ∈ table → Digits table b [c] v
  | more {l : List Char} {n : Nat} {c : Char} {v : Nat} :
      Digits table b l n → (c, v) ∈ table → Digits table b (l ++ [c]) (n * b + v)

/-- `l` is the decimal notation of `n` without leading zeros. -/
def Decimal (l : List Char) (n : Nat) : Prop := Digits decTable 10 l n ∧ (l.head? = some '0' → l = ['0'])

/-- `l` is the hexadecimal notation of `n` with four upper-case digits. -/
def Hex4 (l : List Char) (n : Nat) : Prop := Digits upperTable 16 l n ∧ l.length = 4

/-- `l` is a text of a group address with the number `n`: the number in hexadecimal, then split into main group (5 bits)
and subgroup (11 bits), then into main group (5 bits), middle group (3 bits) and subgroup (8 bits). -/
def GroupText (l : List Char) (n : Nat) : Prop :=
  ∃ h a b c d e A B C D E, Hex4 h n ∧ Decimal a A ∧ Decimal b B ∧ Decimal c C ∧ Decimal d D ∧ Decimal e E ∧
    B < 2048 ∧ D < 8 ∧ E < 256 ∧ n = 2048 * A + B ∧ n = 2048 * C + 256 * D + E ∧
    l = "(0x".toList ++ h ++ " ".toList ++ a ++ "/".toList ++ b ++ " ".toList ++ c ++ "/".toList ++ d ++ "/".toList ++ e ++
      ")".toList

/-- The lines of a text, each ended by a newline. -/
def unlines (ls : List (List Char)) : List Char := ls.flatMap fun l => l ++ ['\n']

end Knx.Spec
