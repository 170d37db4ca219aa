import Verif.Spec.Text
import Verif.Model.Daemon
import Verif.Model.Decode

/-! # Specification: lines, reports and clients of the USB daemon -/

namespace Knx.Spec

/-- The text writes the octets, two hexadecimal digits of either case for each. -/
def HexText : List Char → List (BitVec 8) → Prop
  | [], [] => True
  | c :: d :: s, b :: m => HexDigit c (b.toNat / 16) ∧ HexDigit d (b.toNat % 16) ∧ HexText s m
  | _, _ => False

instance decidableHexText : (s : List Char) → (m : List (BitVec 8)) → Decidable (HexText s m)
  | [], [] => .isTrue trivial
  | [], _ :: _ => .isFalse id
  | [_], _ => .isFalse id
  | _ :: _ :: _, [] => .isFalse id
  | c :: d :: s, b :: m =>
    have := decidableHexText s m
    inferInstanceAs (Decidable (HexDigit c (b.toNat / 16) ∧ HexDigit d (b.toNat % 16) ∧ HexText s m))

/-- What may end a line. -/
def LineEnd (e : List Char) : Prop := e ∈ [[], ['\n'], ['\r'], ['\r', '\n']]

instance (e : List Char) : Decidable (LineEnd e) :=
  inferInstanceAs (Decidable (e ∈ [[], ['\n'], ['\r'], ['\r', '\n']]))

/-- The clients connected after a history that began with the clients `l`: a connection adds its client, end of file or
a read error removes it. -/
def clientsFrom (l : List Nat) : List Daemon.Event → List Nat
  | [] => l
  | .accept fd :: es => clientsFrom (fd :: l) es
  | .input fd none _ :: es => clientsFrom (l.erase fd) es
  | .input fd (some []) _ :: es => clientsFrom (l.erase fd) es
  | .input _ (some (_ :: _)) _ :: es => clientsFrom l es
  | .report _ :: es => clientsFrom l es

/-- The clients connected after a history of the daemon. -/
def clients (es : List Daemon.Event) : List Nat := clientsFrom [] es

/-- The clients in the daemon's table. -/
def inTable (d : Daemon.Dmn) : List Nat := d.slots.filterMap id

/-- The messages of a result of `decode_msg`. -/
def messages : Res → List OutMsg
  | .list l => l
  | .tuple l => l
  | .none => []

/-- White space: space, tabulators, line feed, form feed, carriage return. -/
def space : List Char := [' ', '\t', '\n', Char.ofNat 11, Char.ofNat 12, '\r']

/-- Whether reading two hexadecimal digits from memory looks at position `k`: it looks at the white space, at the first other character
(or the end) and, if this is a sign or a digit, at the one after it. -/
def LooksAt (mem : List Char) (k : Nat) : Prop :=
  (∀ q < k, ∃ c, mem[q]? = some c ∧ c ∈ space) ∨
    ∃ j c, k = j + 1 ∧ mem[j]? = some c ∧ (c = '+' ∨ c = '-' ∨ IsHex c) ∧ ∀ q < j, ∃ b, mem[q]? = some b ∧ b ∈ space

end Knx.Spec
