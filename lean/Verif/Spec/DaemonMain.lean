import Verif.Model.Msg

/-! # Specification: how the daemon is called -/

namespace Knx.Spec

/-- What is said on the command line: a device, a port, a host, a wish for help, a word without meaning, a long option that is
not known or not clear, or letters other than those for help and for a device. -/
inductive Said
  | device (name : List Char)
  | port (name : List Char)
  | host (name : List Char)
  | help
  | word (w : List Char)
  | vague (w : List Char)
  | letters (cs : List Char)
  deriving DecidableEq, Repr

/-- The argument is what begins an option. -/
def IsOption (a : List Char) : Prop := ∃ c t, a = '-' :: c :: t

/-- How something is said with a long option: with its name, or an abbreviation that fits no other name, and its value
behind an equals sign or as the next argument. -/
inductive LongForm (name : String) (short : String) (v : List Char) : List (List Char) → Prop
  | joined (n : List Char) : short.toList <+: n → n <+: name.toList → LongForm name short v [['-', '-'] ++ n ++ ['='] ++ v]
  | apart (n : List Char) : short.toList <+: n → n <+: name.toList → LongForm name short v [['-', '-'] ++ n, v]

/-- The name fits no long option, or more than one and is none. -/
def Vague (n : List Char) : Prop :=
  n <+: "h".toList ∨ ∀ name ∈ ["help", "host", "port", "dev-hidraw"], ¬ n <+: name.toList

/-- How things are said: with long options, or with letters. Help has no value. -/
inductive Form : Said → List (List Char) → Prop
  | device {v as} : LongForm "dev-hidraw" "d" v as → Form (.device v) as
  | port {v as} : LongForm "port" "p" v as → Form (.port v) as
  | host {v as} : LongForm "host" "ho" v as → Form (.host v) as
  | help (n : List Char) : "he".toList <+: n → n <+: "help".toList → Form .help [['-', '-'] ++ n]
  | h : Form .help [['-', 'h']]
  | word {w} : ¬ IsOption w → Form (.word w) [w]
  | vague (n : List Char) : '=' ∉ n → n ≠ [] → Vague n → Form (.vague n) [['-', '-'] ++ n]
  | vagueJoined (n v : List Char) : '=' ∉ n → Vague n → Form (.vague n) [['-', '-'] ++ n ++ ['='] ++ v]
  | helpJoined (n v : List Char) : "he".toList <+: n → n <+: "help".toList →
      Form (.vague n) [['-', '-'] ++ n ++ ['='] ++ v]
  | letters (c : Char) (cs : List Char) : c ≠ '-' → 'h' ∉ c :: cs → 'd' ∉ c :: cs → Form (.letters (c :: cs)) ['-' :: c :: cs]

/-- A command line: everything that is said, one after the other. -/
inductive Line : List Said → List (List Char) → Prop
  | nil : Line [] []
  | cons {x xs as bs} : Form x as → Line xs bs → Line (x :: xs) (as ++ bs)

/-- The device said last, if one is said. -/
def saidDevice : List Said → Option (List Char)
  | [] => none
  | .device v :: xs => (saidDevice xs).or (some v)
  | _ :: xs => saidDevice xs

end Knx.Spec
