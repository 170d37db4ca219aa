import Verif.Model.Msg

/-!
# The command line of the daemon (daemon/usbhid.c:169-219)

An argument is a list of characters. `getopt_long` is that of glibc with `POSIXLY_CORRECT` not set.
-/

namespace Knx
namespace DaemonMain

/-- An argument of the program (usbhid.c:169). -/
abbrev Arg := List Char

/-- `shortopts` (usbhid.c:172): no option takes an argument. -/
def shortOpts : List Char := ['h', 'd', 'p', 'i']

/-- `longopts` (usbhid.c:173-175): the name, whether there is an argument, and what is returned. -/
def longOpts : List (Arg × Bool × Char) :=
  [("help".toList, false, 'h'), ("host".toList, true, 's'), ("port".toList, true, 'p'), ("dev-hidraw".toList, true, 'd')]

/-- The long option with a name, which may be abbreviated if that is unambiguous (usbhid.c:188; `getopt_long`). -/
def longMatch (name : Arg) : Option (Bool × Char) :=
  match longOpts.find? fun o => decide (o.1 = name) with
  | some (_, o) => some o
  | none =>
    match longOpts.filter fun o => name.isPrefixOf o.1 with
    | [(_, o)] => some o
    | _ => none

/-- What `getopt_long` returns one call after the other, with `optarg` (usbhid.c:188-189): `?` for what it does not know,
for an ambiguous name, and for an argument that is missing or superfluous. Arguments that are no options are skipped, `--`
ends the options. -/
def getopt : List Arg → List (Char × Option Arg)
  | [] => []
  | a :: rest =>
    match a with
    | ['-', '-'] => []
    | '-' :: '-' :: text =>
      let name := text.takeWhile fun c => decide (c ≠ '=')
      match text.dropWhile fun c => decide (c ≠ '='), longMatch name with
      | _, none => ('?', none) :: getopt rest
      | [], some (false, c) => (c, none) :: getopt rest
      | _ :: _, some (false, _) => ('?', none) :: getopt rest
      | _ :: v, some (true, c) => (c, some v) :: getopt rest
      | [], some (true, c) =>
        match rest with
        | [] => [('?', none)]
        | v :: rest => (c, some v) :: getopt rest
    | '-' :: c :: cs => ((c :: cs).map fun c => (if c ∈ shortOpts then c else '?', none)) ++ getopt rest
    | _ => getopt rest

/-- The default of `dev_hidraw` (usbhid.c:176). -/
def defaultDevice : Arg := "/dev/hidraw1".toList

/-- The variables set by the loop over the options (usbhid.c:176-178, 188-210): the device, the port and the host; `none`
for the whole if the program printed its usage and ended. A variable is `none` if it is the null pointer. -/
def options (device port host : Option Arg) : List (Char × Option Arg) → Option (Option Arg × Option Arg × Option Arg)
  | [] => some (device, port, host)
  | (c, arg) :: rest =>
    if c = 'h' then none
    else if c = 'd' then options arg port host rest
    else if c = 'p' then options device arg host rest
    else if c = 's' then options device port arg rest
    else options device port host rest

/-- What the program does (usbhid.c:188-219): it prints its usage; it ends because the device cannot be opened, which is
the case for a null pointer; or it serves clients of all interfaces at a port, with a device. -/
inductive Outcome
  | usage
  | noDevice
  | serves (port : Nat) (device : Arg)
  deriving DecidableEq, Repr

/-- `DEFAULT_PORT` (usbhid.c:18). -/
def defaultPort : Nat := 5555

/-- `main` up to the loop (usbhid.c:169-219), `canOpen` telling which devices can be opened. That the socket can be made
(212-216) is assumed. -/
def main (canOpen : Arg → Bool) (args : List Arg) : Outcome :=
  match options (some defaultDevice) (some "8765".toList) (some "172.20.35.81".toList) (getopt args) with
  | none => .usage
  | some (none, _, _) => .noDevice
  | some (some device, _, _) => if canOpen device then .serves defaultPort device else .noDevice

end DaemonMain
end Knx
