/-!
# Python and ctypes basics

Conventions shared by every file of the model: exceptions as values, ctypes integers,
bit fields, and the monad of functions that mutate an object and may raise.
-/

namespace Knx

/-- The exceptions the modelled code can raise.
`addressTable` is `AddressTableException` (definition/layer/network/address_table.py:4-5),
`exception` is a bare `Exception(...)` (knx_stack/__init__.py:43, datapointtypes.py:686),
`invalidOperation` is `decimal.InvalidOperation` (datapointtypes.py:676);
the others are python built-ins. -/
inductive Err
  | indexError | keyError | valueError | typeError | attributeError | overflowError
  | addressTable | exception | invalidOperation | osError
  deriving DecidableEq, Repr

/-- An octet: `Octect.value` is a `c_uint8` (msg.py:93-112). -/
abbrev Byte := BitVec 8

/-- `Octect(value=n)` (msg.py:93-112): ctypes keeps the value modulo 256. -/
def byte (n : Nat) : Byte := BitVec.ofNat 8 n

/-- A message: `Msg` is a list of `Octect` (msg.py:5). Simplification: the subclasses `usb_hid.Msg` and
`knxnet_ip.Msg` are not distinguished; on KNXnet/IP a message is a `knxnet_ip.Msg`
(definition/knxnet_ip/msg.py:8). -/
abbrev Msg := List Byte

/-- Reduction of a python int on assignment to a `w` bit ctypes (bit) field: modulo `2^w`, also for negative
ints (ctypes does no overflow checking; used by every `_fields_` in /repo, e.g. msg.py:90, ldata.py:55-99). -/
def trunc (w : Nat) (x : Int) : Nat := (x % (2 ^ w : Nat)).toNat

/-- Reading a ctypes bit field of width `w` that starts `off` bits above the least significant bit of the
underlying integer (`LittleEndianStructure`, e.g. msg.py:89-90, ldata.py:55-99, datapointtypes.py:107-600). -/
def getField (off w v : Nat) : Nat := v / 2 ^ off % 2 ^ w

/-- Writing a ctypes bit field: the value is reduced modulo `2^w` and the other bits are kept
(`LittleEndianStructure`, e.g. msg.py:89-90, ldata.py:55-99, datapointtypes.py:107-600). -/
def setField (off w : Nat) (x : Int) (v : Nat) : Nat :=
  v / 2 ^ (off + w) * 2 ^ (off + w) + trunc w x * 2 ^ off + v % 2 ^ off

/-- A python call that may mutate an object of type `σ` and may raise; mutations made before the exception
persist. (Python semantics, used for methods like association_table.py:182-207, state.py:143-153.) -/
def Py (σ α : Type) : Type := σ → Except Err α × σ

namespace Py
variable {σ α β : Type}

/-- Returning a value without touching the object. (Python semantics, used for methods like association_table.py:182-207, state.py:143-153.) -/
def pure (a : α) : Py σ α := fun s => (.ok a, s)

/-- Sequencing: an exception skips the rest and keeps the object as mutated so far.
(Python semantics, used for methods like association_table.py:182-207, state.py:143-153.) -/
def bind (x : Py σ α) (f : α → Py σ β) : Py σ β := fun s =>
  match x s with
  | (.ok a, s') => f a s'
  | (.error e, s') => (.error e, s')

instance : Monad (Py σ) where
  pure := Py.pure
  bind := Py.bind

/-- A call that does not touch the object but may raise. (Python semantics, used for methods like association_table.py:182-207, state.py:143-153.) -/
def lift (x : Except Err α) : Py σ α := fun s => (x, s)

/-- Raising an exception. (Python semantics, used for methods like association_table.py:182-207, state.py:143-153.) -/
def raise (e : Err) : Py σ α := fun s => (.error e, s)

/-- Reading the object. (Python semantics, used for methods like association_table.py:182-207, state.py:143-153.) -/
def get : Py σ σ := fun s => (.ok s, s)

/-- Assigning attributes of the object. (Python semantics, used for methods like association_table.py:182-207, state.py:143-153.) -/
def modify (f : σ → σ) : Py σ Unit := fun s => (.ok (), f s)

/-- A `for` statement over a list whose body may raise: it stops at the first exception.
(Python semantics, used for methods like association_table.py:182-207, state.py:143-153.) -/
def forEach (l : List α) (f : α → Py σ Unit) : Py σ Unit :=
  match l with
  | [] => Py.pure ()
  | a :: as => Py.bind (f a) fun _ => forEach as f

end Py

/-- Python dict lookup `d[k]` on an insertion-ordered association list, keys compared with `eq`;
`none` stands for `KeyError`. (Python semantics, used for association_table.py:139-205, groupobject_table.py:23-39.) -/
def dictGet {κ ν : Type} (eq : κ → κ → Bool) : List (κ × ν) → κ → Option ν
  | [], _ => none
  | (k', v) :: d, k => if eq k' k then some v else dictGet eq d k

/-- Python dict assignment `d[k] = v`: an existing equal key keeps its key object and its position, a new key goes
last. (Python semantics, used for association_table.py:139-205, groupobject_table.py:23-39.) -/
def dictSet {κ ν : Type} (eq : κ → κ → Bool) : List (κ × ν) → κ → ν → List (κ × ν)
  | [], k, v => [(k, v)]
  | (k', v') :: d, k, v => if eq k' k then (k', v) :: d else (k', v') :: dictSet eq d k v

/-- Python `del d[k]` for a key that is present. (Python semantics, used for association_table.py:139-205, groupobject_table.py:23-39.) -/
def dictDel {κ ν : Type} (eq : κ → κ → Bool) : List (κ × ν) → κ → List (κ × ν)
  | [], _ => []
  | (k', v) :: d, k => if eq k' k then d else (k', v) :: dictDel eq d k

end Knx
