import Verif.Model.Encode

/-!
# Numbers in place of ASAPs

The documentation calls an ASAP an int (association_table.py:13) and gives messages the number 0 for their ASAP
(client/usbhid.py:47). What `encode_msg` does with such a message. An int has no attribute `value`, so that comparing it with
an ASAP raises (association_table.py:49-50); a dict compares a key only with keys of the same hash.
-/

namespace Knx

/-- `hash(n)` of an int in CPython on 64 bits: the remainder by 2^61 - 1 with the sign of the int, -2 for -1
(association_table.py:52-53). -/
def intHash (n : Int) : Int :=
  let h := n.tmod (2 ^ 61 - 1)
  if h = -1 then -2 else h

/-- `hash(asap)` (association_table.py:52-53): what `__hash__` returns if it fits 64 bits, otherwise its hash; -2 for -1. -/
def Asap.hash (a : Asap) : Int :=
  if -(2 ^ 63) ≤ a.value ∧ a.value < 2 ^ 63 then (if a.value = -1 then -2 else a.value) else intHash a.value

/-- Subscripting a dict that has ASAPs as keys with a number (association_table.py:142, state.py:183): `AttributeError` if a key
has the same hash, otherwise `KeyError`. -/
def numberError (keys : List Asap) (n : Int) : Err :=
  if keys.any fun k => k.hash == intHash n then .attributeError else .keyError

/-- `State.get_tsaps` (state.py:175-176) if the ASAP of the state is a number: it raises. -/
def State.tsapsError (s : State) (n : Int) : Err :=
  match s.assoc with
  | none => .attributeError
  | some a => numberError (a.asapAddrs.map Prod.fst) n

/-- `State.get_dpt` (state.py:182-183) if the ASAP of the state is a number: it raises. -/
def State.dptError (s : State) (n : Int) : Err :=
  match s.got with
  | none => .attributeError
  | some g => numberError (g.map Prod.fst) n

/-- The messages for the bus with a number as their ASAP (definition/layer/application/a_group_value_read/req.py:6-10 and the
like). -/
inductive NumMsg
  | groupRead (n : Int)
  | groupWriteReq (n : Int) (dpt : Dpt)
  | groupWriteInd (n : Int) (dpt : Dpt)
  | propertyRead (n : Int) (objectIndex propertyId numberOfElements startIndex : Int)
  | propertyWrite (n : Int) (objectIndex propertyId numberOfElements startIndex : Int) (data : List Char)
  deriving DecidableEq, Repr

/-- `encode_msg` (knx_stack/__init__.py:19-34) of such a message: what is raised or returned, and the state. A group value read
asks for the TSAPs (encode/layer/application/a_group_value_read/req.py:23-31, encode/layer/transport/t_data_group/encode.py:7), a
write first for the type (encode/layer/application/a_group_value_write/encode.py:14-19); the property services
(a_property_value_read/req.py:22-37, a_property_value_write/req.py:24-41) store the ASAP in the state without ever reading it.
Simplification: the state then holds the number, here the ASAP without name that has it; every encoder sets it anew. -/
def encodeNumber : NumMsg → Py State Msg
  | .groupRead n => fun s =>
    (.error (s.tsapsError n), { s with apci := some 0, asap := some ⟨n, none⟩, addressType := some .group })
  | .groupWriteReq n _ | .groupWriteInd n _ => fun s =>
    (.error (s.dptError n), { s with asap := some ⟨n, none⟩, apci := some 0x80, addressType := some .group })
  | .propertyRead n oi pid k si => fun s =>
    let s := { s with asap := some ⟨n, none⟩, apci := some 0x3D5, addressType := some .individual }
    let l := LData.default.setApci 0x3D5
    (tDataIndividualEncode s ([octetOf l.apciFull] ++ longOctets (propHeaderValue oi pid k si)), s)
  | .propertyWrite n oi pid k si data => fun s =>
    let s := { s with asap := some ⟨n, none⟩, apci := some 0x3D7, addressType := some .individual }
    let l := LData.default.setApci 0x3D7
    match stringToOctets data with
    | .error e => (.error e, s)
    | .ok d => (tDataIndividualEncode s ([octetOf l.apciFull] ++ longOctets (propHeaderValue oi pid k si) ++ d), s)

end Knx
