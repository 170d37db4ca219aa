import Verif.Model.Tables
import Verif.Model.Dpt
import Verif.Model.LData

/-!
# Group object table and state

definition/layer/application/groupobject_table.py, state.py, definition/knxnet_ip/state.py.
-/

namespace Knx

/-- `GroupObjectTable` (groupobject_table.py:4-45): the dict from ASAP to datapoint class, in insertion order. -/
abbrev GroupObjectTable := List (Asap × DptClass)

namespace GroupObjectTable

/-- `GroupObjectTable.__init__` (groupobject_table.py:23-27): a python dict literal is a sequence of
assignments. -/
def init (items : List (Asap × DptClass)) : GroupObjectTable :=
  items.foldl (fun d p => dictSet Asap.eq d p.1 p.2) []

/-- `GroupObjectTable.associate` (groupobject_table.py:33-36). -/
def associate (t : GroupObjectTable) (asap : Asap) (c : DptClass) : GroupObjectTable := dictSet Asap.eq t asap c

/-- `GroupObjectTable.disassociate` (groupobject_table.py:38-39): `KeyError` if absent. -/
def disassociate (asap : Asap) : Py GroupObjectTable Unit := fun t =>
  match dictGet Asap.eq t asap with
  | none => (.error .keyError, t)
  | some _ => (.ok (), dictDel Asap.eq t asap)

/-- `_associations[asap]` (state.py:182-183). -/
def lookup (t : GroupObjectTable) (asap : Asap) : Except Err DptClass :=
  match dictGet Asap.eq t asap with
  | none => .error .keyError
  | some c => .ok c

end GroupObjectTable

/-- `Medium` (state.py:21-24). -/
inductive Medium
  | tp | usbHid | knxnetIp
  deriving DecidableEq, Repr

/-- `State` (state.py:27-183) and `knxnet_ip.State` (definition/knxnet_ip/state.py:4-15). A table is `none` where
python has `None` (the default of `knxnet_ip.State`); `chan` is `none` while the attribute `communication_channel_id`
does not exist (plain `State`). -/
structure State where
  medium : Medium
  assoc : Option AssocTable
  got : Option GroupObjectTable
  ldata : Option LData := none
  asap : Option Asap := none
  apci : Option Nat := none
  addressType : Option AddressType := none
  seqRemote : Nat := 0
  seqLocal : Nat := 0
  chan : Option Nat := none
  deriving DecidableEq, Repr

namespace State

/-- `State(medium, association_table, groupobject_table)` (state.py:57-73). -/
def init (m : Medium) (a : Option AssocTable) (g : Option GroupObjectTable) : State :=
  { medium := m, assoc := a, got := g }

/-- `knxnet_ip.State(medium, association_table, datapointtypes)` (definition/knxnet_ip/state.py:5-7). -/
def initIp (m : Medium) (a : Option AssocTable) (g : Option GroupObjectTable) : State :=
  { medium := m, assoc := a, got := g, chan := some 0 }

/-- `sequence_counter_remote` setter (state.py:143-145). -/
def setSeqRemote (v : Int) (s : State) : State := { s with seqRemote := (v % 256).toNat }

/-- `sequence_counter_local` setter (state.py:151-153). -/
def setSeqLocal (v : Int) (s : State) : State := { s with seqLocal := (v % 256).toNat }

end State

/-- The tables of a state, as the decoder reads them (state.py:63-64). -/
structure Tables where
  assoc : Option AssocTable
  got : Option GroupObjectTable
  deriving DecidableEq, Repr

/-- The tables of a state (state.py:63-64). -/
def State.tables (s : State) : Tables := ⟨s.assoc, s.got⟩

namespace Tables

/-- `State.individual_address` (state.py:155-157). -/
def individualAddress (t : Tables) : Except Err Addr :=
  match t.assoc with
  | none => .error .attributeError
  | some a => .ok a.ind

/-- `State.get_tsap` (state.py:159-160) for a destination: the new `Address` object is compared by value only. -/
def getTsap (t : Tables) (destination : BitVec 16) : Except Err (Option Nat) :=
  match t.assoc with
  | none => .error .attributeError
  | some a => .ok (a.getTsap ⟨0, destination⟩)

/-- `State.get_asaps` (state.py:162-164). -/
def getAsaps (t : Tables) (destination : BitVec 16) : Except Err (List Asap) :=
  match t.assoc with
  | none => .error .attributeError
  | some a => a.getAsaps (a.getTsap ⟨0, destination⟩)

/-- `State.get_asaps_and_dpts` (state.py:166-173). -/
def getAsapsAndDpts (t : Tables) (destination : BitVec 16) : Except Err (List (Asap × DptClass)) :=
  match t.getAsaps destination with
  | .error e => .error e
  | .ok asaps =>
    match t.got with
    | none => .error .attributeError
    | some g => .ok (g.filter fun p => asaps.any fun a => a.eq p.1)

end Tables

namespace State

/-- `State.get_tsaps` (state.py:175-176): `self._asap` is a valid ASAP whenever the encoder calls it. A `None` asap
would be a `KeyError`. -/
def getTsaps (s : State) : Except Err (List (Option Nat)) :=
  match s.assoc with
  | none => .error .attributeError
  | some a =>
    match s.asap with
    | none => .error .keyError
    | some asap => a.getTsaps asap

/-- `State.get_addresses` (state.py:178-180). -/
def getAddresses (s : State) : Except Err (List Addr) :=
  match s.getTsaps with
  | .error e => .error e
  | .ok ts =>
    match s.assoc with
    | none => .error .attributeError
    | some a => a.getAddresses ts

/-- `State.get_dpt` (state.py:182-183). -/
def getDpt (s : State) : Except Err DptClass :=
  match s.got with
  | none => .error .attributeError
  | some g =>
    match s.asap with
    | none => .error .keyError
    | some asap => g.lookup asap

end State
end Knx
