import Verif.Model.StateText
import Verif.Spec.LogTexts

/-! # Specification: the wording of tables, link layer data and state

Patterns as in `Spec/LogTexts.lean`. -/

namespace Knx.Spec

/-- A group address, in hexadecimal notation and with two and three levels. -/
def groupWord (a : BitVec 16) : List Char :=
  fill "(0x{} {}/{} {}/{}/{})".toList [hexWord 4 a.toNat, natWord (a.toNat / 2048), natWord (a.toNat % 2048),
    natWord (a.toNat / 2048), natWord (a.toNat / 256 % 8), natWord (a.toNat % 256)]

/-- An individual address. -/
def plainWord (a : BitVec 16) : List Char := fill "0x{}".toList [hexWord 4 a.toNat]

/-- An address table: own address, size, and the group addresses numbered from 1. -/
def addressesWord (t : AddressTable) : List Char :=
  fill "AddressTable: individual address: {}, max_size={}\n\n    tsap -> individual address\n    0 -> {}\n    tsap -> group address (hex_free_style two_level_style three_level_style)\n{}".toList
    [plainWord t.ind.fs, natWord t.maxSize, plainWord t.ind.fs,
      (t.gas.zipIdx 1).flatMap fun p => fill "    {} -> {}\n".toList [natWord p.2, groupWord p.1.fs]]

/-- A group object table: its ASAPs and their types. -/
def objectsWord (g : GroupObjectTable) : List Char :=
  fill "GroupObjectTable: ASAP -> datapointtype\n{}".toList
    [g.flatMap fun p => fill "    {} -> {}\n".toList [asapWord p.1, (typeName p.2).toList]]

/-- An association table: its ASAPs and their addresses, then the address table. -/
def associationsWord (grp : Addr → Bool) (t : AssocTable) : List Char :=
  fill "AssociationTable: asap -> addresses\n{}{}".toList
    [t.asapAddrs.flatMap fun p => fill "    {} -> [{}]\n".toList
        [asapWord p.1, sepBy ", " (p.2.map fun a => if grp a then groupWord a.fs else plainWord a.fs)],
      addressesWord t.at_]

/-- The type of a destination, by name or number. -/
def destinationWord (named : Bool) (t : AddressType) : List Char :=
  match t, named with
  | .individual, false => ['0']
  | .group, false => ['1']
  | .individual, true => "AddressType.individual".toList
  | .group, true => "AddressType.group".toList

/-- Link layer data. -/
def linkWord (named : Bool) (l : LData) : List Char :=
  fill "source: {} (0x{}), destination: {} (0x{}), address_type: {}".toList
    [natWord l.source.toNat, hexWord 4 l.source.toNat, natWord l.destination.toNat, hexWord 4 l.destination.toNat,
      destinationWord named l.addressType]

/-- A medium. -/
def mediumWord : Medium → String
  | .tp => "tp"
  | .usbHid => "usb_hid"
  | .knxnetIp => "knxnet_ip"

/-- A text, or `None`. -/
def orNone (t : Option (List Char)) : List Char := t.getD "None".toList

/-- A state. -/
def stateWord (named : Bool) (grp : Addr → Bool) (s : State) : List Char :=
  fill " State for Medium.{}\n\n        {}\n\n        {}\n\n        LData structure (for decode functions): {}\n\n        ASAP: {}, APCI: {}, Address Type: {}\n\n        Sequence Counter (remote): {}\n\n        Sequence Counter (local): {}\n".toList
    [(mediumWord s.medium).toList, orNone (s.assoc.map (associationsWord grp)), orNone (s.got.map objectsWord),
      orNone (s.ldata.map (linkWord named)), orNone (s.asap.map asapWord), orNone (s.apci.map natWord),
      orNone (s.addressType.map (destinationWord named)), natWord s.seqRemote, natWord s.seqLocal]

end Knx.Spec
