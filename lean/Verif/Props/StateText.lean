import Verif.Props.LogTexts
import Verif.Spec.StateText

/-! # C115: the wording of tables, link layer data and state -/

namespace Knx
open Spec

theorem plain_word (a : BitVec 16) : addressText a = plainWord a := by
  have h : a.toNat < 65536 := a.isLt
  simp only [addressText, plainWord, hex4_word h]
  generalize hexWord 4 a.toNat = x
  simp [fill]

theorem group_word (a : BitVec 16) : groupText a = groupWord a := by
  have h : a.toNat < 65536 := a.isLt
  have e1 : (toTwo a).main = a.toNat / 2048 := by simp only [toTwo, getField]; norm_num; omega
  have e2 : (toTwo a).sub = a.toNat % 2048 := by simp [toTwo, getField]
  have e3 : (toThree a).main = a.toNat / 2048 := by simp only [toThree, getField]; norm_num; omega
  have e4 : (toThree a).middle = a.toNat / 256 % 8 := by simp [toThree, getField]
  have e5 : (toThree a).sub = a.toNat % 256 := by simp [toThree, getField]
  unfold groupText groupWord
  rw [e1, e2, e3, e4, e5, hex4_word h]
  simp only [decimal_word]
  generalize hexWord 4 a.toNat = x1, natWord (a.toNat / 2048) = x2, natWord (a.toNat % 2048) = x3,
    natWord (a.toNat / 256 % 8) = x4, natWord (a.toNat % 256) = x5
  simp [fill]

theorem entries_word (as : List Addr) (n : Nat) : AddressTable.entries n as =
    (as.zipIdx n).flatMap fun p => fill "    {} -> {}\n".toList [natWord p.2, groupWord p.1.fs] := by
  induction as generalizing n with
  | nil => rfl
  | cons a as ih =>
    rw [AddressTable.entries, ih, List.zipIdx_cons, List.flatMap_cons, decimal_word, group_word]
    congr 1
    generalize natWord n = x1, groupWord a.fs = x2
    simp [fill]

/-- C115: the text of an address table. -/
theorem c115_addresses (t : AddressTable) : t.text = addressesWord t := by
  unfold AddressTable.text addressesWord
  rw [entries_word, plain_word, decimal_word]
  generalize plainWord t.ind.fs = x1, natWord t.maxSize = x2, List.flatMap _ _ = x3
  rewrite [fill_pieces _ _ "AddressTable: individual address: ".toList [", max_size=".toList,
    "\n\n".toList ++ "    tsap -> individual address\n".toList ++ "    0 -> ".toList,
    "\n".toList ++ "    tsap -> group address (hex_free_style two_level_style three_level_style)\n".toList, []]
    (by decide +kernel) (by decide +kernel) (by rfl)]
  generalize "AddressTable: individual address: ".toList = a1, ", max_size=".toList = a2, "\n\n".toList = a3,
    "    tsap -> individual address\n".toList = a4, "    0 -> ".toList = a5, "\n".toList = a6,
    "    tsap -> group address (hex_free_style two_level_style three_level_style)\n".toList = a7
  simp

example : (AddressTable.init ⟨0, 0x1002⟩ [⟨1, 0xBB⟩, ⟨2, 0xAA⟩] 255).text =
    "AddressTable: individual address: 0x1002, max_size=255\n\n    tsap -> individual address\n    0 -> 0x1002\n    tsap -> group address (hex_free_style two_level_style three_level_style)\n    1 -> (0x00AA 0/170 0/0/170)\n    2 -> (0x00BB 0/187 0/0/187)\n".toList := by
  rw [c115_addresses]
  decide +kernel

/-- C115: the text of a group object table. -/
theorem c115_objects (g : GroupObjectTable) : g.text = objectsWord g := by
  have h : ∀ p : Asap × DptClass, objectLine p = fill "    {} -> {}\n".toList [asapWord p.1, (typeName p.2).toList] := by
    intro p
    unfold objectLine
    rw [asapText_word, name_type]
    generalize asapWord p.1 = x1, (typeName p.2).toList = x2
    simp [fill]
  unfold GroupObjectTable.text objectsWord
  rw [funext h]
  generalize List.flatMap _ _ = x
  rewrite [fill_pieces _ _ "GroupObjectTable: ASAP -> datapointtype\n".toList [[]] (by decide +kernel) (by decide +kernel) (by rfl)]
  generalize "GroupObjectTable: ASAP -> datapointtype\n".toList = a1
  simp

example : (exGot.foldl GroupObjectTable.after ([] : GroupObjectTable)).text =
    "GroupObjectTable: ASAP -> datapointtype\n    2 -> DPT_Float_16\n    5 -> DPT_Alarm\n    1 -> DPT_UpDown\n".toList := by
  rw [c115_objects]
  decide +kernel

theorem addrs_word (grp : Addr → Bool) (as : List Addr) : addrItems grp as =
    sepBy ", " (as.map fun a => if grp a then groupWord a.fs else plainWord a.fs) ++ "]".toList := by
  have h : ∀ a, objText grp a = if grp a then groupWord a.fs else plainWord a.fs := by
    intro a
    rw [objText, group_word, plain_word]
  induction as with
  | nil => rfl
  | cons a as ih =>
    cases as with
    | nil => simp [addrItems, sepBy, h]
    | cons b as =>
      rw [addrItems, ih, h]
      · simp [sepBy]
      · simp

/-- C115: the text of an association table. -/
theorem c115_associations (grp : Addr → Bool) (t : AssocTable) : t.text grp = associationsWord grp t := by
  have h : ∀ p : Asap × List Addr, assocLine grp p = fill "    {} -> [{}]\n".toList
        [asapWord p.1, sepBy ", " (p.2.map fun a => if grp a then groupWord a.fs else plainWord a.fs)] := by
    intro p
    unfold assocLine
    rw [asapText_word, addrs_word]
    generalize asapWord p.1 = x1, sepBy ", " _ = x2
    simp [fill]
  unfold AssocTable.text associationsWord
  rw [c115_addresses]
  generalize addressesWord t.at_ = x1
  rw [funext h]
  generalize List.flatMap _ _ = x2
  rewrite [fill_pieces _ _ "AssociationTable: asap -> addresses\n".toList [[], []] (by decide +kernel) (by decide +kernel) (by rfl)]
  generalize "AssociationTable: asap -> addresses\n".toList = a1
  simp

example : ((AssocTable.init exAt []).2.afterAll exOps).text (fun a => a.oid ≠ 0) =
    "AssociationTable: asap -> addresses\n    0 (individual address) -> [0x1004]\n    7 -> [(0x0E89 1/1673 1/6/137), (0x0001 0/1 0/0/1)]\n    3 -> [(0x0E89 1/1673 1/6/137)]\n".toList ++
      ((AssocTable.init exAt []).2.afterAll exOps).at_.text := by
  rw [c115_associations, c115_addresses]
  decide +kernel

theorem destination_word (named : Bool) (t : AddressType) : addressTypeText named t = destinationWord named t := by
  cases t <;> cases named <;> rfl

/-- C115: the text of link layer data. -/
theorem c115_link (named : Bool) (l : LData) : l.text named = linkWord named l := by
  unfold LData.text linkWord
  rw [decimal_word, decimal_word, hex4_word l.source.isLt, hex4_word l.destination.isLt, destination_word]
  generalize natWord l.source.toNat = x1, hexWord 4 l.source.toNat = x2, natWord l.destination.toNat = x3,
    hexWord 4 l.destination.toNat = x4, destinationWord named l.addressType = x5
  rewrite [fill_pieces _ _ "source: ".toList [" (0x".toList, "), destination: ".toList, " (0x".toList, "), address_type: ".toList, []]
    (by decide +kernel) (by decide +kernel) (by rfl)]
  generalize "source: ".toList = a1, " (0x".toList = a2, "), destination: ".toList = a3, "), address_type: ".toList = a4
  simp

example : LData.text false { LData.default with source := 4362, destination := 3721 } =
    "source: 4362 (0x110A), destination: 3721 (0x0E89), address_type: 0".toList := by
  rw [c115_link]
  decide +kernel

/-- C115: the texts of an octet, a short and a long are 0x and the digits of the number that the field holds. -/
theorem c115_numbers (n : Int) :
    octectText n = fill "0x{}".toList [hexWord 2 (n % 256).toNat] ∧ shortText n = fill "0x{}".toList [hexWord 4 (n % 65536).toNat] ∧
    longText n = fill "0x{}".toList [hexWord 8 (n % 4294967296).toNat] := by
  have hf : ∀ x : List Char, fill "0x{}".toList [x] = '0' :: 'x' :: x := fun x => by simp [fill]
  rw [hf, hf, hf]
  refine ⟨?_, ?_, ?_⟩
  · have h : trunc 8 n = (n % 256).toNat := by simp [trunc]
    have hl : (n % 256).toNat < 256 := by omega
    unfold octectText
    rw [h]
    generalize (n % 256).toNat = m at hl
    simp only [hexWord, List.nil_append, List.cons_append]
    rw [hexDigit_word (by omega), hexDigit_word (by omega), Nat.mod_eq_of_lt (a := m / 16) (by omega)]
  · have h : trunc 16 n = (n % 65536).toNat := by simp [trunc]
    have hl : (n % 65536).toNat < 2 ^ 16 := by omega
    rw [shortText, h, hex4_word hl]
  · have h : trunc 32 n = (n % 4294967296).toNat := by simp [trunc]
    have hl : (n % 4294967296).toNat < 4294967296 := by omega
    unfold longText
    rw [h]
    generalize (n % 4294967296).toNat = m at hl
    show '0' :: 'x' :: (hex4 (m / 65536) ++ hex4 (m % 65536)) = _
    rw [hex4_word (by omega), hex4_word (by omega)]
    simp only [hexWord, List.nil_append, List.cons_append]
    have e1 : m / 16 / 16 / 16 / 16 = m / 65536 := by omega
    have e2 : m % 65536 % 16 = m % 16 := by omega
    have e3 : m % 65536 / 16 % 16 = m / 16 % 16 := by omega
    have e4 : m % 65536 / 16 / 16 % 16 = m / 16 / 16 % 16 := by omega
    have e5 : m % 65536 / 16 / 16 / 16 % 16 = m / 16 / 16 / 16 % 16 := by omega
    rw [e1, e2, e3, e4, e5]

example : octectText (-1) = "0xFF".toList ∧ shortText 70000 = "0x1170".toList ∧ longText 2147483647 = "0x7FFFFFFF".toList := by
  rw [(c115_numbers _).1, (c115_numbers _).2.1, (c115_numbers _).2.2]
  decide +kernel

theorem opt_word {α : Type} {f g : α → List Char} (h : ∀ x, f x = g x) (o : Option α) : optText f o = orNone (o.map g) := by
  cases o with
  | none => rfl
  | some x => exact h x

/-- C115: the text of a state. -/
theorem c115_state (named : Bool) (grp : Addr → Bool) (s : State) : s.text named grp = stateWord named grp s := by
  have hm : s.medium.text = "Medium.".toList ++ (mediumWord s.medium).toList := by cases s.medium <;> decide +kernel
  unfold State.text stateWord
  rw [opt_word (c115_associations grp), opt_word c115_objects, opt_word (c115_link named), opt_word asapText_word,
    opt_word decimal_word, opt_word (destination_word named), decimal_word, decimal_word, hm]
  generalize (mediumWord s.medium).toList = x1, orNone (s.assoc.map (associationsWord grp)) = x2, orNone (s.got.map objectsWord) = x3,
    orNone (s.ldata.map (linkWord named)) = x4, orNone (s.asap.map asapWord) = x5, orNone (s.apci.map natWord) = x6,
    orNone (s.addressType.map (destinationWord named)) = x7, natWord s.seqRemote = x8, natWord s.seqLocal = x9
  rewrite [fill_pieces _ _ (" State for ".toList ++ "Medium.".toList) ["\n\n        ".toList, "\n\n        ".toList,
    "\n\n        LData structure (for decode functions): ".toList, "\n\n        ASAP: ".toList, ", APCI: ".toList,
    ", Address Type: ".toList, "\n\n        Sequence Counter (remote): ".toList, "\n\n        Sequence Counter (local): ".toList,
    "\n".toList] (by decide +kernel) (by decide +kernel) (by rfl)]
  generalize " State for ".toList = a1, "Medium.".toList = a2, "\n\n        ".toList = a3,
    "\n\n        LData structure (for decode functions): ".toList = a4, "\n\n        ASAP: ".toList = a5, ", APCI: ".toList = a6,
    ", Address Type: ".toList = a7, "\n\n        Sequence Counter (remote): ".toList = a8,
    "\n\n        Sequence Counter (local): ".toList = a9, "\n".toList = a10
  simp

/-- A state as it is made, without tables. -/
example : (State.initIp .knxnetIp none none).text false (fun _ => true) =
    " State for Medium.knxnet_ip\n\n        None\n\n        None\n\n        LData structure (for decode functions): None\n\n        ASAP: None, APCI: None, Address Type: None\n\n        Sequence Counter (remote): 0\n\n        Sequence Counter (local): 0\n".toList := by
  rw [c115_state]
  decide +kernel

end Knx
