import Verif.Model.Client
import Verif.Model.MsgTexts
import Verif.Model.RequestTexts

/-!
# The project's own tests and doctests, run on the model

Each `example` evaluates the model on the inputs of a test or doctest of the project and compares the result with the
value written there. They are tests of the transcription, not properties. A python float literal `x` appears as
`fl64 x`, the double nearest to it. Where a test compares a text (`repr`), the object is compared field by field, the texts
of messages being compared in a section of their own.

Not covered: the `repr` texts of other objects. The text in decode/knxnet_ip/header.py:22 says `sequence_counter`, where the
code writes `sequence counter`. The doctests of encode/layer/application/a_group_value_write/ind.py:10-22 and
encode/layer/transport/t_disconnect/req.py:9-15 are not run by the test suite and cannot run as written (they call
`encode` without importing it and pass plain numbers for objects); the octets they show are checked below as well.
-/

namespace Knx.Conformance

/-- `Msg.make_from_str` of a hex text (msg.py:46-48). -/
def hex (s : String) : Msg :=
  match stringToOctets s.toList with
  | .ok m => m
  | .error _ => []

/-- A state with one association and one datapoint, as most doctests build it
(decode/layer/application/a_group_value_write/ind.py:9-14): own address, ASAP, group address, class. -/
def oneState (m : Medium) (own : BitVec 16) (asap : Asap) (ga : BitVec 16) (c : Option DptClass) : State :=
  State.init m
    (some (AssocTable.associate asap [⟨2, ga⟩] (AssocTable.init (AddressTable.init ⟨1, own⟩ [] 255) []).2).2)
    (some (match c with | some c => GroupObjectTable.init [(asap, c)] | none => []))

/-- A state without associations (decode/layer/application/a_property_value_read/ind.py:10-12). -/
def bareState (m : Medium) (own : BitVec 16) : State :=
  State.init m (some (AssocTable.init (AddressTable.init ⟨1, own⟩ [] 255) []).2) (some [])

/-! ## msg.py, address.py -/

-- msg.py:11-26
example : octect (hex "112203AA0B0C0D") = .ok (0x11, hex "2203AA0B0C0D") := by decide +kernel
example : short (hex "2203AA0B0C0D") = .ok (0x2203, hex "AA0B0C0D") := by decide +kernel
example : long (hex "AA0B0C0D") = .ok (0xAA0B0C0D, []) := by decide +kernel
-- msg.py:98-106
example : (nibblesOctet 1 0).toNat = 16 := by decide +kernel
-- msg.py:125-136
example : shortOf 0x10 0x01 = 4097 := by decide +kernel
-- msg.py:171-179
example : longOctets 0x91000008 = [0x91, 0x00, 0x00, 0x08] := by decide +kernel
-- address.py:26-28
example : ofFree 0x0A = 10 := by decide +kernel
-- address.py:55-63
example : ofThree 1 1 1 = 0x901 ∧ toTwo (ofThree 1 1 1) = ⟨1, 257⟩ ∧ toThree (ofThree 1 1 1) = ⟨1, 1, 1⟩ := by
  decide +kernel
-- address.py:65-73
example : toTwo (ofFree 0x1202) = ⟨2, 514⟩ ∧ toThree (ofFree 0x1202) = ⟨2, 2, 2⟩ := by decide +kernel

/-! ## Tables -/

/-- The table of the doctest (address_table.py:27-31, 35). -/
def addressTable : AddressTable :=
  (AddressTable.init ⟨0, 4097⟩ [⟨1, 0xBB⟩, ⟨2, 0xAA⟩, ⟨3, 0xCC⟩] 255).setInd ⟨4, 4098⟩

-- address_table.py:36-43
example : addressTable.ind.fs = 0x1002 ∧ addressTable.maxSize = 255 ∧
    addressTable.gas.map (·.fs) = [0x00AA, 0x00BB, 0x00CC] ∧ addressTable.tsaps = [0, 1, 2, 3] := by decide +kernel
-- address_table.py:45-52
example : addressTable.getAddress 0 = .ok ⟨4, 0x1002⟩ ∧ addressTable.getAddress 2 = .ok ⟨1, 0x00BB⟩ ∧
    addressTable.getAddress 4 = .error .indexError := by decide +kernel
-- address_table.py:54-56
example : addressTable.getTsap ⟨5, 0xCC⟩ = some 3 ∧ addressTable.getTsap ⟨5, 0xDD⟩ = none := by decide +kernel
-- address_table.py:58-63
example : (AddressTable.add ⟨5, 205⟩ addressTable).1 = .ok () ∧
    (AddressTable.add ⟨5, 205⟩ addressTable).2.gas.map (·.fs) = [0x00AA, 0x00BB, 0x00CC, 0x00CD] ∧
    (AddressTable.remove ⟨6, 205⟩ (AddressTable.add ⟨5, 205⟩ addressTable).2) = (.ok (), addressTable) := by
  decide +kernel

-- association_table.py:18-27
example : Asap.eq ⟨1, none⟩ ⟨1, some "a meaningfull name to the connected piece of code"⟩ := by decide +kernel

/-- The table of the doctest up to line 87 (association_table.py:80-87). -/
def assocTable : AssocTable :=
  (AssocTable.associate ⟨2, some "two"⟩ [⟨4, 109⟩]
    (AssocTable.associate ⟨1, some "one"⟩ [⟨3, 110⟩]
      (AssocTable.associate ⟨1, some "one"⟩ [⟨2, 112⟩]
        (AssocTable.init (AddressTable.init ⟨0, 4097⟩ [] 255) [(⟨1, some "one"⟩, ⟨1, 111⟩)]).2).2).2).2

/-- The same after line 94 (association_table.py:94). -/
def assocTable' : AssocTable := (AssocTable.disassociate ⟨1, some "one"⟩ [⟨5, 112⟩] assocTable).2

-- association_table.py:88-93
example : assocTable.getTsap ⟨9, 111⟩ = some 3 ∧
    assocTable.getAddresses [some 3, some 4, some 2] = .ok [⟨1, 111⟩, ⟨2, 112⟩, ⟨3, 110⟩] ∧
    assocTable.asaps = [⟨0, some "individual address"⟩, ⟨1, some "one"⟩, ⟨2, some "two"⟩] := by decide +kernel
-- association_table.py:95-100
example : assocTable'.getAddresses [some 3, some 2] = .ok [⟨1, 111⟩, ⟨3, 110⟩] ∧
    assocTable'.getTsaps ⟨1, some "one"⟩ = .ok [some 3, some 2] ∧ assocTable'.getTsap ⟨9, 110⟩ = some 2 := by
  decide +kernel
-- association_table.py:101-114
example : assocTable'.asapAddrs = [(⟨0, some "individual address"⟩, [⟨0, 0x1001⟩]),
      (⟨1, some "one"⟩, [⟨1, 0x006F⟩, ⟨3, 0x006E⟩]), (⟨2, some "two"⟩, [⟨4, 0x006D⟩])] ∧
    assocTable'.at_ = ⟨255, ⟨0, 0x1001⟩, [⟨4, 0x006D⟩, ⟨3, 0x006E⟩, ⟨1, 0x006F⟩]⟩ := by decide +kernel
example : assocTable'.text (fun a => a.oid ≠ 0) = "AssociationTable: asap -> addresses\n".toList ++
    "    0 (individual address) -> [0x1001]\n".toList ++
    "    1 (one) -> [(0x006F 0/111 0/0/111), (0x006E 0/110 0/0/110)]\n".toList ++
    "    2 (two) -> [(0x006D 0/109 0/0/109)]\n".toList ++
    "AddressTable: individual address: 0x1001, max_size=255\n\n".toList ++
    "    tsap -> individual address\n    0 -> 0x1001\n".toList ++
    "    tsap -> group address (hex_free_style two_level_style three_level_style)\n".toList ++
    "    1 -> (0x006D 0/109 0/0/109)\n    2 -> (0x006E 0/110 0/0/110)\n    3 -> (0x006F 0/111 0/0/111)\n".toList := by
  decide +kernel

-- groupobject_table.py:9-20
example :
    let t := GroupObjectTable.associate (GroupObjectTable.init [(⟨1, none⟩, .upDown)]) ⟨2, none⟩ .switch
    t = [(⟨1, none⟩, .upDown), (⟨2, none⟩, .switch)] ∧
      t.text = "GroupObjectTable: ASAP -> datapointtype\n    1 -> DPT_UpDown\n    2 -> DPT_Switch\n".toList ∧
      GroupObjectTable.disassociate ⟨1, none⟩ t = (.ok (), [(⟨2, none⟩, .switch)]) := by decide +kernel

/-! ## Link layer frame, property header, state -/

-- ldata.py:116-128
example : ∃ l m, LData.makeFrom (hex "BCE000010002010080") = .ok (l, m) ∧ l.source = 1 ∧ l.destination = 2 ∧
    l.addressType = .group ∧ l.nsdu = some .group ∧ l.apciFull = 128 :=
  ⟨⟨0xBC, 0xE0, 1, 2, 1, 0, 0x80⟩, [0x80], by decide +kernel⟩
-- a_property_value.py:17-26
example : propHeader 0x0079101F = { objectIndex := 0, propertyId := 121, numberOfElements := 1, startIndex := 31 } := by
  decide +kernel

/-- The state of the doctest (state.py:30-36); the association finds its address already in the table. -/
def docState : State :=
  State.init .tp (some (AssocTable.init (AddressTable.init ⟨0, 4097⟩ [⟨1, 2⟩] 255) [(⟨1, none⟩, ⟨2, 2⟩)]).2)
    (some (GroupObjectTable.init [(⟨1, none⟩, .switch)]))

-- state.py:37-46
example : docState.tables.getTsap 2 = .ok (some 1) ∧ docState.tables.getAsaps 2 = .ok [⟨1, none⟩] ∧
    docState.tables.getAsapsAndDpts 2 = .ok [(⟨1, none⟩, .switch)] := by decide +kernel
-- state.py:47-54
example :
    let s := { docState with asap := some ⟨1, none⟩, apci := some 2 }
    s.getTsaps = .ok [some 1] ∧ s.getAddresses = .ok [⟨1, 2⟩] ∧ s.getDpt = .ok .switch := by decide +kernel

/-! ## Decoding USB reports -/

-- decode/usb_hid/report_header/report_identifier.py:9-17
example : (decodeMsg (hex "0113130008000B010300002900BCE00001ABCC010081") (bareState .usbHid 1)).1 = .ok (.list []) := by
  decide +kernel
-- decode/layer/application/a_property_value_read/con.py:9-15
example : (decodeMsg (hex "0113170008000F010300002E0096600000102C0503D5007B1021") (bareState .usbHid 0x102C)).1 =
    .ok (.list [.property .read (.con .ok) ⟨0, none⟩ 0 123 1 33 none]) := by decide +kernel
-- decode/layer/application/a_property_value_read/ind.py:9-15
example : (decodeMsg (hex "0113170008000F0103000029009660102C00000503D5007B1021") (bareState .usbHid 0x102C)).1 =
    .ok (.list [.property .read .ind ⟨0, none⟩ 0 123 1 33 none]) := by decide +kernel
-- decode/layer/application/a_property_value_write/con.py:9-15
example : (decodeMsg (hex "01131800080010010300002E0096600000102C0603D7007B1021FF") (bareState .usbHid 0x102C)).1 =
    .ok (.list [.property .write (.con .ok) ⟨0, none⟩ 0 123 1 33 (some [0xFF])]) := by decide +kernel
-- decode/layer/application/a_property_value_write/ind.py:9-15
example : (decodeMsg (hex "011318000800100103000029009660102C00000603D7007B1021FF") (bareState .usbHid 0x102C)).1 =
    .ok (.list [.property .write .ind ⟨0, none⟩ 0 123 1 33 (some [0xFF])]) := by decide +kernel
-- decode/layer/application/a_group_value_read/con.py:9-17
example : (decodeMsg (hex "0113130008000B010300002E0096E000000002010000")
    (oneState .usbHid 1 ⟨1, none⟩ 2 (some .switch))).1 =
    .ok (.list [.group .read (.con .ok) ⟨1, none⟩ ⟨.switch, 0⟩]) := by decide +kernel
-- decode/layer/application/a_group_value_read/ind.py:9-17
example : (decodeMsg (hex "0113130008000B01030000290096E000000002010000")
    (oneState .usbHid 1 ⟨1, none⟩ 2 (some .switch))).1 =
    .ok (.list [.group .read .ind ⟨1, none⟩ ⟨.switch, 0⟩]) := by decide +kernel
-- decode/layer/application/a_group_value_write/con.py:9-17 (the property `action` of the raw value is compared)
example : (decodeMsg (hex "0113130008000B010300002E0096E000000002010081")
    (oneState .usbHid 1 ⟨1, some "example asap"⟩ 2 (some .switch))).1 =
    .ok (.list [.group .write (.con .ok) ⟨1, some "example asap"⟩ ⟨.switch, 0x81⟩]) ∧
    (Dpt.mk .switch 0x81).describe = .ok ("DPT_Switch", [("action", .str "on")]) := by decide +kernel
-- decode/layer/application/a_group_value_write/ind.py:9-17
example : (decodeMsg (hex "0113130008000B01030000290096E000000002010081")
    (oneState .usbHid 1 ⟨1, some "example asap"⟩ 2 (some .switch))).1 =
    .ok (.list [.group .write .ind ⟨1, some "example asap"⟩ ⟨.switch, 0x81⟩]) := by decide +kernel

/-! ## Decoding KNXnet/IP bodies and datagrams -/

-- decode/knxnet_ip/tunneling/ack.py:10-16
example : (tunnelingAckDecode (hex "000a044c0000") (State.initIp .usbHid (bareState .usbHid 1).assoc (some []))).1 =
    .ok (.tuple [.tunnelingAck 1 .noError]) := by decide +kernel
-- decode/knxnet_ip/tunneling/req.py:11-21
example : (tunnelingReqDecode (hex "0019047401002900b4e011010c82050080589f8037")
    { oneState .knxnetIp 1 ⟨1, none⟩ 0x0C82 (some .switch) with seqRemote := 1, chan := some 0 }).1 =
    .ok (.list [.tunnelingReq 1 .noError, .group .write .ind ⟨1, none⟩ ⟨.switch, 0x37⟩]) ∧
    (Dpt.mk .switch 0x37).describe = .ok ("DPT_Switch", [("action", .str "on")]) := by decide +kernel
-- decode/knxnet_ip/header.py:10-22
example : (decodeMsg (hex "061004200015047401002900BCE00001ABCD010080")
    { oneState .knxnetIp 1 ⟨1, some "an application service access point to 0xABCD"⟩ 0xABCD (some .switch) with
      seqRemote := 1 }).1 =
    .ok (.list [.tunnelingReq 1 .noError,
      .group .write .ind ⟨1, some "an application service access point to 0xABCD"⟩ ⟨.switch, 0x80⟩]) ∧
    (Dpt.mk .switch 0x80).describe = .ok ("DPT_Switch", [("action", .str "off")]) := by decide +kernel
-- decode/knxnet_ip/core/connectionstate/res.py:8-14
example : connectionstateResDecode (hex "00087000") = .ok [.connectionstateRes .noError] := by decide +kernel
-- decode/knxnet_ip/core/connect/res.py:8-14 (172.31.10.250 is 0xAC1F0AFA)
example : (connectResDecode (hex "00144a000801ac1f0afa0e570404ffff") (bareState .knxnetIp 0xAA)).1 =
    .ok (.list [.connectRes 0xAC1F0AFA 3671 (some 0xFFFF) .noError]) := by decide +kernel
-- decode/knxnet_ip/core/search/res.py:10-16
example : searchResDecode (hex
    "004c0801ac1f0afa0e5736010200ffff00000001001e9a2e00000000000e8c000a8a495020496e74657266616365204e313438000000000000000000000000000802020103010401") =
    .ok [.searchRes 0xAC1F0AFA 3671 0x0200] := by decide +kernel
-- decode/knxnet_ip/core/disconnect/res.py:9-14
example : (disconnectResDecode (hex "00080500") (State.initIp .knxnetIp none none)).1 =
    .ok (.list [.disconnectRes 5 .noError]) := by decide +kernel

/-! ## Texts of messages -/

/-- The text of a list of messages without floats (decode/knxnet_ip/tunneling/ack.py:16 and the like). -/
def shownAs (l : List OutMsg) (s : String) : Bool :=
  match listText (fun _ => []) DptClass.props l with
  | .ok t => t == s.toList
  | .error _ => false

-- decode/knxnet_ip/tunneling/ack.py:16
example : shownAs [.tunnelingAck 1 .noError]
    "[TunnelingAck(sequence counter=1, status=0)]" = true := by decide +kernel
-- decode/knxnet_ip/tunneling/req.py:21
example : shownAs [.tunnelingReq 1 .noError, .group .write .ind ⟨1, none⟩ ⟨.switch, 1⟩]
    "[TunnelingReq(sequence counter=1, status=<ErrorCodes.E_NO_ERROR: 0>), GroupValueWriteInd (DPT_Switch {'action': 'on'} for asap 1)]" = true := by decide +kernel
-- decode/knxnet_ip/core/connectionstate/res.py:14
example : shownAs [.connectionstateRes .noError]
    "[ConnectionstateRes(status=0)]" = true := by decide +kernel
-- decode/knxnet_ip/core/connect/res.py:14
example : shownAs [.connectRes 0xAC1F0AFA 3671 (some 0xFFFF) .noError]
    "[ConnectRes(ip=172.31.10.250, port=3671, individual address=0xFFFF, status=0)]" = true := by decide +kernel
-- decode/knxnet_ip/core/search/res.py:16
example : shownAs [.searchRes 0xAC1F0AFA 3671 0x0200]
    "[SearchRes(ip=172.31.10.250, port=3671, individual address=0x0200)]" = true := by decide +kernel
-- decode/knxnet_ip/core/disconnect/res.py:14
example : shownAs [.disconnectRes 5 .noError]
    "[DisconnectRes(communication_channel_id=5, status=0)]" = true := by decide +kernel
-- decode/usb_hid/report_header/report_identifier.py:17
example : shownAs []
    "[]" = true := by decide +kernel
-- decode/layer/application/a_property_value_read/con.py:15
example : shownAs [.property .read (.con .ok) ⟨0, none⟩ 0 123 1 33 none]
    "[PropertyValueReadCon status 0 (object index 0, property id 123, number of elements 1, start index 33 for asap 0)]" = true := by decide +kernel
-- decode/layer/application/a_property_value_read/ind.py:15
example : shownAs [.property .read .ind ⟨0, none⟩ 0 123 1 33 none]
    "[PropertyValueReadInd (object index 0, property id 123, number of elements 1, start index 33 for asap 0)]" = true := by decide +kernel
-- decode/layer/application/a_group_value_read/con.py:17
example : shownAs [.group .read (.con .ok) ⟨1, none⟩ ⟨.switch, 0⟩]
    "[GroupValueReadCon status 0 (DPT_Switch {'action': 'off'} for asap 1)]" = true := by decide +kernel
-- decode/layer/application/a_group_value_read/ind.py:17
example : shownAs [.group .read .ind ⟨1, none⟩ ⟨.switch, 0⟩]
    "[GroupValueReadInd (DPT_Switch {'action': 'off'} for asap 1)]" = true := by decide +kernel
-- decode/layer/application/a_group_value_write/con.py:17
example : shownAs [.group .write (.con .ok) ⟨1, some "example asap"⟩ ⟨.switch, 1⟩]
    "[GroupValueWriteCon status 0 (DPT_Switch {'action': 'on'} for asap 1 (example asap))]" = true := by decide +kernel
-- decode/layer/application/a_group_value_write/ind.py:17
example : shownAs [.group .write .ind ⟨1, some "example asap"⟩ ⟨.switch, 1⟩]
    "[GroupValueWriteInd (DPT_Switch {'action': 'on'} for asap 1 (example asap))]" = true := by decide +kernel
-- decode/layer/application/a_property_value_write/con.py:15
example : shownAs [.property .write (.con .ok) ⟨0, none⟩ 0 123 1 33 (some [0xFF])]
    "[PropertyValueWriteCon FF status 0 (object index 0, property id 123, number of elements 1, start index 33 for asap 0)]" = true := by decide +kernel
-- decode/layer/application/a_property_value_write/ind.py:15
example : shownAs [.property .write .ind ⟨0, none⟩ 0 123 1 33 (some [0xFF])]
    "[PropertyValueWriteInd FF (object index 0, property id 123, number of elements 1, start index 33 for asap 0)]" = true := by decide +kernel

/-! ## Encoding -/

-- encode/knxnet_ip/tunneling/ack.py:13-18
example : (encodeMsg (.tunnelingAck 1 .noError) (State.initIp .knxnetIp none none)).1 =
    .ok (hex "06100421000A04000000") := by decide +kernel
-- encode/knxnet_ip/tunneling/req.py:11-17 (the frame of `t_connect` wrapped a second time)
example :
    let s := { bareState .knxnetIp 0x1001 with chan := some 0 }
    ∃ m, (tConnectEncode s).1 = .ok m ∧
      tunnelingReqEncode (tConnectEncode s).2 m =
        .ok (hex "06100420001E040000000610042000140400000011009660000010010080") :=
  ⟨hex "0610042000140400000011009660000010010080", by decide +kernel⟩
-- encode/knxnet_ip/core/connectionstate/req.py:14-19
example : (encodeMsg (.connectionstateReq 0x7F000001 1234) (State.initIp .knxnetIp none none)).1 =
    .ok (hex "061002070010000008017F00000104D2") := by decide +kernel
-- encode/knxnet_ip/core/connect/req.py:20-27
example : (encodeMsg (.connectReq 0x7F000001 1234 0xC0A80001 1234) (State.init .knxnetIp none none)).1 =
    .ok (hex "06100205001A08017F00000104D20801C0A8000104D204040200") := by decide +kernel
-- encode/knxnet_ip/core/search/req.py:14-18
example : (encodeMsg (.searchReq 0x7F000001 1234) (State.init .knxnetIp none none)).1 =
    .ok (hex "06100201000E08017F00000104D2") := by decide +kernel
-- encode/knxnet_ip/core/disconnect/req.py:14-19
example : (encodeMsg (.disconnectReq 0x7F000001 1234) (State.initIp .knxnetIp none none)).1 =
    .ok (hex "061002090010000008017F00000104D2") := by decide +kernel
-- encode/layer/application/a_property_value_read/req.py:12-20
example : (encodeMsg (.propertyRead ⟨0, none⟩ 0 0x7B 1 0x21) (bareState .usbHid 0x102C)).1 =
    .ok (hex "0113170008000F01030000110096600000102C0503D5007B1021") := by decide +kernel
-- encode/layer/application/a_property_value_write/req.py:12-22
example : (encodeMsg (.propertyWrite ⟨0, none⟩ 0 0x7B 1 0x21 "FF".toList) (bareState .usbHid 0x102C)).1 =
    .ok (hex "0113180008001001030000110096600000102C0603D7007B1021FF") := by decide +kernel
-- encode/layer/application/a_group_value_read/req.py:12-21
example : (encodeMsg (.groupRead ⟨1, none⟩) (oneState .usbHid 1 ⟨1, none⟩ 2 (some .switch))).1 =
    .ok (hex "0113130008000B01030000110096E000000002010000") := by decide +kernel
-- encode/layer/application/a_group_value_write/req.py:11-22
example : (encodeMsg (.groupWriteReq ⟨1, none⟩ ⟨.switch, 1⟩) (oneState .usbHid 1 ⟨1, none⟩ 2 (some .switch))).1 =
    .ok (hex "0113130008000B01030000110096E000000002010081") := by decide +kernel
-- encode/layer/application/a_group_value_write/ind.py:17-22
example : (encodeMsg (.groupWriteInd ⟨1, none⟩ ⟨.switch, 1⟩) (oneState .usbHid 1 ⟨1, none⟩ 2 (some .switch))).1 =
    .ok (hex "0113130008000B01030000290096E000000002010081") := by decide +kernel
-- encode/layer/transport/t_connect/req.py:11-16
example : (tConnectEncode (bareState .usbHid 0x1001)).1 = .ok (hex "0113120008000A0103000011009660000010010080") := by
  decide +kernel
-- encode/layer/transport/t_disconnect/req.py:10-15: the doctest (which is not run) expects the first control octet 86,
-- the code produces 96
example : (tDisconnectEncode (bareState .usbHid 0x1001)).1 =
    .ok (hex "0113120008000A0103000011009660000010010081") := by decide +kernel

/-! ## tests/*.py -/

-- tests/test_a_property_value.py:8-9, 20-30
example : (encodeMsg (.propertyWrite ⟨0, none⟩ 0 0x7B 1 0x1F "02".toList) (bareState .usbHid 0x102C)).1 =
    .ok (hex "0113180008001001030000110096600000102C0603D7007B101F02") := by decide +kernel
-- tests/test_a_property_value.py:32-35
example : (decodeMsg (hex "011319000800110103000029009660102C00000603D7007B101F02") (bareState .usbHid 0x102C)).1 =
    .ok (.list [.property .write .ind ⟨0, none⟩ 0 0x7B 1 0x1F (some [0x02])]) := by decide +kernel
-- tests/test_bus_connection.py:10-15
example : (decodeMsg (hex "01130A000800020F0400000300") (State.init .usbHid none none)).1 =
    .ok (.list [.connectionStatus false]) := by decide +kernel
-- tests/test_bus_connection.py:17-22
example : (decodeMsg (hex "01130A000800020F0400000301") (State.init .usbHid none none)).1 =
    .ok (.list [.connectionStatus true]) := by decide +kernel
-- tests/test_emi_type.py:10-15
example : (decodeMsg (hex "01130A000800020F0200000503") (State.init .usbHid none none)).1 =
    .ok (.list [.emiType .cEMI]) := by decide +kernel
-- tests/test_emi_type.py:17-22
example : (decodeMsg (hex "01130A000800020F0200000502") (State.init .usbHid none none)).1 =
    .ok (.list [.emiType .emi2]) := by decide +kernel
-- tests/test_l_data_con.py:18-26
example : (decodeMsg (hex "0113130008000B010300002E00BDE0AAAA0002010000") (oneState .usbHid 1 ⟨1, none⟩ 2 none)).1 =
    .ok (.list []) := by decide +kernel
-- tests/test_l_data_con.py:28-33
example : (decodeMsg (hex "0113130008000B010300002E00BDE0AAAA0002010000") (bareState .usbHid 1)).1 =
    .ok (.list []) := by decide +kernel
-- tests/test_l_data_con.py:35-51
example : (decodeMsg (hex "0113130008000B010300002E00BDE0AAAA0002010000")
    (oneState .usbHid 1 ⟨1, none⟩ 2 (some .switch))).1 =
    .ok (.list [.group .read (.con .ko) ⟨1, none⟩ ⟨.switch, 0⟩]) := by decide +kernel
-- tests/test_l_data_ind.py:29-31
example : (decodeMsg (hex "0113130008000B010300002900BCE000010002010080")
    (oneState .usbHid 1 ⟨1, some "prova"⟩ 2 none)).1 = .ok (.list []) := by decide +kernel
-- tests/test_l_data_ind.py:33-43
example : (decodeMsg (hex "0113130008000B010300002900BCE000010002010080")
    { oneState .usbHid 1 ⟨1, some "prova"⟩ 2 none with
      assoc := (oneState .usbHid 1 ⟨1, some "prova"⟩ 2 none).assoc.map fun a =>
        (AssocTable.disassociate ⟨1, some "prova"⟩ [⟨3, 2⟩] a).2 }).1 = .ok (.list []) := by decide +kernel
-- tests/test_l_data_ind.py:45-57
example : (decodeMsg (hex "0113130008000B010300002900BCE000010002010080")
    (oneState .usbHid 1 ⟨1, some "prova"⟩ 2 (some .switch))).1 =
    .ok (.list [.group .write .ind ⟨1, some "prova"⟩ ⟨.switch, 0x80⟩]) := by decide +kernel
-- tests/test_l_data_ind.py:59-69
example : (decodeMsg (hex "0113140008000C010300002900B4E00001000202008005")
    (oneState .usbHid 1 ⟨1, some "prova"⟩ 2 (some .vimarScene))).1 =
    .ok (.list [.group .write .ind ⟨1, some "prova"⟩ ⟨.vimarScene, 5⟩]) ∧
    (Dpt.mk .vimarScene 5).getAttr "index" = .ok (.int 5) := by decide +kernel
-- tests/test_l_data_ind.py:74, 89-92 (an odd number of hex digits)
example : (decodeMsg (hex
    "0113150008000d010300002900bcd011fd0a0203008087ce0000000000000000000000000000000000000000000000000")
    (oneState .usbHid 1 ⟨1, some "prova"⟩ 0x0A02 (some .valueTemp))).1 =
    .ok (.list [.group .write .ind ⟨1, some "prova"⟩ ⟨.valueTemp, 0x87CE⟩]) ∧
    (Dpt.mk .valueTemp 0x87CE).decode = .ok (fl64 (-1 / 2)) := by decide +kernel
-- tests/test_l_data_ind.py:75, 94-97
example : (decodeMsg (hex
    "0113150008000d010300002900bcd011fd0a0203008087d80000000000000000000000000000000000000000000000000000000000000000")
    (oneState .usbHid 1 ⟨1, some "prova"⟩ 0x0A02 (some .valueTemp))).1 =
    .ok (.list [.group .write .ind ⟨1, some "prova"⟩ ⟨.valueTemp, 0x87D8⟩]) ∧
    (Dpt.mk .valueTemp 0x87D8).decode = .ok (fl64 (-4 / 10)) := by decide +kernel
-- tests/test_l_data_req.py:30-37
example : (encodeMsg (.groupWriteReq ⟨1, none⟩ ⟨.switch, 1⟩) (oneState .usbHid 1 ⟨1, none⟩ 2 (some .switch))).1 =
    .ok (hex "0113130008000B01030000110096E000000002010081") := by decide +kernel
-- tests/test_l_data_req.py:39-44
example : (decodeMsg (hex "0113130008000B01030000290096E000000002010081")
    (oneState .usbHid 1 ⟨1, none⟩ 2 (some .switch))).1 =
    .ok (.list [.group .write .ind ⟨1, none⟩ ⟨.switch, 0x81⟩]) := by decide +kernel

/-! ## datapointtypes.py -/

-- datapointtypes.py:19-25
example : Dpt.make "DPT_Control_Dimming" [("step", .int 7), ("direction", .str "up")] = .ok ⟨.controlDimming, 0x0F⟩ ∧
    (Dpt.mk .controlDimming 0x0F).getAttr "step" = .ok (.int 7) ∧
    (Dpt.mk .controlDimming 0x0F).getAttr "direction" = .ok (.str "up") := by decide +kernel
-- datapointtypes.py:27-29
example : ∃ d, Dpt.make "DPT_Value_Temp" [("decoded_value", .float (fl64 (-1)))] = .ok d ∧ d.decode = .ok (fl64 (-1)) :=
  ⟨⟨.valueTemp, 0x879C⟩, by decide +kernel⟩
-- datapointtypes.py:58-60
example : (Dpt.new .switch).describe = .ok ("DPT_Switch", [("action", .str "off")]) := by decide +kernel
-- datapointtypes.py:62-65
example : ∃ d, Dpt.encode (.int 10000) (Dpt.new .valueLux) = (.ok (), d) ∧
    d.describe = .ok ("DPT_Value_Lux", [("decoded_value", .float (fl64 (999936 / 100)))]) :=
  ⟨⟨.valueLux, 20385⟩, by decide +kernel⟩
-- datapointtypes.py:115-124
example : ((Dpt.new .switch).setValue 0x80).getAttr "action" = .ok (.str "off") ∧
    ((Dpt.new .switch).setValue 0x81).getAttr "action" = .ok (.str "on") ∧
    (Dpt.setAttr "action" (.str "off") ((Dpt.new .switch).setValue 0x81)).2.getBits "action" = .ok 0 := by decide +kernel
-- datapointtypes.py:148-157
example : ((Dpt.new .alarm).setValue 0x80).getAttr "action" = .ok (.str "no_alarm") ∧
    ((Dpt.new .alarm).setValue 0x81).getAttr "action" = .ok (.str "alarm") ∧
    (Dpt.setAttr "action" (.str "no_alarm") ((Dpt.new .alarm).setValue 0x81)).2.getBits "action" = .ok 0 := by
  decide +kernel
-- datapointtypes.py:177-186
example : ((Dpt.new .upDown).setValue 0x80).getAttr "direction" = .ok (.str "up") ∧
    ((Dpt.new .upDown).setValue 0x81).getAttr "direction" = .ok (.str "down") ∧
    (Dpt.setAttr "direction" (.str "up") ((Dpt.new .upDown).setValue 0x81)).2.getBits "direction" = .ok 0 := by
  decide +kernel
-- datapointtypes.py:215-224
example : ((Dpt.new .start).setValue 0x80).getAttr "action" = .ok (.str "stop") ∧
    ((Dpt.new .start).setValue 0x81).getAttr "action" = .ok (.str "start") ∧
    (Dpt.setAttr "action" (.str "stop") ((Dpt.new .start).setValue 0x81)).2.getBits "action" = .ok 0 := by decide +kernel
-- datapointtypes.py:257-265
example : ((Dpt.new .vimarScene).setValue 1).getAttr "command" = .ok (.str "attiva") ∧
    ((Dpt.new .vimarScene).setValue 1).getAttr "index" = .ok (.int 1) ∧
    (Dpt.setAttr "command" (.str "identifica") ((Dpt.new .vimarScene).setValue 1)).2.getBits "command" = .ok 3 := by
  decide +kernel
-- datapointtypes.py:305-313
example : ((Dpt.new .sceneControl).setValue 1).getAttr "command" = .ok (.str "activate") ∧
    ((Dpt.new .sceneControl).setValue 1).getAttr "number" = .ok (.int 1) ∧
    (Dpt.setAttr "command" (.str "learn") ((Dpt.new .sceneControl).setValue 1)).2.getBits "command" = .ok 1 := by
  decide +kernel
-- datapointtypes.py:348-356
example : ((Dpt.new .controlDimming).setValue 0x0F).getAttr "step" = .ok (.int 7) ∧
    ((Dpt.new .controlDimming).setValue 0x0F).getBits "direction" = .ok 1 ∧
    (Dpt.setAttr "direction" (.str "down") ((Dpt.new .controlDimming).setValue 0x0F)).2.raw = 7 := by decide +kernel
-- datapointtypes.py:386-389
example : ((Dpt.new .brightness).setValue 0x32).raw = 50 := by decide +kernel
-- datapointtypes.py:414-422
example : ((Dpt.new .setupClima).setValue 0).getAttr "funzionamento" = .ok (.str "off") ∧
    ((Dpt.new .setupClima).setValue 0).getAttr "stagione" = .ok (.str "inverno") ∧
    (Dpt.setAttr "setpoint" (.int 200) ((Dpt.new .setupClima).setValue 0)).2.getBits "setpoint" = .ok 200 := by
  decide +kernel
-- datapointtypes.py:542-549
example : ((Dpt.new .infoClimaReport).setValue 0x00E3E369).getAttr "temperatura" = .ok (.float (fl64 (361 / 10))) ∧
    ((Dpt.new .infoClimaReport).setValue 0x00E3E369).getAttr "funzionamento" = .ok (.str "off") ∧
    ((Dpt.new .infoClimaReport).setValue 0x00E3E369).getAttr "stagione" = .ok (.str "inverno") := by decide +kernel
-- datapointtypes.py:629-647
example : [1000, 2000, 100, 34806, 34316, 0x8760].map decode16 =
    [fl64 10, fl64 20, fl64 1, fl64 (-1 / 10), fl64 (-5), fl64 (-16 / 10)] := by decide +kernel
-- datapointtypes.py:648-651
example : decode16 (encode16Float (fl64 (1 / 2)) 14180).2 = fl64 (1 / 2) := by decide +kernel
-- datapointtypes.py:652-654
example : (Dpt.encode (.int 19) (Dpt.new .float16)) = (.ok (), ⟨.float16, 1900⟩) := by decide +kernel
-- datapointtypes.py:708-714, 721-727, 734-737
example : [600, 1900].map decode16 = [fl64 6, fl64 19] := by decide +kernel
-- datapointtypes.py:738-746
example : Dpt.encode (.int 30000) (Dpt.new .valueLux) = (.ok (), ⟨.valueLux, 23992⟩) ∧
    Dpt.encode (.int 25000) (Dpt.new .valueLux) = (.ok (), ⟨.valueLux, 23748⟩) ∧
    Dpt.encode (.int 800) (Dpt.new .valueLux) = (.ok (), ⟨.valueLux, 13538⟩) := by decide +kernel
-- datapointtypes.py:753-762
example : [0x45C80000, 0x3F800000, 0x43FF8000].map decode32 = [fl64 6400, fl64 1, fl64 511] := by decide +kernel

/-! ## README.md -/

/-- The tables of the README (README.md:18-36). -/
def readmeState : State :=
  State.init .usbHid
    (some (AssocTable.associate ⟨3, some "two temperature sensors (together)"⟩ [⟨2, ofThree 21 3 206⟩, ⟨3, ofTwo 21 975⟩]
      (AssocTable.associate ⟨2, some "info on/off light"⟩ [⟨1, ofFree 0xABCD⟩]
        (AssocTable.associate ⟨1, some "on/off light"⟩ [⟨1, ofFree 0xABCD⟩]
          (AssocTable.init (AddressTable.init ⟨0, 1⟩ [] 255) []).2).2).2).2)
    (some (GroupObjectTable.init [(⟨1, some "on/off light"⟩, .switch), (⟨2, some "info on/off light"⟩, .switch),
      (⟨3, some "two temperature sensors (together)"⟩, .valueTemp)]))

/-- The state of the KNXnet/IP example (README.md:92-94). -/
def readmeIp : State := { readmeState with medium := .knxnetIp, chan := some 0, seqRemote := 1 }

-- README.md:38-52
example : readmeState.assoc.map (·.asapAddrs) = some [(⟨0, some "individual address"⟩, [⟨0, 0x0001⟩]),
      (⟨1, some "on/off light"⟩, [⟨1, 0xABCD⟩]), (⟨2, some "info on/off light"⟩, [⟨1, 0xABCD⟩]),
      (⟨3, some "two temperature sensors (together)"⟩, [⟨2, 0xABCE⟩, ⟨3, 0xABCF⟩])] ∧
    readmeState.assoc.map (·.at_) = some ⟨255, ⟨0, 0x0001⟩, [⟨1, 0xABCD⟩, ⟨2, 0xABCE⟩, ⟨3, 0xABCF⟩]⟩ := by
  decide +kernel
example : readmeState.assoc.map (AssocTable.text fun a => a.oid ≠ 0) = some ("AssociationTable: asap -> addresses\n".toList ++
    "    0 (individual address) -> [0x0001]\n".toList ++
    "    1 (on/off light) -> [(0xABCD 21/973 21/3/205)]\n".toList ++
    "    2 (info on/off light) -> [(0xABCD 21/973 21/3/205)]\n".toList ++
    "    3 (two temperature sensors (together)) -> [(0xABCE 21/974 21/3/206), (0xABCF 21/975 21/3/207)]\n".toList ++
    "AddressTable: individual address: 0x0001, max_size=255\n\n".toList ++
    "    tsap -> individual address\n    0 -> 0x0001\n".toList ++
    "    tsap -> group address (hex_free_style two_level_style three_level_style)\n".toList ++
    "    1 -> (0xABCD 21/973 21/3/205)\n    2 -> (0xABCE 21/974 21/3/206)\n    3 -> (0xABCF 21/975 21/3/207)\n".toList) := by
  decide +kernel
-- README.md:54-59
example : readmeState.got.map GroupObjectTable.text = some ("GroupObjectTable: ASAP -> datapointtype\n".toList ++
    "    1 (on/off light) -> DPT_Switch\n    2 (info on/off light) -> DPT_Switch\n".toList ++
    "    3 (two temperature sensors (together)) -> DPT_Value_Temp\n".toList) := by
  decide +kernel
-- README.md:67-72
example : (decodeMsg (hex "0113130008000B010300002900BCE00001ABCD010080") readmeState).1 =
    .ok (.list [.group .write .ind ⟨1, some "on/off light"⟩ ⟨.switch, 0x80⟩,
      .group .write .ind ⟨2, some "info on/off light"⟩ ⟨.switch, 0x80⟩]) ∧
    (decodeMsg (hex "0113130008000B010300002900BCE00001ABCC010081") readmeState).1 = .ok (.list []) := by decide +kernel
-- README.md:74-76
example : (decodeMsg (hex "0113140008000C010300002900B4E00001ABCE02008005") readmeState).1 =
    .ok (.list [.group .write .ind ⟨3, some "two temperature sensors (together)"⟩ ⟨.valueTemp, 5⟩]) ∧
    (Dpt.mk .valueTemp 5).decode = .ok (fl64 (5 / 100)) := by decide +kernel
-- README.md:78-80
example : (encodeMsg (.groupRead ⟨3, none⟩) readmeState).1 = .ok (hex "0113130008000B01030000110096E00000ABCE010000") := by
  decide +kernel
-- README.md:82-86
example : (encodeMsg (.groupWriteReq ⟨3, none⟩ (Dpt.encode (.float (fl64 (5 / 100))) (Dpt.new .valueTemp)).2)
    readmeState).1 = .ok (hex "0113150008000D01030000110096E00000ABCE0300800005") := by decide +kernel
-- README.md:95-97
example : (decodeMsg (hex "061004200015047401002900BCE00001ABCD010080") readmeIp).1 =
    .ok (.list [.tunnelingReq 1 .noError, .group .write .ind ⟨1, some "on/off light"⟩ ⟨.switch, 0x80⟩,
      .group .write .ind ⟨2, some "info on/off light"⟩ ⟨.switch, 0x80⟩]) := by decide +kernel
-- README.md:98-100
example : (decodeMsg (hex "061004200016047401002900B4E00001ABCE02008005") readmeIp).1 =
    .ok (.list [.tunnelingReq 1 .noError,
      .group .write .ind ⟨3, some "two temperature sensors (together)"⟩ ⟨.valueTemp, 5⟩]) := by decide +kernel
-- README.md:101-103
example : (encodeMsg (.groupRead ⟨3, none⟩) readmeIp).1 = .ok (hex "06100420001504000000110096E00000ABCE010000") := by
  decide +kernel
-- README.md:105-109
example : (encodeMsg (.groupWriteReq ⟨3, none⟩ (Dpt.encode (.float (fl64 (5 / 100))) (Dpt.new .valueTemp)).2)
    readmeIp).1 = .ok (hex "06100420001704000000110096E00000ABCE0300800005") := by decide +kernel
-- README.md:117-123
example : (Dpt.make "DPT_Switch" [("action", .str "off")]).map (fun d =>
    (encodeMsg (.groupWriteReq ⟨1, none⟩ d) readmeState).1) =
    .ok (.ok (hex "0113130008000B01030000110096E00000ABCD010080")) := by decide +kernel
-- README.md:120-121
example : (InMsg.groupWriteReq ⟨1, some "on/off light"⟩ ⟨.switch, 0⟩).text (fun _ => []) DptClass.props =
    .ok "GroupValueWriteReq (DPT_Switch {'action': 'off'} for asap 1 (on/off light))".toList := by decide +kernel
-- README.md:131-137
example : (decodeMsg (hex "0113130008000B01030000290096E00000ABCD010080") readmeState).1 =
    .ok (.list [.group .write .ind ⟨1, some "on/off light"⟩ ⟨.switch, 0x80⟩,
      .group .write .ind ⟨2, some "info on/off light"⟩ ⟨.switch, 0x80⟩]) ∧
    (Dpt.mk .switch 0x80).describe = .ok ("DPT_Switch", [("action", .str "off")]) := by decide +kernel

end Knx.Conformance
