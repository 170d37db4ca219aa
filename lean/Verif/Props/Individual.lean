import Verif.Props.PropertyServices
import Verif.Spec.Control

/-! # C56, C57, C58: connection frames and individually addressed telegrams -/

namespace Knx
open Spec

/-! ## C56 -/

theorem controlRequest_eq (d : BitVec 16) (x : Byte) :
    controlRequest d x = [encCode .req, 0, 0x96, if false then 0xE0 else 0x60, 0, 0] ++ (octetsOf 2 d.toNat ++ [0] ++ [x]) := by
  unfold controlRequest controlTelegram
  simp [octetsOf_two, encCode]

theorem nDataIndividual_control {s : State} (ht : s.addressType = some .individual) (x : Byte) :
    nDataIndividualEncode s [x] =
      match s.assoc with
      | none => .error .attributeError
      | some a =>
        match envelope s (controlRequest a.at_.ind.fs x) with
        | none => .error .attributeError
        | some f => .ok f := by
  unfold nDataIndividualEncode Tables.individualAddress State.tables
  cases s.assoc with
  | none => rfl
  | some a =>
    simp only
    rw [linkEncode_finish .req s false _ (by simpa using ht), shortOctets_ofNat, controlRequest_eq]
    rfl

/-- The result of a request for a control telegram: the frame of the medium to the own individual address, or an exception if
there is no association table or no channel. -/
def Spec.controlFrame (s : State) (tpci : Byte) : Except Err Msg :=
  match s.assoc with
  | none => .error .attributeError
  | some a =>
    match envelope s (controlRequest a.at_.ind.fs tpci) with
    | none => .error .attributeError
    | some f => .ok f

/-- C56: opening a transport connection is encoded as exactly the control telegram with transport control octet 0x80 to the
individual address, in the frame of the medium; only the pending address type changes in the state. -/
theorem c56_connect (s : State) :
    tConnectEncode s = (controlFrame s 0x80, { s with addressType := some .individual }) := by
  unfold tConnectEncode controlFrame
  simp only
  rw [show ((LData.default.setNsdu .individual).setConnected true).tpci = (0x80 : Byte) by decide, nDataIndividual_control rfl]
  rfl

/-- C56: closing it is encoded with transport control octet 0x81. -/
theorem c56_disconnect (s : State) :
    tDisconnectEncode s = (controlFrame s 0x81, { s with addressType := some .individual }) := by
  unfold tDisconnectEncode controlFrame
  simp only
  rw [show (((LData.default.setNsdu .individual).setConnected true).setApci 0x100).tpci = (0x81 : Byte) by decide, nDataIndividual_control rfl]
  rfl

example : (tConnectEncode (exState .tp)).1 = .ok [0x11, 0x00, 0x96, 0x60, 0x00, 0x00, 0x10, 0x04, 0x00, 0x80] := by
  rw [c56_connect]; decide

example : (tDisconnectEncode (exState .usbHid)).1 = .ok ([0x01, 0x13, 18, 0x00, 0x08, 0x00, 10, 0x01, 0x03, 0x00, 0x00,
    0x11, 0x00, 0x96, 0x60, 0x00, 0x00, 0x10, 0x04, 0x00, 0x81]) := by
  rw [c56_disconnect]; decide

/-! ## C57 -/

theorem makeFrom_control (c1 c2 : Byte) (src dst : BitVec 16) (x : Byte) :
    LData.makeFrom (controlTelegram c1 c2 src dst x) = .error .indexError := by
  unfold controlTelegram
  rw [octetsOf_two, octetsOf_two]
  rfl

theorem msgCode_control (k : Kind) {info : Msg} (hi : info.length < 256) (c1 c2 : Byte) (src dst : BitVec 16) (x : Byte)
    (s : State) : msgCodeDecode ([codeOf k, BitVec.ofNat 8 info.length] ++ info ++ controlTelegram c1 c2 src dst x) s =
      (.error .indexError, s) := by
  unfold msgCodeDecode
  simp only [List.cons_append, List.nil_append, octect, BitVec.toNat_ofNat]
  rw [Nat.mod_eq_of_lt (by simpa using hi), List.drop_left]
  cases k
  · rw [if_pos (by decide)]
    unfold cemiLdataDecode
    rw [makeFrom_control]
  · rw [if_neg (by decide), if_pos (by decide)]
    unfold cemiLdataDecode
    rw [makeFrom_control]

/-- C57 is false of every control telegram as it is on the bus, i.e. without application octet: whatever its addresses and
transport control octet, as indication or confirmation, on USB or KNXnet/IP, decoding raises `IndexError`. -/
theorem c57_raises (k : Kind) {info : Msg} (hi : info.length < 256) (c1 c2 : Byte) (src dst : BitVec 16) (x : Byte)
    {s : State} {f : Msg} {pre : List OutMsg}
    (hc : Carries s ([codeOf k, BitVec.ofNat 8 info.length] ++ info ++ controlTelegram c1 c2 src dst x) f pre) :
    decodeMsg f s = (.error .indexError, s) :=
  carries_error hc (msgCode_control k hi c1 c2 src dst x s)

/-- C57 is false in particular of the connection request this package itself encodes, when the bus confirms it. -/
theorem c57_refuted : ∃ (s : State) (m : Msg), s.medium = .usbHid ∧ (tConnectEncode s).1 = .ok (usbReport m) ∧
    (decodeMsg (usbReport (confirmation false m)) s).1 = .error .indexError :=
  ⟨exState .usbHid, controlRequest 0x1004 0x80, rfl, by decide, by decide⟩

/-- What holds of C57: a telegram to an individual address that is not connectionless data yields nothing and no exception if
at least one more octet follows the transport control octet. Missing from the full claim: the control telegrams, which
have no such octet (`c57_raises`). -/
theorem c57_partial {s : State} {t : Telegram} (htg : ¬ t.IsGroup) (htd : ¬ t.IsData) {k : Kind} {info f : Msg}
    (hi : info.length < 256) {pre : List OutMsg} (hc : Carries s (cemi (codeOf k) info t) f pre) :
    (decodeMsg f s).1 = .ok (.list pre) := by
  have hl : lDataDecode k s.tables (ldataOf t) (payload t) = .ok (.list []) := by
    unfold lDataDecode
    rw [addressType_individual htg]
    simp only
    unfold nDataIndividualDecode
    rw [if_neg fun h => htd ((nsdu_individual htg).1 h)]
  rw [carries_list hc ((codeOf_cemi (k := k) (info := info) t hi s).trans (by rw [hl])), List.append_nil]

example : decodeMsg (tunnelRequest 9 255 [0x29, 0, 0xB0, 0x60, 0x11, 0x05, 0x10, 0x04, 0x00, 0xC2]) (exState .knxnetIp) =
    (.error .indexError, exState .knxnetIp) :=
  c57_raises .ind (info := []) (by decide) 0xB0 0x60 0x1105 0x1004 0xC2 (.ip 9 255 rfl (by decide))

example : (decodeMsg (usbReport (cemi 0x29 [] ⟨0xB0, 0x60, 0x1105, 0x1004, 5, 0x43, 0xD5, [0, 1, 0x10, 1]⟩) ++ [7])
    (exState .usbHid)).1 = .ok (.list []) :=
  c57_partial (s := exState .usbHid) (t := ⟨0xB0, 0x60, 0x1105, 0x1004, 5, 0x43, 0xD5, [0, 1, 0x10, 1]⟩) (k := .ind)
    (by unfold Telegram.IsGroup; decide) (by unfold Telegram.IsData; decide) (by decide) (.usb [7] rfl (by decide))

/-! ## C58 -/

theorem mine_dispatch {s : State} {a : AssocTable} (ha : s.assoc = some a) {k : Kind} {t : Telegram}
    (hm : Mine a.at_.ind.fs (a.at_.gas.map Addr.fs) k t) (m : Msg) :
    tDataIndividualDecode k s.tables (ldataOf t) m = propertyDispatch k (ldataOf t) m := by
  unfold tDataIndividualDecode
  cases k with
  | ind =>
    simp only [Tables.individualAddress, State.tables, ha]
    exact if_pos hm
  | con =>
    obtain ⟨h1, h2⟩ := hm
    have htsap : s.tables.getTsap (ldataOf t).destination = .ok (some 0) := by
      unfold Tables.getTsap State.tables
      simp only [ha]
      unfold AssocTable.getTsap AddressTable.getTsap
      have e : (ldataOf t).destination = a.at_.ind.fs := h1
      rw [e]
      have hi : AddressTable.index a.at_.gas ⟨0, a.at_.ind.fs⟩ = none := AddressTable.index_none.2 h2
      rw [hi]
      simp [Addr.eq]
    simp only [htsap, if_true]

theorem foreign_nothing {s : State} {a : AssocTable} (ha : s.assoc = some a) {k : Kind} {t : Telegram}
    (hm : ¬ Mine a.at_.ind.fs (a.at_.gas.map Addr.fs) k t) (m : Msg) :
    tDataIndividualDecode k s.tables (ldataOf t) m = .ok [] := by
  unfold tDataIndividualDecode
  cases k with
  | ind =>
    simp only [Tables.individualAddress, State.tables, ha]
    exact if_neg hm
  | con =>
    simp only [Tables.getTsap, State.tables, ha]
    rw [if_neg]
    intro hz
    apply hm
    unfold AssocTable.getTsap AddressTable.getTsap at hz
    rcases hi : AddressTable.index a.at_.gas ⟨0, (ldataOf t).destination⟩ with _ | i
    · rw [hi] at hz
      have hd : (ldataOf t).destination = a.at_.ind.fs := by
        by_contra hne
        simp only at hz
        rw [if_neg (by simpa [Addr.eq] using hne)] at hz
        cases hz
      refine ⟨hd, ?_⟩
      have := AddressTable.index_none.1 hi
      rwa [show (⟨0, (ldataOf t).destination⟩ : Addr).fs = a.at_.ind.fs from hd] at this
    · rw [hi] at hz
      simp at hz

theorem dispatch_service {k : Kind} {t : Telegram} (m : Msg) :
    propertyDispatch k (ldataOf t) m =
      match propertyOf t with
      | some svc => propertyServiceDecode svc k (ldataOf t) m
      | none => .ok [] := by
  unfold propertyDispatch propertyOf
  rw [apciFull_ldataOf]
  split
  · rfl
  · split
    · rfl
    · split <;> rfl

theorem individual_decode {s : State} {t : Telegram} (htg : ¬ t.IsGroup) (htd : t.IsData) {k : Kind} {info f : Msg}
    (hi : info.length < 256) {pre : List OutMsg} (hc : Carries s (cemi (codeOf k) info t) f pre) :
    (∀ l, tDataIndividualDecode k s.tables (ldataOf t) (payload t) = .ok l →
      (decodeMsg f s).1 = .ok (.list (pre ++ l))) ∧
    ∀ e, tDataIndividualDecode k s.tables (ldataOf t) (payload t) = .error e → (decodeMsg f s).1 = .error e := by
  have hl : lDataDecode k s.tables (ldataOf t) (payload t) =
      match tDataIndividualDecode k s.tables (ldataOf t) (payload t) with
      | .error e => .error e
      | .ok l => .ok (.list l) := by
    unfold lDataDecode
    rw [addressType_individual htg]
    simp only
    unfold nDataIndividualDecode
    rw [if_pos ((nsdu_individual htg).2 htd)]
    cases tDataIndividualDecode k s.tables (ldataOf t) (payload t) <;> rfl
  constructor
  · intro l h
    rw [h] at hl
    rw [carries_list hc ((codeOf_cemi (k := k) (info := info) t hi s).trans (by rw [hl]))]
  · intro e h
    rw [h] at hl
    rw [carries_error hc ((codeOf_cemi (k := k) (info := info) t hi s).trans (by rw [hl]))]

/-- C58: a connectionless telegram to an individual address that concerns this state and carries a property service is
delivered as exactly one message for ASAP 0 with the octets it carries: object index, property id, four bits of count,
twelve bits of start index, and the data (which a read does not have). -/
theorem c58_delivered {s : State} {a : AssocTable} (ha : s.assoc = some a) {t : Telegram} (htg : ¬ t.IsGroup)
    (htd : t.IsData) {k : Kind} (hm : Mine a.at_.ind.fs (a.at_.gas.map Addr.fs) k t) {svc : Svc}
    (hs : propertyOf t = some svc) {o p q r : Byte} {data : Msg} (hr : t.rest = o :: p :: q :: r :: data)
    {info f : Msg} (hi : info.length < 256) {pre : List OutMsg} (hc : Carries s (cemi (codeOf k) info t) f pre) :
    (decodeMsg f s).1 = .ok (.list (pre ++ [.property svc (confOf k t) ⟨0, none⟩ o.toNat p.toNat (q.toNat / 16)
      (q.toNat % 16 * 256 + r.toNat) (if svc = .read then none else some data)])) := by
  apply (individual_decode htg htd hi hc).1
  have hserv : tDataIndividualDecode k s.tables (ldataOf t) (payload t) =
      .ok [.property svc (confOf k t) ⟨0, none⟩ o.toNat p.toNat (q.toNat / 16)
        (q.toNat % 16 * 256 + r.toNat) (if svc = .read then none else some data)] := by
    rw [mine_dispatch ha hm, dispatch_service, hs]
    have hpay : payload t = o :: p :: q :: r :: data := by
      unfold payload
      rw [hr, if_neg (by simp)]
    simp only
    unfold propertyServiceDecode
    rw [hpay]
    simp only [long, longOf_eq, conf_ldataOf]
    have h1 := o.isLt
    have h2 := p.isLt
    have h3 := q.isLt
    have h4 := r.isLt
    unfold propHeader getField
    simp only [Except.ok.injEq, List.cons.injEq, and_true, OutMsg.property.injEq, true_and]
    refine ⟨?_, ?_, ?_, ?_⟩ <;> norm_num <;> omega
  exact hserv

/-- C58: if fewer than four octets follow, decoding raises `IndexError`. -/
theorem c58_short {s : State} {a : AssocTable} (ha : s.assoc = some a) {t : Telegram} (htg : ¬ t.IsGroup)
    (htd : t.IsData) {k : Kind} (hm : Mine a.at_.ind.fs (a.at_.gas.map Addr.fs) k t) {svc : Svc}
    (hs : propertyOf t = some svc) (hr : t.rest.length < 4)
    {info f : Msg} (hi : info.length < 256) {pre : List OutMsg} (hc : Carries s (cemi (codeOf k) info t) f pre) :
    (decodeMsg f s).1 = .error .indexError := by
  have hserv : tDataIndividualDecode k s.tables (ldataOf t) (payload t) = .error .indexError := by
    rw [mine_dispatch ha hm, dispatch_service, hs]
    have hpay : (payload t).length < 4 := by
      unfold payload
      split
      · simp
      · exact hr
    simp only
    unfold propertyServiceDecode
    generalize payload t = m at *
    rcases m with _ | ⟨b1, _ | ⟨b2, _ | ⟨b3, _ | ⟨b4, m⟩⟩⟩⟩
    · rfl
    · rfl
    · rfl
    · rfl
    · simp at hpay
      omega
  exact (individual_decode htg htd hi hc).2 _ hserv

/-- C58: everything else that is addressed individually is ignored: other services, and telegrams of other devices. -/
theorem c58_ignored {s : State} {a : AssocTable} (ha : s.assoc = some a) {t : Telegram} (htg : ¬ t.IsGroup)
    (htd : t.IsData) {k : Kind} (hm : ¬ Mine a.at_.ind.fs (a.at_.gas.map Addr.fs) k t ∨ propertyOf t = none)
    {info f : Msg} (hi : info.length < 256) {pre : List OutMsg} (hc : Carries s (cemi (codeOf k) info t) f pre) :
    (decodeMsg f s).1 = .ok (.list pre) := by
  have hserv : tDataIndividualDecode k s.tables (ldataOf t) (payload t) = .ok [] := by
    by_cases hm' : Mine a.at_.ind.fs (a.at_.gas.map Addr.fs) k t
    · rw [mine_dispatch ha hm', dispatch_service]
      rcases hm with h | h
      · exact absurd hm' h
      · rw [h]
    · exact foreign_nothing ha hm' _
  rw [(individual_decode htg htd hi hc).1 _ hserv, List.append_nil]

/-- A property response of the own device. -/
def exResponse : Telegram := ⟨0xB0, 0x60, 0x1004, 0x0000, 6, 0x03, 0xD6, [0x00, 0x0B, 0x10, 0x01, 0xAA]⟩

example : (decodeMsg (usbReport (cemi 0x29 [1, 2] exResponse) ++ [9, 9]) (exState .usbHid)).1 =
    .ok (.list [.property .response .ind ⟨0, none⟩ 0 11 1 1 (some [0xAA])]) :=
  c58_delivered (s := exState .usbHid) (t := exResponse) (k := .ind) (info := [1, 2]) rfl (by decide) (by decide)
    (show exResponse.source = _ by decide) (svc := .response) (by decide) rfl (by decide) (.usb [9, 9] rfl (by decide))

example : (decodeMsg (usbReport (cemi 0x29 [] { exResponse with rest := [0, 11, 16] })) (exState .usbHid)).1 =
    .error .indexError := by
  rw [← List.append_nil (usbReport _)]
  exact c58_short (s := exState .usbHid) (t := { exResponse with rest := [0, 11, 16] }) (k := .ind) (info := []) rfl
    (by decide) (by decide) (show (0x1004 : BitVec 16) = _ by decide) (svc := .response) (by decide) (by decide)
    (by decide) (.usb [] rfl (by decide))

example : (decodeMsg (tunnelRequest 9 255 (cemi 0x29 [] { exResponse with source := 0x1105 })) (exState .knxnetIp)).1 =
    .ok (.list [.tunnelingReq 255 .noError]) :=
  c58_ignored (s := exState .knxnetIp) (t := { exResponse with source := 0x1105 }) (k := .ind) (info := []) rfl
    (by decide) (by decide) (.inl (show ¬ (0x1105 : BitVec 16) = _ by decide)) (by decide) (.ip 9 255 rfl (by decide))

end Knx
