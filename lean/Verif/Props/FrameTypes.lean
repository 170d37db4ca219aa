import Verif.Spec.FrameTypes
import Verif.Props.Lengths
import Verif.Props.Decoder

/-! # C110: standard and extended frames -/

namespace Knx

open Spec

namespace Spec

/-- The cEMI frame inside what is sent. -/
def inside : Carrier → Msg → Msg
  | .report, f => f.drop 11
  | .tunnelled, f => f.drop 10
  | .datagram, _ => []
  | .bare, f => f

/-- The requests that fit a standard frame. -/
def FitsStandard (s : State) : InMsg → Prop
  | .groupRead asap | .groupWriteReq asap _ | .groupWriteInd asap _ => HasAddress s asap
  | .propertyRead .. => True
  | .propertyWrite _ _ _ _ _ data => data.length / 2 ≤ 10
  | _ => False

end Spec

theorem rightFrameType_request (code : Byte) (g : Bool) (x : BitVec 16) (c : Nat) (rest : Msg) :
    RightFrameType (cemi code [] (request g x c rest)) ↔ rest.length ≤ 14 := by
  have h2 : (cemi code [] (request g x c rest))[2]? = some 0x96 := rfl
  unfold RightFrameType
  rw [h2, cemi_length, show (request g x c rest).rest = rest from rfl]
  simp only [Option.some.injEq, exists_eq_left', List.length_nil, standardRoom]
  rw [iff_true_left (show 128 ≤ BitVec.toNat (0x96 : Byte) by decide)]
  omega

theorem inside_envelope {s : State} {m : InMsg} {c f : Msg} (h : envelope s c = some f)
    (hm : carrier s m = match s.medium with
      | .usbHid => .report
      | .knxnetIp => .tunnelled
      | .tp => .bare) : inside (carrier s m) f = c := by
  rw [hm]
  unfold envelope at h
  cases hmm : s.medium with
  | usbHid =>
    rw [hmm] at h
    cases h
    exact usbReport_drop c
  | tp =>
    rw [hmm] at h
    cases h
    rfl
  | knxnetIp =>
    rw [hmm] at h
    cases hc : s.chan with
    | none => rw [hc] at h; cases h
    | some n =>
      rw [hc] at h
      cases h
      unfold tunnelRequest
      rw [octetsOf_two]
      rfl

/-- The frame of a property write. -/
theorem propertyWrite_inside {s : State} {asap : Asap} {oi pid n si : Int} {data : List Char} {f : Msg}
    (h : (encodeMsg (.propertyWrite asap oi pid n si data) s).1 = .ok f) :
    RightFrameType (inside (carrier s (.propertyWrite asap oi pid n si data)) f) ↔ data.length / 2 ≤ 10 := by
  change (propertyWriteEncode asap oi pid n si data s).1 = .ok f at h
  cases ha : s.assoc with
  | none =>
    exfalso
    unfold propertyWriteEncode at h
    simp only at h
    rcases hd : stringToOctets data with e | bs
    · rw [hd] at h; cases h
    · rw [hd] at h
      unfold tDataIndividualEncode nDataIndividualEncode Tables.individualAddress State.tables at h
      simp only [ha] at h
      cases h
  | some a =>
    rw [propertyWrite_eq ha] at h
    simp only at h
    rcases hd : stringToOctets data with e | bs
    · rw [hd] at h; cases h
    · rw [hd] at h
      rw [inside_envelope (finish_ok h) rfl]
      unfold propertyTelegram
      rw [rightFrameType_request, List.length_append, octetsOf_length, (c02_octets data bs hd).1]
      omega

/-- C110, sending: a request whose telegram fits a standard frame is sent as one. Missing from the full claim: property writes
of more than 10 octets (`c110_refuted`). -/
theorem c110_partial {s : State} {m : InMsg} {f : Msg} (h : (encodeMsg m s).1 = .ok f) (hf : FitsStandard s m) :
    RightFrameType (inside (carrier s m) f) := by
  have hw : ∀ code x c raw, RightFrameType (cemi code [] (writeTelegram x c raw)) := by
    intro code x c raw
    have hr := (writeTelegram_facts x c raw).2.2.2.2.2.2
    unfold writeTelegram at hr ⊢
    split_ifs at hr ⊢
    · exact (rightFrameType_request ..).2 (by decide)
    · have hr : (octetsOf (octets c) raw).length ≤ 4 := hr
      exact (rightFrameType_request ..).2 (by omega)
  cases m with
  | connectReq => exact hf.elim
  | disconnectReq => exact hf.elim
  | connectionstateReq => exact hf.elim
  | searchReq => exact hf.elim
  | tunnelingAck => exact hf.elim
  | groupRead asap =>
    obtain ⟨a, x, as, ha, hs⟩ := hf
    obtain ⟨a', as', e1, e2, e3⟩ := read_frame h
    rw [ha] at e1
    cases e1
    rw [hs] at e2
    cases e2
    rw [inside_envelope (e3 x rfl) rfl]
    exact (rightFrameType_request ..).2 (by decide)
  | groupWriteReq asap d =>
    obtain ⟨a, x, as, ha, hs⟩ := hf
    obtain ⟨a', g, c, as', e1, -, -, e2, e3⟩ := write_frame h
    rw [ha] at e1
    cases e1
    rw [hs] at e2
    cases e2
    rw [inside_envelope (e3 x rfl) rfl]
    exact hw ..
  | groupWriteInd asap d =>
    obtain ⟨a, x, as, ha, hs⟩ := hf
    obtain ⟨a', g, c, as', e1, -, -, e2, e3⟩ := indication_frame h
    rw [ha] at e1
    cases e1
    rw [hs] at e2
    cases e2
    rw [e3 x rfl]
    show RightFrameType ((usbReport _).drop 11)
    rw [usbReport_drop]
    exact hw ..
  | propertyRead asap oi pid n si =>
    change (propertyReadEncode asap oi pid n si s).1 = .ok f at h
    cases ha : s.assoc with
    | none =>
      exfalso
      unfold propertyReadEncode tDataIndividualEncode nDataIndividualEncode Tables.individualAddress State.tables at h
      simp only [ha] at h
      cases h
    | some a =>
      rw [propertyRead_eq ha] at h
      rw [inside_envelope (finish_ok h) rfl]
      unfold propertyTelegram
      rw [rightFrameType_request, List.length_append, octetsOf_length]
      decide
  | propertyWrite asap oi pid n si data => exact (propertyWrite_inside h).2 hf

/-- C110 is false for every property write of more than 10 octets that is encoded: it is sent as a standard frame. -/
theorem c110_refuted {s : State} {asap : Asap} {oi pid n si : Int} {data : List Char} {f : Msg}
    (h : (encodeMsg (.propertyWrite asap oi pid n si data) s).1 = .ok f) (hl : 10 < data.length / 2) :
    ¬ RightFrameType (inside (carrier s (.propertyWrite asap oi pid n si data)) f) := by
  rw [propertyWrite_inside h]
  omega

theorem lDataDecode_same {t u : Telegram} (h : SameTelegram t u) (k : Kind) (tb : Tables) (m : Msg) :
    lDataDecode k tb (ldataOf t) m = lDataDecode k tb (ldataOf u) m := by
  obtain ⟨h1, h2, h3, h4, h5, h6, -⟩ := h
  have ht := t.ctrl2.isLt
  have hu := u.ctrl2.isLt
  have hat : (ldataOf t).addressType = (ldataOf u).addressType := by
    unfold LData.addressType getB getField ldataOf
    unfold Telegram.IsGroup at h2
    simp only
    congr 1
    apply propext
    omega
  have hst : (ldataOf t).status = (ldataOf u).status := by
    unfold LData.status getB getField ldataOf
    simp only [pow_zero, Nat.div_one, pow_one, h1]
  have hd : (ldataOf t).destination = (ldataOf u).destination := h4
  have htp : (ldataOf t).tpci = (ldataOf u).tpci := h5
  have hap : (ldataOf t).apci = (ldataOf u).apci := h6
  have hns : (ldataOf t).nsdu = (ldataOf u).nsdu := by unfold LData.nsdu; simp only [hat, hd, htp]
  have hfull : (ldataOf t).apciFull = (ldataOf u).apciFull := by unfold LData.apciFull; rw [htp, hap]
  have hdat : (ldataOf t).data = (ldataOf u).data := by unfold LData.data; rw [hap]
  have hcf : k.conf (ldataOf t) = k.conf (ldataOf u) := by cases k <;> simp [Kind.conf, hst]
  have hps : ∀ svc, propertyServiceDecode svc k (ldataOf t) m = propertyServiceDecode svc k (ldataOf u) m := by
    intro svc; unfold propertyServiceDecode; rw [hcf]
  have hpd : propertyDispatch k (ldataOf t) m = propertyDispatch k (ldataOf u) m := by
    unfold propertyDispatch; simp only [hfull, hps]
  have hgs : ∀ svc, groupServiceDecode svc k tb (ldataOf t) m = groupServiceDecode svc k tb (ldataOf u) m := by
    intro svc; unfold groupServiceDecode groupValueDecode; rw [hcf, hd]
  have htg : tDataGroupDecode k tb (ldataOf t) m = tDataGroupDecode k tb (ldataOf u) m := by
    unfold tDataGroupDecode; simp only [hd, hfull, hdat, hgs]
  unfold lDataDecode nDataGroupDecode nDataIndividualDecode
  rw [← hat]
  cases ha : (ldataOf t).addressType with
  | group => simp only [hd, hns, htg]
  | individual =>
    have hso : (ldataOf t).source = (ldataOf u).source := by
      rcases h3 with h3 | h3
      · exfalso
        unfold LData.addressType getB getField ldataOf at ha
        unfold Telegram.IsGroup at h3
        simp only at ha
        split_ifs at ha with hz
        omega
      · exact h3
    have hti : tDataIndividualDecode k tb (ldataOf t) m = tDataIndividualDecode k tb (ldataOf u) m := by
      unfold tDataIndividualDecode; simp only [hd, hso, hpd]
    simp only [hns, hti]

theorem msgCode_sameTelegram {t u : Telegram} (h : SameTelegram t u) (code : Byte) {info info' : Msg} (hi : info.length < 256)
    (hi' : info'.length < 256) (s : State) :
    (msgCodeDecode (cemi code info t) s).1 = (msgCodeDecode (cemi code info' u) s).1 := by
  rw [msgCode_cemi t hi, msgCode_cemi u hi']
  have key : ∀ k, (cemiLdataDecode k t.octets s).1 = (cemiLdataDecode k u.octets s).1 := by
    intro k
    unfold cemiLdataDecode
    rw [makeFrom_octets, makeFrom_octets]
    obtain ⟨-, -, -, -, -, h6, h7⟩ := id h
    simp only [h6, h7]
    exact lDataDecode_same h k _ _
  split_ifs
  · exact key _
  · exact key _
  · rfl

/-- C110, receiving: what is delivered depends neither on the type of a frame nor on the other marks of its way on the bus, nor
on the additional information. -/
theorem c110_receive {s : State} {t u : Telegram} (h : SameTelegram t u) {code : Byte} {info info' : Msg} (hi : info.length < 256)
    (hi' : info'.length < 256) {f f' : Msg} {pre pre' : List OutMsg} (hf : Carries s (cemi code info t) f pre)
    (hf' : Carries s (cemi code info' u) f' pre') : (decodeMsg f s).1 = (decodeMsg f' s).1 := by
  have key := msgCode_sameTelegram h code hi hi' s
  cases hf with
  | usb pad hm hl =>
    cases hf' with
    | ip chan seq hm' => rw [hm] at hm'; cases hm'
    | usb pad' hm' hl' =>
      unfold decodeMsg
      rw [hm]
      simp only [usb_open hl, usb_open hl', key]
  | ip chan seq hm hs =>
    cases hf' with
    | usb pad' hm' hl' => rw [hm] at hm'; cases hm'
    | ip chan' seq' hm' hs' =>
      unfold decodeMsg
      rw [hm]
      simp only [ip_open _ hs, ip_open _ hs']
      have hq : seq.toNat = seq'.toNat := hs.symm.trans hs'
      revert key
      rcases msgCodeDecode (cemi code info t) s with ⟨r, s1⟩
      rcases msgCodeDecode (cemi code info' u) s with ⟨r', s2⟩
      intro key
      have key : r = r' := key
      subst key
      rw [hq]
      cases r <;> rfl

/-- 10 octets fit, 11 do not. -/
example : ∃ f, (encodeMsg (.propertyWrite ⟨0, none⟩ 0 1 1 1 (List.replicate 20 'a')) (exState .knxnetIp)).1 = .ok f ∧
    RightFrameType (f.drop 10) := by
  obtain ⟨f, hf⟩ := (c26_succeeds (s := exState .knxnetIp) rfl (by decide) ⟨0, none⟩ 0 1 1 1 (List.replicate 20 'a')
    (by intro c hc; rw [List.eq_of_mem_replicate hc]; decide)).2
  exact ⟨f, hf, c110_partial hf (by show _ ≤ 10; rw [List.length_replicate])⟩
example : ∃ f, (encodeMsg (.propertyWrite ⟨0, none⟩ 0 1 1 1 (List.replicate 22 'a')) (exState .knxnetIp)).1 = .ok f ∧
    ¬ RightFrameType (f.drop 10) := by
  obtain ⟨f, hf⟩ := (c26_succeeds (s := exState .knxnetIp) rfl (by decide) ⟨0, none⟩ 0 1 1 1 (List.replicate 22 'a')
    (by intro c hc; rw [List.eq_of_mem_replicate hc]; decide)).2
  exact ⟨f, hf, c110_refuted hf (by rw [List.length_replicate]; decide)⟩

/-- A group write in a standard frame, and in an extended one with another priority, hop count, source and length. -/
example : (decodeMsg (usbReport (cemi 0x29 [] ⟨0xBC, 0xE0, 0x1101, 0x0E89, 3, 0, 0x80, [0x0C, 0x3D]⟩)) (exState .usbHid)).1 =
    (decodeMsg (usbReport (cemi 0x29 [1, 2] ⟨0x30, 0xD0, 0x1205, 0x0E89, 9, 0, 0x80, [0x0C, 0x3D]⟩)) (exState .usbHid)).1 := by
  have h1 := Carries.usb (s := exState .usbHid) (m := cemi 0x29 [] ⟨0xBC, 0xE0, 0x1101, 0x0E89, 3, 0, 0x80, [0x0C, 0x3D]⟩) []
    rfl (by decide)
  have h2 := Carries.usb (s := exState .usbHid)
    (m := cemi 0x29 [1, 2] ⟨0x30, 0xD0, 0x1205, 0x0E89, 9, 0, 0x80, [0x0C, 0x3D]⟩) [] rfl (by decide)
  rw [List.append_nil] at h1 h2
  exact c110_receive (by unfold SameTelegram Telegram.IsGroup; decide) (by decide) (by decide) h1 h2

end Knx
