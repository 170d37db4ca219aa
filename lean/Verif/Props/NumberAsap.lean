import Verif.Model.KnxNetIp
import Verif.Spec.NumberAsap
import Verif.Props.Telegrams

/-! # C116: numbers in place of ASAPs -/

namespace Knx
open Spec

/-- C116: the frame of a property message is the same whether its ASAP is an ASAP, with any name, or a number. -/
theorem c116_property_partial (m : NumMsg) (h : aboutGroup m = false) (name : Option String) (s : State) :
    (encodeNumber m s).1 = (encodeMsg (withAsap name m) s).1 := by
  cases m with
  | groupRead | groupWriteReq | groupWriteInd => cases h
  | propertyRead n oi pid k si =>
    simp only [encodeNumber, encodeMsg, withAsap, propertyReadEncode, tDataIndividualEncode, nDataIndividualEncode, State.tables,
      linkEncode, cemiEncode, cemiReqEncode, tunnelingReqEncode, connectionHeader]
  | propertyWrite n oi pid k si data =>
    simp only [encodeNumber, encodeMsg, withAsap, propertyWriteEncode]
    cases stringToOctets data with
    | error e => rfl
    | ok d =>
      simp only [tDataIndividualEncode, nDataIndividualEncode, State.tables,
        linkEncode, cemiEncode, cemiReqEncode, tunnelingReqEncode, connectionHeader]

/-- The message of the documentation of the USB client. -/
example : (encodeNumber (.propertyRead 0 1 0xC9 1 1) (exState .usbHid)).1 =
    (encodeMsg (.propertyRead ⟨0, some "individual address"⟩ 1 0xC9 1 1) (exState .usbHid)).1 :=
  c116_property_partial (.propertyRead 0 1 0xC9 1 1) rfl _ _

theorem hash_same {n : Int} (h : |n| < 2 ^ 61 - 1) {a : Asap} (ha : a.value = n) : a.hash = intHash n := by
  obtain ⟨h1, h2⟩ := abs_lt.1 h
  have hm : n.tmod (2 ^ 61 - 1) = n := by
    norm_num at h1 h2 ⊢
    rcases Int.le_total 0 n with h0 | h0
    · exact Int.tmod_eq_of_lt h0 h2
    · have := Int.tmod_eq_of_lt (a := -n) (b := 2305843009213693951) (by omega) (by omega)
      rw [Int.neg_tmod] at this
      omega
  unfold Asap.hash intHash
  rw [ha, hm, if_pos ⟨by omega, by omega⟩]

theorem dict_number {ν : Type} {d : List (Asap × ν)} {a : Asap} {v : ν} (h : dictGet Asap.eq d a = some v)
    (hn : |a.value| < 2 ^ 61 - 1) : numberError (d.map Prod.fst) a.value = .attributeError := by
  obtain ⟨k, hk, he⟩ := dictGet_mem asap_keyEq h
  unfold numberError
  rw [if_pos]
  rw [List.any_eq_true]
  exact ⟨k, List.mem_map_of_mem hk, by rw [hash_same hn he]; exact beq_self_eq_true _⟩

/-- C116: a number is refused in every message about a group value. -/
theorem c116_group_refuted (m : NumMsg) (h : aboutGroup m = true) (s : State) :
    (encodeNumber m s).1 = .error .attributeError ∨ (encodeNumber m s).1 = .error .keyError := by
  have h1 : ∀ keys n, numberError keys n = .attributeError ∨ numberError keys n = .keyError := by
    intro keys n
    unfold numberError
    split_ifs <;> simp
  cases m with
  | groupRead n =>
    show Except.error (s.tsapsError n) = _ ∨ Except.error (s.tsapsError n) = _
    unfold State.tsapsError
    cases s.assoc with
    | none => exact .inl rfl
    | some a => exact (h1 _ n).imp (congrArg _) (congrArg _)
  | groupWriteReq n d | groupWriteInd n d =>
    show Except.error (s.dptError n) = _ ∨ Except.error (s.dptError n) = _
    unfold State.dptError
    cases s.got with
    | none => exact .inl rfl
    | some g => exact (h1 _ n).imp (congrArg _) (congrArg _)
  | propertyRead | propertyWrite => cases h

/-- C116: and where the ASAP with that number can be written or read, what is raised is AttributeError. -/
theorem c116_refuted (m : NumMsg) (h : aboutGroup m = true) (hn : |numberIn m| < 2 ^ 61 - 1) (name : Option String) {s : State}
    {f : Msg} (hf : (encodeMsg (withAsap name m) s).1 = .ok f) : (encodeNumber m s).1 = .error .attributeError := by
  have hw : ∀ k n d, |n| < 2 ^ 61 - 1 → (groupWriteEncode k ⟨n, name⟩ d s).1 = .ok f → s.dptError n = .attributeError := by
    intro k n d hn hf
    simp only [groupWriteEncode, State.getDpt] at hf
    unfold State.dptError
    cases hg : s.got with
    | none => rfl
    | some g =>
      simp only [hg, GroupObjectTable.lookup] at hf
      cases hd : dictGet Asap.eq g ⟨n, name⟩ with
      | none => simp [hd] at hf
      | some c => exact dict_number hd hn
  cases m with
  | groupRead n =>
    show Except.error (s.tsapsError n) = _
    simp only [encodeMsg, withAsap, groupReadEncode, tDataGroupEncode, State.getTsaps] at hf
    unfold State.tsapsError
    cases ha : s.assoc with
    | none => rfl
    | some a =>
      simp only [ha, AssocTable.getTsaps] at hf
      cases hd : dictGet Asap.eq a.asapAddrs ⟨n, name⟩ with
      | none => simp [hd] at hf
      | some l => exact congrArg _ (dict_number hd hn)
  | groupWriteReq n d => exact congrArg _ (hw .req n d hn hf)
  | groupWriteInd n d => exact congrArg _ (hw .ind n d hn hf)
  | propertyRead | propertyWrite => cases h

/-- A read of ASAP 7 can be encoded. -/
example : (encodeNumber (.groupRead 7) (exState .usbHid)).1 = .error .attributeError ∧
    (encodeNumber (.groupRead 8) (exState .usbHid)).1 = .error .keyError := by
  obtain ⟨f, hf⟩ : ∃ f, (encodeMsg (.groupRead ⟨7, none⟩) (exState .usbHid)).1 = .ok f := ⟨_, rfl⟩
  exact ⟨c116_refuted (.groupRead 7) rfl (by simp [numberIn]) none hf,
    (c116_group_refuted (.groupRead 8) rfl (exState .usbHid)).resolve_left (by decide)⟩

/-- The state with other leftovers of an encoder. -/
def leftover (x : Option Asap) (y : Option Nat) (z : Option AddressType) (s : State) : State :=
  { s with asap := x, apci := y, addressType := z }

theorem cemi_leftover (x : Option Asap) (y : Option Nat) (z : Option AddressType) (k : Kind) (m : Msg) (s : State) :
    cemiLdataDecode k m (leftover x y z s) = ((cemiLdataDecode k m s).1, leftover x y z (cemiLdataDecode k m s).2) := by
  unfold cemiLdataDecode
  cases LData.makeFrom m with
  | error e => rfl
  | ok p => rfl

theorem msgCode_leftover (x : Option Asap) (y : Option Nat) (z : Option AddressType) (m : Msg) (s : State) :
    msgCodeDecode m (leftover x y z s) = ((msgCodeDecode m s).1, leftover x y z (msgCodeDecode m s).2) := by
  unfold msgCodeDecode
  cases octect m with
  | error e => rfl
  | ok p =>
    simp only
    cases octect p.2 with
    | error e => rfl
    | ok q =>
      simp only
      split_ifs
      · exact cemi_leftover x y z _ _ s
      · exact cemi_leftover x y z _ _ s
      · rfl

theorem report_leftover (x : Option Asap) (y : Option Nat) (z : Option AddressType) (m : Msg) (s : State) :
    reportIdDecode m (leftover x y z s) = ((reportIdDecode m s).1, leftover x y z (reportIdDecode m s).2) := by
  obtain ⟨P, hP⟩ : ∃ P : Py State Res → Prop, P = fun p => p (leftover x y z s) = ((p s).1, leftover x y z (p s).2) :=
    ⟨_, rfl⟩
  have h1 : ∀ e, P (Py.raise e) := fun _ => by rw [hP]; rfl
  have h2 : ∀ r, P (Py.pure r) := fun _ => by rw [hP]; rfl
  have h3 : ∀ m, P (msgCodeDecode m) := fun m => by rw [hP]; exact msgCode_leftover x y z m s
  suffices h : P (reportIdDecode m) by rw [hP] at h; exact h
  unfold reportIdDecode packetInfoDecode protocolVersionDecode headerLengthDecode bodyLengthDecode protocolIdDecode emiIdDecode
  repeat' split
  all_goals first
    | exact h1 _
    | exact h2 _
    | exact h3 _

theorem ip_leftover (x : Option Asap) (y : Option Nat) (z : Option AddressType) (m : Msg) (s : State) :
    ipHeaderDecode m (leftover x y z s) = ((ipHeaderDecode m s).1, leftover x y z (ipHeaderDecode m s).2) := by
  have h1 : ∀ m, disconnectResDecode m (leftover x y z s) =
      ((disconnectResDecode m s).1, leftover x y z (disconnectResDecode m s).2) := by
    intro m
    unfold disconnectResDecode
    repeat' split
    all_goals rfl
  have h2 : ∀ m, connectResDecode m (leftover x y z s) =
      ((connectResDecode m s).1, leftover x y z (connectResDecode m s).2) := by
    intro m
    unfold connectResDecode
    repeat' split
    all_goals rfl
  have h3 : ∀ m, tunnelingReqDecode m (leftover x y z s) =
      ((tunnelingReqDecode m s).1, leftover x y z (tunnelingReqDecode m s).2) := by
    intro m
    unfold tunnelingReqDecode
    cases short m with
    | error e => rfl
    | ok p =>
      simp only
      cases connHeader p.2 with
      | error e => rfl
      | ok q =>
        simp only [msgCode_leftover]
        show (if s.seqRemote = q.2.1 then _ else if s.seqRemote = q.2.1 + 1 then _ else _) = _
        by_cases ha : s.seqRemote = q.2.1
        · rw [if_pos ha, if_pos ha]
          cases hm : msgCodeDecode q.2.2.2 s with
          | mk r s' => cases r <;> rfl
        · rw [if_neg ha, if_neg ha]
          split_ifs <;> rfl
  have h4 : ∀ m, tunnelingAckDecode m (leftover x y z s) =
      ((tunnelingAckDecode m s).1, leftover x y z (tunnelingAckDecode m s).2) := by
    intro m
    unfold tunnelingAckDecode
    cases short m with
    | error e => rfl
    | ok p =>
      simp only
      cases connHeader p.2 with
      | error e => rfl
      | ok q =>
        by_cases ha : s.seqLocal = q.2.1
        · simp only [leftover, ha, if_true]
          cases errorCode q.2.2.1 <;> rfl
        · simp only [leftover, ha, if_false]
          cases errorCode q.2.2.1 <;> rfl
  obtain ⟨P, hP⟩ : ∃ P : Py State Res → Prop, P = fun p => p (leftover x y z s) = ((p s).1, leftover x y z (p s).2) :=
    ⟨_, rfl⟩
  have h5 : ∀ e, P (Py.raise e) := fun _ => by rw [hP]; rfl
  have h6 : ∀ r, P (Py.pure r) := fun _ => by rw [hP]; rfl
  suffices h : P (ipHeaderDecode m) by rw [hP] at h; exact h
  unfold ipHeaderDecode
  repeat' split
  all_goals first
    | exact h5 _
    | exact h6 _
    | (rw [hP]; first | exact h1 _ | exact h2 _ | exact h3 _ | exact h4 _)

theorem decode_leftover (x : Option Asap) (y : Option Nat) (z : Option AddressType) (m : Msg) (s : State) :
    decodeMsg m (leftover x y z s) = ((decodeMsg m s).1, leftover x y z (decodeMsg m s).2) := by
  have hm : (leftover x y z s).medium = s.medium := rfl
  unfold decodeMsg
  rw [hm]
  cases s.medium with
  | usbHid => exact report_leftover x y z m s
  | knxnetIp => exact ip_leftover x y z m s
  | tp => rfl

theorem encode_leftover (x : Option Asap) (y : Option Nat) (z : Option AddressType) (m : InMsg) (s : State) :
    (encodeMsg m (leftover x y z s)).1 = (encodeMsg m s).1 := by
  cases m with
  | tunnelingAck seq st =>
    simp only [encodeMsg, tunnelingAckEncode, connectionHeader, leftover]
    cases s.chan <;> rfl
  | groupWriteReq a d | groupWriteInd a d | propertyWrite a oi pid n si data =>
    first
      | rfl
  | _ => rfl

theorem number_leftover (m : NumMsg) (s : State) : ∃ x y z, (encodeNumber m s).2 = leftover x y z s := by
  cases m with
  | propertyWrite n oi pid k si data =>
    refine ⟨some ⟨n, none⟩, some 0x3D7, some .individual, ?_⟩
    simp only [encodeNumber]
    cases stringToOctets data <;> rfl
  | _ => exact ⟨_, _, _, rfl⟩

/-- C116: a message with a number, refused or not, has no effect on what is encoded or decoded after it. -/
theorem c116_after (m : NumMsg) (s : State) :
    (∀ m', (encodeMsg m' (encodeNumber m s).2).1 = (encodeMsg m' s).1) ∧
    ∀ f, (decodeMsg f (encodeNumber m s).2).1 = (decodeMsg f s).1 := by
  obtain ⟨x, y, z, h⟩ := number_leftover m s
  rw [h]
  exact ⟨fun m' => encode_leftover x y z m' s, fun f => by rw [decode_leftover]⟩

example : (decodeMsg (usbReport (cemi 0x29 [] exTelegram)) (encodeNumber (.groupRead 7) (exState .usbHid)).2).1 =
    (decodeMsg (usbReport (cemi 0x29 [] exTelegram)) (exState .usbHid)).1 :=
  (c116_after (.groupRead 7) _).2 _

end Knx
