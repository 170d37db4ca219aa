import Verif.Props.PropertyServices

/-! # C27: declared lengths -/

namespace Knx

open Spec

namespace Spec

/-- What an encoded message is: a USB report, a KNXnet/IP datagram that is not a tunnelling request, a tunnelling request,
or a bare cEMI frame. -/
inductive Carrier
  | report | datagram | tunnelled | bare
  deriving DecidableEq, Repr

/-- Which of them a message is encoded as. -/
def carrier (s : State) : InMsg → Carrier
  | .connectReq .. | .disconnectReq .. | .connectionstateReq .. | .searchReq .. | .tunnelingAck .. => .datagram
  | .groupWriteInd .. => .report
  | .groupRead .. | .groupWriteReq .. | .propertyRead .. | .propertyWrite .. =>
    match s.medium with
    | .usbHid => .report
    | .knxnetIp => .tunnelled
    | .tp => .bare

/-- The payload length of a cEMI frame without additional information (octet 8) counts the octets after the transport
control octet (octet 9). -/
def TruePayload (m : Msg) : Prop := ∃ b, m[8]? = some b ∧ b.toNat + 10 = m.length

/-- The declared lengths are true: in a report the data length (octet 2) counts what follows it, the body length (octets 5
and 6) what follows the eleven octets of the headers; in a datagram the total length (octets 4 and 5) counts all octets. -/
def TrueLengths : Carrier → Msg → Prop
  | .report, f => (∃ b, f[2]? = some b ∧ b.toNat + 3 = f.length) ∧ number ((f.drop 5).take 2) + 11 = f.length ∧
      TruePayload (f.drop 11)
  | .datagram, f => number ((f.drop 4).take 2) = f.length
  | .tunnelled, f => number ((f.drop 4).take 2) = f.length ∧ TruePayload (f.drop 10)
  | .bare, f => TruePayload f

/-- The ASAP of a group message has an address. -/
def HasAddress (s : State) (asap : Asap) : Prop := ∃ a x as, s.assoc = some a ∧ a.sendAddresses asap = .ok (x :: as)

/-- The data of a property write fit: 232 octets on USB, 250 otherwise. -/
def dataLimit (s : State) : Nat := if s.medium = .usbHid then 232 else 250

/-- The conditions under which the lengths are true. -/
def Fits (s : State) : InMsg → Prop
  | .groupRead asap | .groupWriteReq asap _ | .groupWriteInd asap _ => HasAddress s asap
  | .propertyWrite _ _ _ _ _ data => data.length / 2 ≤ dataLimit s
  | _ => True

end Spec

theorem usbReport_length (m : Msg) : (usbReport m).length = m.length + 11 := by
  unfold usbReport
  simp only [List.length_append, List.length_cons, List.length_nil, octetsOf_length]
  omega

theorem tunnelRequest_length (c q : Byte) (m : Msg) : (tunnelRequest c q m).length = m.length + 10 := by
  unfold tunnelRequest
  simp only [List.length_append, List.length_cons, List.length_nil, octetsOf_length]
  omega

theorem usbReport_drop (m : Msg) : (usbReport m).drop 11 = m := by
  unfold usbReport
  rw [octetsOf_two]
  rfl

theorem tunnelRequest_drop (c q : Byte) (m : Msg) : (tunnelRequest c q m).drop 10 = m := by
  unfold tunnelRequest
  rw [octetsOf_two]
  rfl

theorem payload_iff (code : Byte) (g : Bool) (x : BitVec 16) (c : Nat) (rest : Msg) :
    TruePayload (cemi code [] (request g x c rest)) ↔ rest.length < 255 := by
  have h8 : (cemi code [] (request g x c rest))[8]? = some (BitVec.ofNat 8 (rest.length + 1)) := by
    unfold cemi
    rw [octets_eq, octetsOf_two, octetsOf_two]
    rfl
  unfold TruePayload
  rw [h8, cemi_length, show (request g x c rest).rest = rest from rfl]
  simp only [Option.some.injEq, exists_eq_left', BitVec.toNat_ofNat, List.length_nil]
  omega

theorem report_lengths (m : Msg) : TrueLengths .report (usbReport m) ↔ m.length + 8 < 256 ∧ TruePayload m := by
  have h2 : (usbReport m)[2]? = some (BitVec.ofNat 8 (m.length + 8)) := rfl
  have h5 : ((usbReport m).drop 5).take 2 = octetsOf 2 m.length := by
    unfold usbReport
    rw [octetsOf_two]
    rfl
  unfold TrueLengths
  simp only
  rw [h2, h5, number_octetsOf, usbReport_length, usbReport_drop]
  simp only [Option.some.injEq, exists_eq_left', BitVec.toNat_ofNat]
  constructor
  · rintro ⟨h, -, h'⟩
    exact ⟨by omega, h'⟩
  · rintro ⟨h, h'⟩
    exact ⟨by omega, by omega, h'⟩

theorem tunnelled_lengths (c q : Byte) (m : Msg) :
    TrueLengths .tunnelled (tunnelRequest c q m) ↔ m.length + 10 < 65536 ∧ TruePayload m := by
  have h5 : ((tunnelRequest c q m).drop 4).take 2 = octetsOf 2 (m.length + 10) := by
    unfold tunnelRequest
    rw [octetsOf_two]
    rfl
  unfold TrueLengths
  simp only
  rw [h5, number_octetsOf, tunnelRequest_length, tunnelRequest_drop]
  constructor
  · rintro ⟨h, h'⟩
    exact ⟨by omega, h'⟩
  · rintro ⟨h, h'⟩
    exact ⟨by omega, h'⟩

/-- The lengths of a request frame are true exactly up to a size. -/
theorem envelope_lengths {s : State} {code : Byte} {g : Bool} {x : BitVec 16} {c : Nat} {rest f : Msg} {ca : Carrier}
    (hca : ca = match s.medium with
      | .usbHid => .report
      | .knxnetIp => .tunnelled
      | .tp => .bare)
    (h : envelope s (cemi code [] (request g x c rest)) = some f) :
    TrueLengths ca f ↔ rest.length ≤ if s.medium = .usbHid then 236 else 254 := by
  subst hca
  have hl : (cemi code [] (request g x c rest)).length = 11 + rest.length := by
    rw [cemi_length]; simp [request]
  have hp := payload_iff code g x c rest
  unfold envelope at h
  cases hm : s.medium with
  | usbHid =>
    rw [hm] at h
    cases h
    simp only [report_lengths, hl, hp, if_true]
    omega
  | knxnetIp =>
    rw [hm] at h
    simp only at h
    cases hc : s.chan with
    | none => rw [hc] at h; cases h
    | some n =>
      rw [hc] at h
      cases h
      simp only [tunnelled_lengths, hl, hp, reduceCtorEq, if_false]
      omega
  | tp =>
    rw [hm] at h
    cases h
    simp only [TrueLengths, hp, reduceCtorEq, if_false]
    omega

theorem hpai_length (ip : BitVec 32) (port : Int) : (hpaiCreate ip port).length = 8 := by
  unfold hpaiCreate longOctets shortOctets
  rfl

theorem shortOctets_nat (n : Int) (h : 0 ≤ n) (h' : n < 65536) : number (shortOctets n) = n.toNat := by
  obtain ⟨k, rfl⟩ := Int.eq_ofNat_of_zero_le h
  rw [shortOctets_ofNat, number_octetsOf]
  simp only [Int.toNat_natCast]
  omega

/-- A datagram built from a service, a total length and a body. -/
theorem datagram_lengths (service n : Int) (body : Msg) (h0 : 0 ≤ n) (h1 : n < 65536) (h2 : n = body.length + 6) :
    TrueLengths .datagram (ipHeaderEncode (shortOctets service ++ (shortOctets n ++ body))) := by
  have h5 : ((ipHeaderEncode (shortOctets service ++ (shortOctets n ++ body))).drop 4).take 2 = shortOctets n := rfl
  have hl : (ipHeaderEncode (shortOctets service ++ (shortOctets n ++ body))).length = body.length + 6 := by
    unfold ipHeaderEncode shortOctets
    simp
  unfold TrueLengths
  simp only
  rw [h5, hl, shortOctets_nat n h0 h1]
  omega

/-- C27: in every encoded message the declared lengths are true, under the conditions of `Fits`. Missing from the full
claim: an ASAP without addresses (`c27_refuted`) and longer property data (`c27_long_refuted`). -/
theorem c27_partial {s : State} {m : InMsg} {f : Msg} (h : (encodeMsg m s).1 = .ok f) (hf : Fits s m) :
    TrueLengths (carrier s m) f := by
  cases m with
  | connectReq ci cp di dp =>
    cases h
    show TrueLengths .datagram (connectReqEncode ci cp di dp)
    unfold connectReqEncode
    simp only [List.append_assoc]
    exact datagram_lengths _ _ _ (by decide) (by decide) (by simp [hpai_length])
  | disconnectReq ip port =>
    change channelReqEncode 0x0209 s ip port = .ok f at h
    unfold channelReqEncode at h
    cases hc : s.chan with
    | none => rw [hc] at h; cases h
    | some n =>
      rw [hc] at h
      cases h
      show TrueLengths .datagram _
      simp only [List.append_assoc]
      exact datagram_lengths _ _ _ (by decide) (by decide) (by simp [hpai_length])
  | connectionstateReq ip port =>
    change channelReqEncode 0x0207 s ip port = .ok f at h
    unfold channelReqEncode at h
    cases hc : s.chan with
    | none => rw [hc] at h; cases h
    | some n =>
      rw [hc] at h
      cases h
      show TrueLengths .datagram _
      simp only [List.append_assoc]
      exact datagram_lengths _ _ _ (by decide) (by decide) (by simp [hpai_length])
  | searchReq ip port =>
    cases h
    show TrueLengths .datagram (searchReqEncode ip port)
    unfold searchReqEncode
    simp only [List.append_assoc]
    exact datagram_lengths _ _ _ (by decide) (by decide) (by simp [hpai_length])
  | tunnelingAck seq status =>
    change (tunnelingAckEncode seq status s).1 = .ok f at h
    unfold tunnelingAckEncode connectionHeader at h
    cases hc : s.chan with
    | none => rw [hc] at h; cases h
    | some n =>
      rw [hc] at h
      cases h
      show TrueLengths .datagram _
      simp only [List.append_assoc]
      exact datagram_lengths _ _ _ (by decide) (by decide) rfl
  | groupRead asap =>
    obtain ⟨a, x, as, ha, hs⟩ := hf
    obtain ⟨a', as', e1, e2, e3⟩ := read_frame h
    rw [ha] at e1
    cases e1
    rw [hs] at e2
    cases e2
    exact (envelope_lengths rfl (e3 x rfl)).2 (Nat.zero_le _)
  | groupWriteReq asap d =>
    obtain ⟨a, x, as, ha, hs⟩ := hf
    obtain ⟨a', g, c, as', e1, -, -, e2, e3⟩ := write_frame h
    rw [ha] at e1
    cases e1
    rw [hs] at e2
    cases e2
    have e3 := e3 x rfl
    have hr := (writeTelegram_facts x c d.raw).2.2.2.2.2.2
    unfold writeTelegram at e3 hr
    split_ifs at e3 hr with hb
    · exact (envelope_lengths rfl e3).2 (Nat.zero_le _)
    · have hr : (octetsOf (octets c) d.raw).length ≤ 4 := hr
      exact (envelope_lengths rfl e3).2 (by split_ifs <;> omega)
  | groupWriteInd asap d =>
    obtain ⟨a, x, as, ha, hs⟩ := hf
    obtain ⟨a', g, c, as', e1, -, -, e2, e3⟩ := indication_frame h
    rw [ha] at e1
    cases e1
    rw [hs] at e2
    cases e2
    rw [e3 x rfl]
    show TrueLengths .report _
    have hr := (writeTelegram_facts x c d.raw).2.2.2.2.2.2
    rw [report_lengths, cemi_length]
    refine ⟨by simp only [List.length_nil]; omega, ?_⟩
    unfold writeTelegram at hr ⊢
    split_ifs at hr ⊢
    · exact (payload_iff _ _ _ _ _).2 (by decide)
    · have hr : (octetsOf (octets c) d.raw).length ≤ 4 := hr
      exact (payload_iff _ _ _ _ _).2 (by omega)
  | propertyRead asap oi pid n si =>
    change (propertyReadEncode asap oi pid n si s).1 = .ok f at h
    cases ha : s.assoc with
    | none =>
      exfalso
      unfold propertyReadEncode tDataIndividualEncode nDataIndividualEncode Tables.individualAddress State.tables at h
      simp only [ha] at h
      cases h
    | some a =>
      rw [propertyRead_eq ha] at h
      refine (envelope_lengths rfl (finish_ok h)).2 ?_
      rw [List.length_append, octetsOf_length]
      split_ifs <;> decide
  | propertyWrite asap oi pid n si data =>
    change (propertyWriteEncode asap oi pid n si data s).1 = .ok f at h
    have hf : data.length / 2 ≤ dataLimit s := hf
    cases ha : s.assoc with
    | none =>
      exfalso
      unfold propertyWriteEncode at h
      simp only at h
      rcases hd : stringToOctets data with e | bs
      · rw [hd] at h; cases h
      · rw [hd] at h
        unfold tDataIndividualEncode nDataIndividualEncode Tables.individualAddress State.tables at h
        simp only [ha] at h
        cases h
    | some a =>
      rw [propertyWrite_eq ha] at h
      simp only at h
      rcases hd : stringToOctets data with e | bs
      · rw [hd] at h; cases h
      · rw [hd] at h
        refine (envelope_lengths rfl (finish_ok h)).2 ?_
        rw [List.length_append, octetsOf_length, (c02_octets data bs hd).1]
        unfold dataLimit at hf
        split_ifs at hf ⊢ <;> omega

/-- C27 is false for every property write that is encoded with more data than `dataLimit`. -/
theorem c27_long_refuted {s : State} {asap : Asap} {oi pid n si : Int} {data : List Char} {f : Msg} {a : AssocTable}
    (ha : s.assoc = some a) (h : (encodeMsg (.propertyWrite asap oi pid n si data) s).1 = .ok f)
    (hl : dataLimit s < data.length / 2) :
    ¬ TrueLengths (carrier s (.propertyWrite asap oi pid n si data)) f := by
  change (propertyWriteEncode asap oi pid n si data s).1 = .ok f at h
  rw [propertyWrite_eq ha] at h
  simp only at h
  rcases hd : stringToOctets data with e | bs
  · rw [hd] at h; cases h
  · rw [hd] at h
    rw [show TrueLengths (carrier s (.propertyWrite asap oi pid n si data)) f ↔ _ from
      envelope_lengths rfl (finish_ok h)]
    rw [List.length_append, octetsOf_length, (c02_octets data bs hd).1]
    unfold dataLimit at hl
    split_ifs at hl ⊢ <;> omega

/-- Such a write is encoded without complaint. -/
example : ∃ f, (encodeMsg (.propertyWrite ⟨0, none⟩ 0 1 1 1 (List.replicate 466 'a')) (exState .usbHid)).1 = .ok f ∧
    ¬ TrueLengths .report f := by
  obtain ⟨f, hf⟩ := (c26_succeeds (s := exState .usbHid) rfl (by decide) ⟨0, none⟩ 0 1 1 1 (List.replicate 466 'a')
    (by intro c hc; rw [List.eq_of_mem_replicate hc]; decide)).2
  exact ⟨f, hf, c27_long_refuted (s := exState .usbHid) rfl hf (by rw [List.length_replicate]; decide)⟩

/-- C27 is false for an ASAP without addresses: the frame ends where the payload length should be. -/
theorem c27_refuted : ∃ (at_ : AddressTable) (ops : List AssocTable.Op) (s : State) (m : InMsg) (f : Msg),
    (∀ op ∈ ops, op.Proper at_.ind) ∧ AssocTable.AllOk (AssocTable.init at_ []).2 ops ∧
    s.assoc = some ((AssocTable.init at_ []).2.afterAll ops) ∧
    (encodeMsg m s).1 = .ok f ∧ ¬ TrueLengths (carrier s m) f := by
  let t := (AssocTable.init exAt []).2.afterAll [.associate ⟨5, none⟩ []]
  refine ⟨exAt, [.associate ⟨5, none⟩ []], State.init .usbHid (some t) (some []), .groupRead ⟨5, none⟩,
    usbReport [0x11, 0, 0x96, 0xE0, 0, 0, 0], by decide, by decide, rfl, by decide, ?_⟩
  rintro ⟨-, -, b, hb, -⟩
  rw [usbReport_drop] at hb
  cases hb

example : TrueLengths .tunnelled (tunnelRequest 0 0 (cemi 0x11 [] (writeTelegram 0x0E89 .float16 0x0C3D))) :=
  c27_partial (s := exState .knxnetIp) (m := .groupWriteReq ⟨7, none⟩ ⟨.float16, 0x0C3D⟩) (by decide)
    ⟨_, 0x0E89, [1], rfl, by decide⟩

end Knx
