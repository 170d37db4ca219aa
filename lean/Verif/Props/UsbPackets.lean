import Verif.Spec.UsbPackets
import Verif.Props.Lengths
import Verif.Props.Decoder

/-! # C109: reports of 64 octets -/

namespace Knx

open Spec

theorem transfer_length (m : Msg) : (transfer m).length = m.length + 8 := by
  unfold transfer
  simp only [List.length_append, List.length_cons, List.length_nil, octetsOf_length]
  omega

theorem pieces_one {b : Msg} (h : b.length ≤ packetRoom) : pieces b = [b] := by
  rw [pieces, if_neg (by omega)]

theorem pieces_pos (b : Msg) : 0 < (pieces b).length := by
  rw [pieces]
  split_ifs <;> simp

theorem pieces_many {b : Msg} (h : packetRoom < b.length) : 1 < (pieces b).length := by
  rw [pieces, if_pos h, List.length_cons]
  exact Nat.succ_lt_succ (pieces_pos _)

theorem pieces_le (b : Msg) : ∀ p ∈ pieces b, p.length ≤ packetRoom := by
  induction b using pieces.induct with
  | case1 b h ih =>
    rw [pieces, if_pos h]
    intro p hp
    rcases List.mem_cons.1 hp with rfl | hp
    · simp only [List.length_take]; omega
    · exact ih p hp
  | case2 b h =>
    rw [pieces, if_neg h]
    intro p hp
    rw [List.mem_singleton.1 hp]
    omega

/-- Nothing of a transfer is lost and nothing added. -/
theorem pieces_flatten (b : Msg) : (pieces b).flatten = b := by
  induction b using pieces.induct with
  | case1 b h ih => rw [pieces, if_pos h, List.flatten_cons, ih, List.take_append_drop]
  | case2 b h => rw [pieces, if_neg h]; simp

/-- Every report has 64 octets. -/
theorem packets_length (m : Msg) : ∀ p ∈ packets m, p.length = 64 := by
  intro p hp
  obtain ⟨q, hq, rfl⟩ := List.mem_map.1 hp
  have := pieces_le _ q.1 (List.fst_mem_of_mem_zipIdx hq)
  unfold packet
  simp only [List.length_append, List.length_cons, List.length_nil, List.length_replicate]
  unfold packetRoom at *
  omega

/-- The only report of a short frame. -/
theorem packets_one {m : Msg} (h : m.length ≤ 53) :
    packets m = [usbReport m ++ List.replicate (53 - m.length) 0] := by
  have h1 : pieces (transfer m) = [transfer m] := pieces_one (by rw [transfer_length]; unfold packetRoom; omega)
  unfold packets
  rw [h1]
  have h2 : packetRoom - (m.length + 8) = 53 - m.length := by unfold packetRoom; omega
  simp only [List.zipIdx_cons, List.zipIdx_nil, List.map_cons, List.map_nil, packet, h2, transfer_length,
    List.length_singleton]
  unfold usbReport transfer
  simp [packetType]

/-- C109, sending: the octets of a request whose frame fits a report are the only report the standard has for its frame,
but for the octets of padding. Missing from the full claim: property writes with more than 38 octets
(`c109_refuted`). -/
theorem c109_partial {s : State} (hm : s.medium = .usbHid) {m : InMsg} {f : Msg} (h : (encodeMsg m s).1 = .ok f)
    (hf : FitsReport s m) : ∃ c, packets c = [f ++ List.replicate (64 - f.length) 0] := by
  have key : ∀ c : Msg, c.length ≤ 53 → f = usbReport c → ∃ c, packets c = [f ++ List.replicate (64 - f.length) 0] := by
    rintro c hc rfl
    refine ⟨c, (packets_one hc).trans ?_⟩
    rw [usbReport_length, show 64 - (c.length + 11) = 53 - c.length by omega]
  have henv : ∀ c : Msg, envelope s c = some f → f = usbReport c := by
    intro c hc
    unfold envelope at hc
    rw [hm] at hc
    exact (Option.some.inj hc).symm
  have hw : ∀ x c raw code, (cemi code [] (writeTelegram x c raw)).length ≤ 53 := by
    intro x c raw code
    have hr := (writeTelegram_facts x c raw).2.2.2.2.2.2
    rw [cemi_length, List.length_nil]
    omega
  cases m with
  | connectReq => exact hf.elim
  | disconnectReq => exact hf.elim
  | connectionstateReq => exact hf.elim
  | searchReq => exact hf.elim
  | tunnelingAck => exact hf.elim
  | groupRead asap =>
    obtain ⟨a, x, as, ha, hs⟩ := hf
    obtain ⟨a', as', e1, e2, e3⟩ := read_frame h
    rw [ha] at e1
    cases e1
    rw [hs] at e2
    cases e2
    exact key _ (by rw [cemi_length]; simp [readTelegram, Spec.request]) (henv _ (e3 x rfl))
  | groupWriteReq asap d =>
    obtain ⟨a, x, as, ha, hs⟩ := hf
    obtain ⟨a', g, c, as', e1, -, -, e2, e3⟩ := write_frame h
    rw [ha] at e1
    cases e1
    rw [hs] at e2
    cases e2
    exact key _ (hw x c d.raw 0x11) (henv _ (e3 x rfl))
  | groupWriteInd asap d =>
    obtain ⟨a, x, as, ha, hs⟩ := hf
    obtain ⟨a', g, c, as', e1, -, -, e2, e3⟩ := indication_frame h
    rw [ha] at e1
    cases e1
    rw [hs] at e2
    cases e2
    exact key _ (hw x c d.raw _) (e3 x rfl)
  | propertyRead asap oi pid n si =>
    change (propertyReadEncode asap oi pid n si s).1 = .ok f at h
    cases ha : s.assoc with
    | none =>
      exfalso
      unfold propertyReadEncode tDataIndividualEncode nDataIndividualEncode Tables.individualAddress State.tables at h
      simp only [ha] at h
      cases h
    | some a =>
      rw [propertyRead_eq ha] at h
      refine key _ ?_ (henv _ (finish_ok h))
      rw [cemi_length]
      show 11 + 0 + (octetsOf 4 _ ++ []).length ≤ _
      rw [List.length_append, octetsOf_length]
      decide
  | propertyWrite asap oi pid n si data =>
    change (propertyWriteEncode asap oi pid n si data s).1 = .ok f at h
    have hf : data.length / 2 ≤ 38 := hf
    cases ha : s.assoc with
    | none =>
      exfalso
      unfold propertyWriteEncode at h
      simp only at h
      rcases hd : stringToOctets data with e | bs
      · rw [hd] at h; cases h
      · rw [hd] at h
        unfold tDataIndividualEncode nDataIndividualEncode Tables.individualAddress State.tables at h
        simp only [ha] at h
        cases h
    | some a =>
      rw [propertyWrite_eq ha] at h
      simp only at h
      rcases hd : stringToOctets data with e | bs
      · rw [hd] at h; cases h
      · rw [hd] at h
        refine key _ ?_ (henv _ (finish_ok h))
        rw [cemi_length]
        show 11 + 0 + (octetsOf 4 _ ++ bs).length ≤ _
        rw [List.length_append, octetsOf_length, (c02_octets data bs hd).1]
        omega

/-- C109 is false for every property write with more than 38 octets that is encoded: whatever is put behind its octets, they
are no report of any frame. -/
theorem c109_refuted {s : State} (hm : s.medium = .usbHid) {asap : Asap} {oi pid n si : Int} {data : List Char} {f : Msg}
    (h : (encodeMsg (.propertyWrite asap oi pid n si data) s).1 = .ok f) (hl : 38 < data.length / 2) (c pad : Msg) :
    f ++ pad ∉ packets c := by
  change (propertyWriteEncode asap oi pid n si data s).1 = .ok f at h
  cases ha : s.assoc with
  | none =>
    exfalso
    unfold propertyWriteEncode at h
    simp only at h
    rcases hd : stringToOctets data with e | bs
    · rw [hd] at h; cases h
    · rw [hd] at h
      unfold tDataIndividualEncode nDataIndividualEncode Tables.individualAddress State.tables at h
      simp only [ha] at h
      cases h
  | some a =>
    rw [propertyWrite_eq ha] at h
    simp only at h
    rcases hd : stringToOctets data with e | bs
    · rw [hd] at h; cases h
    · rw [hd] at h
      have he := finish_ok h
      unfold envelope at he
      rw [hm] at he
      have he := (Option.some.inj he).symm
      intro hp
      have h64 := packets_length _ _ hp
      rw [List.length_append, he, usbReport_length, cemi_length] at h64
      replace h64 : 11 + 0 + (octetsOf 4 _ ++ bs).length + 11 + pad.length = 64 := h64
      rw [List.length_append, octetsOf_length, (c02_octets data bs hd).1] at h64
      omega

/-- C109, receiving: the only report of a frame that fits one carries it, so what C29 and its like say applies. -/
theorem c109_receive_partial {s : State} (hm : s.medium = .usbHid) {c : Msg} (hc : c.length ≤ 53) :
    ∃ p, packets c = [p] ∧ Carries s c p [] :=
  ⟨_, packets_one hc, .usb _ hm (by omega)⟩

/-- C109 is false for every frame that takes more than one report: each of its reports is ignored, so that nothing of the
frame is ever delivered. -/
theorem c109_receive_refuted {s : State} (hm : s.medium = .usbHid) {c : Msg} (hc : 53 < c.length) :
    ∀ p ∈ packets c, decodeMsg p s = (.ok (.list []), s) := by
  intro p hp
  have hn : 1 < (pieces (transfer c)).length := pieces_many (by rw [transfer_length]; unfold packetRoom; omega)
  obtain ⟨q, hq, rfl⟩ := List.mem_map.1 hp
  unfold packet
  refine c36_usb_short _ _ hm (.inr ⟨_, _, rfl, ?_⟩)
  rw [BitVec.toNat_ofNat]
  unfold packetType
  split_ifs <;> omega

/-- A write of 38 octets fits. -/
example : ∃ f c, (encodeMsg (.propertyWrite ⟨0, none⟩ 0 1 1 1 (List.replicate 76 'a')) (exState .usbHid)).1 = .ok f ∧
    packets c = [f ++ List.replicate (64 - f.length) 0] := by
  obtain ⟨f, hf⟩ := (c26_succeeds (s := exState .usbHid) rfl (by decide) ⟨0, none⟩ 0 1 1 1 (List.replicate 76 'a')
    (by intro c hc; rw [List.eq_of_mem_replicate hc]; decide)).2
  obtain ⟨c, hc⟩ := c109_partial (s := exState .usbHid) rfl hf
    (by show (List.replicate 76 'a').length / 2 ≤ 38; rw [List.length_replicate])
  exact ⟨f, c, hf, hc⟩

/-- A write of 39 octets does not. -/
example : ∃ f, (encodeMsg (.propertyWrite ⟨0, none⟩ 0 1 1 1 (List.replicate 78 'a')) (exState .usbHid)).1 = .ok f ∧
    ∀ c pad, f ++ pad ∉ packets c := by
  obtain ⟨f, hf⟩ := (c26_succeeds (s := exState .usbHid) rfl (by decide) ⟨0, none⟩ 0 1 1 1 (List.replicate 78 'a')
    (by intro c hc; rw [List.eq_of_mem_replicate hc]; decide)).2
  exact ⟨f, hf, c109_refuted (s := exState .usbHid) rfl hf (by rw [List.length_replicate]; decide)⟩

/-- A group write as the standard has it. -/
example : ∃ c, packets c = [usbReport (cemi 0x11 [] (writeTelegram 0x0E89 .float16 0x0C3D)) ++
    List.replicate (64 - (usbReport (cemi 0x11 [] (writeTelegram 0x0E89 .float16 0x0C3D))).length) 0] :=
  c109_partial (s := exState .usbHid) rfl (m := .groupWriteReq ⟨7, none⟩ ⟨.float16, 0x0C3D⟩) (by decide)
    ⟨_, 0x0E89, [1], rfl, by decide⟩

/-- A frame of 54 octets takes two reports; both are ignored. -/
example : (packets (List.replicate 54 0)).length = 2 ∧
    ∀ p ∈ packets (List.replicate 54 0), decodeMsg p (exState .usbHid) = (.ok (.list []), exState .usbHid) := by
  refine ⟨?_, c109_receive_refuted rfl (by rw [List.length_replicate]; decide)⟩
  unfold packets
  rw [List.length_map, List.length_zipIdx, pieces, if_pos (by decide), pieces, if_neg (by decide)]
  rfl

end Knx
