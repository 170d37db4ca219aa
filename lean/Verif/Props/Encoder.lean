import Verif.Props.Lengths

/-! # C37, C38: what encoding does to the state; transport PDU kinds -/

namespace Knx

open Spec

/-! ## C37 -/

namespace Spec

/-- A message of the application layer: a group value or property value service. -/
def IsApplication : InMsg → Prop
  | .groupRead .. | .groupWriteReq .. | .groupWriteInd .. | .propertyRead .. | .propertyWrite .. => True
  | _ => False

/-- Two states that differ at most in the pending service, the remote counter and the last received link frame. -/
def SameSender (s s' : State) : Prop :=
  s.medium = s'.medium ∧ s.assoc = s'.assoc ∧ s.got = s'.got ∧ s.seqLocal = s'.seqLocal ∧ s.chan = s'.chan

end Spec

theorem SameSender.eq {s s' : State} (h : SameSender s s') :
    s' = { s with asap := s'.asap, apci := s'.apci, addressType := s'.addressType, seqRemote := s'.seqRemote, ldata := s'.ldata } := by
  obtain ⟨h1, h2, h3, h4, h5⟩ := h
  cases s
  cases s'
  simp only at h1 h2 h3 h4 h5
  subst h1 h2 h3 h4 h5
  rfl

/-- C37: what an application message is encoded to depends only on medium, tables, local counter and channel. -/
theorem c37_determined {s s' : State} (h : SameSender s s') {m : InMsg} (hm : IsApplication m) :
    (encodeMsg m s).1 = (encodeMsg m s').1 := by
  rw [SameSender.eq h]
  have key : ∀ (s s' : State) (k : EncKind) (asap : Asap) (d : Dpt), s.getDpt = s'.getDpt →
      (∀ m, tDataGroupEncode k s m = tDataGroupEncode k s' m) →
      (match s.getDpt with
        | .error e => ((.error e, s) : Except Err Msg × State)
        | .ok cls => (tDataGroupEncode k s (groupWritePayload cls d.raw), s)).1 =
      (match s'.getDpt with
        | .error e => ((.error e, s') : Except Err Msg × State)
        | .ok cls => (tDataGroupEncode k s' (groupWritePayload cls d.raw), s')).1 := by
    intro s s' k asap d h1 h2
    rw [← h1]
    cases s.getDpt with
    | error e => rfl
    | ok c => exact h2 _
  cases m with
  | connectReq | disconnectReq | connectionstateReq | searchReq | tunnelingAck => exact absurd hm id
  | groupRead asap => rfl
  | groupWriteReq asap d => exact key _ _ .req asap d rfl fun _ => rfl
  | groupWriteInd asap d => exact key _ _ .ind asap d rfl fun _ => rfl
  | propertyRead asap oi pid n si => rfl
  | propertyWrite asap oi pid n si data =>
    change (propertyWriteEncode asap oi pid n si data s).1 = (propertyWriteEncode asap oi pid n si data _).1
    unfold propertyWriteEncode
    simp only
    cases stringToOctets data <;> rfl

/-- C37: encoding changes nothing but the pending service and, for an acknowledgement, the remote counter, which moves on
by one if the acknowledgement is for it. -/
theorem c37_frame (m : InMsg) (s : State) : ∃ asap apci at_ r,
    (encodeMsg m s).2 = { s with asap := asap, apci := apci, addressType := at_, seqRemote := r } ∧
    (r = s.seqRemote ∨ ∃ status, m = .tunnelingAck s.seqRemote status ∧ r = (s.seqRemote + 1) % 256) ∧
    (¬ IsApplication m → asap = s.asap ∧ apci = s.apci ∧ at_ = s.addressType) := by
  cases m with
  | connectReq => exact ⟨_, _, _, _, rfl, .inl rfl, fun _ => ⟨rfl, rfl, rfl⟩⟩
  | disconnectReq => exact ⟨_, _, _, _, rfl, .inl rfl, fun _ => ⟨rfl, rfl, rfl⟩⟩
  | connectionstateReq => exact ⟨_, _, _, _, rfl, .inl rfl, fun _ => ⟨rfl, rfl, rfl⟩⟩
  | searchReq => exact ⟨_, _, _, _, rfl, .inl rfl, fun _ => ⟨rfl, rfl, rfl⟩⟩
  | tunnelingAck seq status =>
    refine ⟨s.asap, s.apci, s.addressType, ?_⟩
    have hu : (encodeMsg (.tunnelingAck seq status) s).2 = s ∨
        seq = s.seqRemote ∧ (encodeMsg (.tunnelingAck seq status) s).2 = s.setSeqRemote (s.seqRemote + 1) := by
      change (tunnelingAckEncode seq status s).2 = s ∨ seq = s.seqRemote ∧ (tunnelingAckEncode seq status s).2 = _
      unfold tunnelingAckEncode
      cases connectionHeader s status.toNat s.seqRemote with
      | error e => exact .inl rfl
      | ok h =>
        simp only
        split_ifs with hs
        · exact .inr ⟨hs, rfl⟩
        · exact .inl rfl
    rcases hu with h | ⟨h1, h2⟩
    · exact ⟨s.seqRemote, h, .inl rfl, fun _ => ⟨rfl, rfl, rfl⟩⟩
    · refine ⟨(s.seqRemote + 1) % 256, ?_, .inr ⟨status, by rw [h1], rfl⟩, fun _ => ⟨rfl, rfl, rfl⟩⟩
      rw [h2]
      unfold State.setSeqRemote
      congr 1
  | groupRead asap => exact ⟨_, _, _, _, rfl, .inl rfl, fun h => absurd trivial h⟩
  | groupWriteReq asap d =>
    refine ⟨some asap, some 0x80, some .group, s.seqRemote, ?_, .inl rfl, fun h => absurd trivial h⟩
    change (groupWriteEncode .req asap d s).2 = _
    unfold groupWriteEncode
    simp only
    generalize State.getDpt _ = r
    cases r <;> rfl
  | groupWriteInd asap d =>
    refine ⟨some asap, some 0x80, some .group, s.seqRemote, ?_, .inl rfl, fun h => absurd trivial h⟩
    change (groupWriteEncode .ind asap d s).2 = _
    unfold groupWriteEncode
    simp only
    generalize State.getDpt _ = r
    cases r <;> rfl
  | propertyRead => exact ⟨_, _, _, _, rfl, .inl rfl, fun h => absurd trivial h⟩
  | propertyWrite asap oi pid n si data =>
    refine ⟨some asap, some 0x3D7, some .individual, s.seqRemote, ?_, .inl rfl, fun h => absurd trivial h⟩
    change (propertyWriteEncode asap oi pid n si data s).2 = _
    unfold propertyWriteEncode
    simp only
    cases stringToOctets data <;> rfl

/-- C37: encoding the same application message again gives the same octets, whatever was encoded in between (the local
counter moves only when an acknowledgement is received). -/
theorem c37_repeatable (m : InMsg) (hm : IsApplication m) (between : List InMsg) (s : State) :
    (encodeMsg m (between.foldl (fun s m => (encodeMsg m s).2) (encodeMsg m s).2)).1 = (encodeMsg m s).1 := by
  have h1 : ∀ (l : List InMsg) (s : State), SameSender (l.foldl (fun s m => (encodeMsg m s).2) s) s := by
    intro l
    induction l with
    | nil => exact fun s => ⟨rfl, rfl, rfl, rfl, rfl⟩
    | cons m l ih =>
      intro s
      obtain ⟨h1, h2, h3, h4, h5⟩ := ih (encodeMsg m s).2
      obtain ⟨_, _, _, _, he, -⟩ := c37_frame m s
      simp only [List.foldl_cons]
      rw [he] at h1 h2 h3 h4 h5 ⊢
      exact ⟨h1, h2, h3, h4, h5⟩
  exact c37_determined (h1 (m :: between) s) hm

/-- C37: an encode that raises leaves medium, tables, counters, channel and the last received frame as they were. -/
theorem c37_error {m : InMsg} {s : State} {e : Err} (h : (encodeMsg m s).1 = .error e) :
    let s' := (encodeMsg m s).2
    s'.medium = s.medium ∧ s'.assoc = s.assoc ∧ s'.got = s.got ∧ s'.seqRemote = s.seqRemote ∧
      s'.seqLocal = s.seqLocal ∧ s'.chan = s.chan ∧ s'.ldata = s.ldata := by
  intro s'
  obtain ⟨a, p, t, r, he, hr, -⟩ := c37_frame m s
  have hs' : s' = _ := he
  rw [hs']
  refine ⟨rfl, rfl, rfl, ?_, rfl, rfl, rfl⟩
  rcases hr with hr | ⟨status, rfl, -⟩
  · exact hr
  · change (tunnelingAckEncode _ _ s).1 = _ at h
    change (tunnelingAckEncode s.seqRemote status s).2 = _ at he
    unfold tunnelingAckEncode at h he
    cases hc : connectionHeader s status.toNat s.seqRemote with
    | error e' =>
      rw [hc] at he
      exact (congrArg State.seqRemote he).symm
    | ok h' => rw [hc] at h; cases h

example : (encodeMsg (.groupRead ⟨7, none⟩) ([.tunnelingAck 255 .noError, .groupRead ⟨9, none⟩].foldl
    (fun s m => (encodeMsg m s).2) (encodeMsg (.groupRead ⟨7, none⟩) (exState .knxnetIp)).2)).1 =
    .ok (tunnelRequest 0 0 (cemi 0x11 [] (readTelegram 0x0E89))) := by
  rw [c37_repeatable (.groupRead ⟨7, none⟩) trivial]
  decide

example : ∃ e, (encodeMsg (.groupRead ⟨9, none⟩) (exState .knxnetIp)).1 = .error e ∧
    (encodeMsg (.groupRead ⟨9, none⟩) (exState .knxnetIp)).2.seqRemote = 255 :=
  ⟨.keyError, by decide, (c37_error (m := .groupRead ⟨9, none⟩) (s := exState .knxnetIp) (e := .keyError) (by decide)).2.2.2.1⟩

/-! ## C38 -/

namespace Spec

/-- The kind of a frame from its address type, whether its destination is 0 and its transport control octet: bit 7
control, bit 6 numbered, bits 5–2 the number, bits 1–0 the control code. A group frame with number 1 is a tag frame. -/
def kind (t : AddressType) (zero : Bool) (tpci : Nat) : Option Nsdu :=
  match t with
  | .group =>
    if tpci < 4 then some (if zero then .broadcast else .group)
    else if tpci < 8 then some .tagGroup
    else none
  | .individual =>
    if tpci < 4 then some .individual
    else if tpci < 64 then none
    else if tpci < 128 then some .connected
    else if tpci < 192 then (if tpci % 4 = 0 then some .connect else if tpci % 4 = 1 then some .disconnect else none)
    else if tpci % 4 = 2 then some .ack
    else if tpci % 4 = 3 then some .nack
    else none

/-- The address type of the frames of a kind. -/
def kindType : Nsdu → AddressType
  | .broadcast | .group | .tagGroup => .group
  | _ => .individual

end Spec

/-- Reading the kind of a frame, in terms of its octets. -/
theorem nsdu_eq (l : LData) : l.nsdu =
    if l.addressType = .individual ∧ 128 ≤ l.tpci.toNat ∧ l.tpci.toNat < 192 then some .connected
    else kind l.addressType (l.destination = 0) l.tpci.toNat := by
  have hb : ∀ (b : Byte) (t : AddressType) (z : Bool), 
      (let control := getB 7 1 b
       let numbered := getB 6 1 b
       let seq := getB 2 4 b
       let ackNack := getB 0 2 b
       if t = .group ∧ control = 0 ∧ numbered = 0 ∧ seq = 0 ∧ z = true then some Nsdu.broadcast
       else if t = .group ∧ control = 0 ∧ numbered = 0 ∧ seq = 0 ∧ ¬ z = true then some .group
       else if t = .group ∧ control = 0 ∧ numbered = 0 ∧ seq = 1 then some .tagGroup
       else if t = .individual ∧ control = 0 ∧ numbered = 0 ∧ seq = 0 then some .individual
       else if t = .individual ∧ control = 0 ∧ numbered = 1 then some .connected
       else if t = .individual ∧ control = 1 ∧ numbered = 0 then some .connected
       else if t = .individual ∧ control = 1 ∧ numbered = 0 ∧ ackNack = 0 then some .connect
       else if t = .individual ∧ control = 1 ∧ numbered = 0 ∧ ackNack = 1 then some .disconnect
       else if t = .individual ∧ control = 1 ∧ numbered = 1 ∧ ackNack = 2 then some .ack
       else if t = .individual ∧ control = 1 ∧ numbered = 1 ∧ ackNack = 3 then some .nack
       else none) =
      if t = .individual ∧ 128 ≤ b.toNat ∧ b.toNat < 192 then some .connected
      else kind t z b.toNat := by
    intro b
    have : ∀ n : Fin 256, ∀ (t : AddressType) (z : Bool), 
      (let b : Byte := BitVec.ofNat 8 n
       let control := getB 7 1 b
       let numbered := getB 6 1 b
       let seq := getB 2 4 b
       let ackNack := getB 0 2 b
       if t = .group ∧ control = 0 ∧ numbered = 0 ∧ seq = 0 ∧ z = true then some Nsdu.broadcast
       else if t = .group ∧ control = 0 ∧ numbered = 0 ∧ seq = 0 ∧ ¬ z = true then some .group
       else if t = .group ∧ control = 0 ∧ numbered = 0 ∧ seq = 1 then some .tagGroup
       else if t = .individual ∧ control = 0 ∧ numbered = 0 ∧ seq = 0 then some .individual
       else if t = .individual ∧ control = 0 ∧ numbered = 1 then some .connected
       else if t = .individual ∧ control = 1 ∧ numbered = 0 then some .connected
       else if t = .individual ∧ control = 1 ∧ numbered = 0 ∧ ackNack = 0 then some .connect
       else if t = .individual ∧ control = 1 ∧ numbered = 0 ∧ ackNack = 1 then some .disconnect
       else if t = .individual ∧ control = 1 ∧ numbered = 1 ∧ ackNack = 2 then some .ack
       else if t = .individual ∧ control = 1 ∧ numbered = 1 ∧ ackNack = 3 then some .nack
       else none) =
      if t = .individual ∧ 128 ≤ (BitVec.ofNat 8 n).toNat ∧ (BitVec.ofNat 8 n).toNat < 192 then some .connected
      else kind t z (BitVec.ofNat 8 n).toNat := by
      intro n t z
      cases t <;> cases z <;> revert n <;> decide +kernel
    have h := this ⟨b.toNat, b.isLt⟩
    simp only [BitVec.ofNat_toNat, BitVec.setWidth_eq] at h
    exact h
  have h := hb l.tpci l.addressType (decide (l.destination = 0))
  simp only [decide_eq_true_eq] at h
  unfold LData.nsdu
  exact h

/-- C38: every frame has exactly the kind of its octets. Missing from the full claim: unnumbered control frames, which are
all taken for connected data (`c38_connect_refuted`), and the octets that have no kind at all (`c38_none_refuted`). -/
theorem c38_kind_partial (l : LData) (h : ¬ (l.addressType = .individual ∧ 128 ≤ l.tpci.toNat ∧ l.tpci.toNat < 192)) :
    l.nsdu = kind l.addressType (l.destination = 0) l.tpci.toNat := by
  rw [nsdu_eq, if_neg h]

/-- C38: setting a kind and reading it back gives that kind, in a frame of the address type of the kind. Missing from the
full claim: the kinds `connect` and `disconnect` (`c38_connect_refuted`). -/
theorem c38_set_partial (l : LData) (p : Nsdu) (ht : l.addressType = kindType p) (h0 : p = .broadcast → l.destination = 0)
    (h1 : p = .group → l.destination ≠ 0) (hc : p ≠ .connect) (hd : p ≠ .disconnect) : (l.setNsdu p).nsdu = some p := by
  have hk : ∀ (p : Nsdu) (z : Bool) (n : Fin 256), p ≠ .connect → p ≠ .disconnect →
      (p = .broadcast → z = true) → (p = .group → z = false) →
      let b := (({ l with tpci := BitVec.ofNat 8 n } : LData).setNsdu p).tpci.toNat
      ¬ (kindType p = .individual ∧ 128 ≤ b ∧ b < 192) ∧ (kind (kindType p) z b = some p) := by
    intro p z n
    unfold LData.setNsdu
    simp only
    revert n
    cases p <;> cases z <;> decide +kernel
  have h := hk p (decide (l.destination = 0)) ⟨l.tpci.toNat, l.tpci.isLt⟩ hc hd (fun e => by simp [h0 e])
    (fun e => decide_eq_false (h1 e))
  simp only [BitVec.ofNat_toNat, BitVec.setWidth_eq] at h
  have hat : (l.setNsdu p).addressType = kindType p := ht
  have hdest : (l.setNsdu p).destination = l.destination := rfl
  rw [nsdu_eq, hat, if_neg h.1, hdest]
  exact h.2

/-- C38: the kind set is the one of the octet (in particular `connect` and `disconnect` are set correctly), and nothing
but the transport control octet changes. -/
theorem c38_set_octet (l : LData) (p : Nsdu) :
    kind (kindType p) (p = .broadcast) (l.setNsdu p).tpci.toNat = some p ∧
    l.setNsdu p = { l with tpci := (l.setNsdu p).tpci } := by
  refine ⟨?_, rfl⟩
  have hk : ∀ (p : Nsdu) (n : Fin 256),
      kind (kindType p) (p = .broadcast) (({ l with tpci := BitVec.ofNat 8 n } : LData).setNsdu p).tpci.toNat = some p := by
    intro p n
    unfold LData.setNsdu
    simp only
    revert n
    cases p <;> decide +kernel
  have h := hk p ⟨l.tpci.toNat, l.tpci.isLt⟩
  simp only [BitVec.ofNat_toNat, BitVec.setWidth_eq] at h
  exact h

/-- C38 is false for `connect` and `disconnect`: no frame is ever read as one of them. -/
theorem c38_connect_refuted (l : LData) : l.nsdu ≠ some .connect ∧ l.nsdu ≠ some .disconnect := by
  rw [nsdu_eq]
  have hb := l.tpci.isLt
  generalize l.tpci.toNat = n at hb
  generalize decide (l.destination = 0) = z
  have h : ∀ (n : Fin 256) (t : AddressType) (z : Bool),
      (if t = .individual ∧ 128 ≤ n.1 ∧ n.1 < 192 then some .connected else kind t z n.1) ≠ some Nsdu.connect ∧
      (if t = .individual ∧ 128 ≤ n.1 ∧ n.1 < 192 then some .connected else kind t z n.1) ≠ some Nsdu.disconnect := by
    intro n t z
    cases t <;> cases z <;> revert n <;> decide +kernel
  exact h ⟨n, hb⟩ _ _

/-- C38 is false: some received octets have no kind. -/
theorem c38_none_refuted : ∃ (m rest : Msg) (l : LData), LData.makeFrom m = .ok (l, rest) ∧ l.nsdu = none :=
  ⟨[0xBC, 0xE0, 0x11, 0x0A, 0x0E, 0x89, 0x01, 0x40, 0x80], [0x80], ⟨0xBC, 0xE0, 0x110A, 0x0E89, 1, 0x40, 0x80⟩,
    by decide, by decide⟩

example : (({ LData.default with tpci := 0xFF, destination := 7 } : LData).setNsdu .ack).nsdu = some .ack :=
  c38_set_partial _ .ack (by decide) (by decide) (by decide) (by decide) (by decide)

example : ({ LData.default with tpci := 0x47 } : LData).nsdu = some .connected :=
  (c38_kind_partial _ (by decide)).trans (by decide)

end Knx
