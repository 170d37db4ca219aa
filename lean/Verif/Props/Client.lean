import Verif.Props.Tunnelling
import Verif.Props.Text

/-! # C46–C49: the tunnelling client -/

namespace Knx

open Spec Client

/-! ## C49 -/

theorem hexSpace_hexDigit {n : Nat} (h : n < 16) : isHexSpace (hexDigit n) = false := by
  interval_cases n <;> decide

/-- C49: `bytearray.fromhex(str(msg))` is the octets of the message. -/
theorem c49_hex (m : Msg) : fromHex (msgRepr m) = .ok m := by
  induction m with
  | nil =>
    unfold msgRepr fromHex
    rfl
  | cons b m ih =>
    have hb := b.isLt
    have h1 : b.toNat / 16 < 16 := by omega
    have h2 : b.toNat % 16 < 16 := by omega
    have he : msgRepr (b :: m) = hexDigit (b.toNat / 16) :: hexDigit (b.toNat % 16) :: msgRepr m := rfl
    rw [he]
    unfold fromHex
    rw [hexSpace_hexDigit h1]
    simp only [Bool.false_eq_true, if_false]
    rw [(hexVal_some_iff _ _).2 (hexDigit_spec h1), (hexVal_some_iff _ _).2 (hexDigit_spec h2), ih]
    simp only
    congr 2
    apply BitVec.eq_of_toNat_eq
    unfold byte
    rw [BitVec.toNat_ofNat]
    omega

example : fromHex (msgRepr [0x06, 0x10, 0xAF]) = .ok [0x06, 0x10, 0xAF] := c49_hex _
example : fromHex "06 10aF\n".toList = .ok [0x06, 0x10, 0xAF] := by decide +kernel

theorem encodeAndSend_eq (m : InMsg) (c : Client) :
    encodeAndSend m c =
      match encodeMsg m c.state with
      | (.error e, s) => (.error e, { c with state := s })
      | (.ok f, s) =>
        if c.transport then (.ok (), { c with state := s, wire := c.wire ++ [f] })
        else (.error .attributeError, { c with state := s }) := by
  unfold encodeAndSend Py.bind onState
  rcases encodeMsg m c.state with ⟨e | f, s⟩
  · rfl
  · simp only
    unfold send
    simp only [c49_hex]

theorem datagram_eq (data : Msg) (c : Client) :
    datagramReceived data c =
      match decodeMsg data c.state with
      | (.error e, s) => (.error e, { c with state := s })
      | (.ok r, s) => handleAll r { c with state := s, decoded := c.decoded ++ messages r } := by
  unfold datagramReceived
  simp only [Py.bind, Py.lift, c01_lower_parse, onState]
  rcases decodeMsg data c.state with ⟨e | r, s⟩
  · rfl
  · rfl

/-- The parts of a client that only its own calls change. -/
def Client.Fixed (c d : Client) : Prop :=
  d.decoded = c.decoded ∧ d.transport = c.transport ∧ d.localAddr = c.localAddr ∧ d.localPort = c.localPort

theorem Client.Fixed.trans {c d e : Client} (h : c.Fixed d) (h' : d.Fixed e) : c.Fixed e :=
  ⟨h'.1.trans h.1, h'.2.1.trans h.2.1, h'.2.2.1.trans h.2.2.1, h'.2.2.2.trans h.2.2.2⟩

namespace Spec

/-- The messages a client sends by itself for the messages it received. -/
def Answers (c : Client) (l : List OutMsg) (m : InMsg) : Prop :=
  (∃ seq, m = .tunnelingAck seq .noError ∧ .tunnelingReq seq .noError ∈ l) ∨
  m = .connectionstateReq c.localAddr c.localPort ∧ ∃ ip port ia st, .connectRes ip port ia st ∈ l

/-- Datagrams that are the encoded octets of some of the messages. -/
def AreEncoded (p : InMsg → Prop) (new : List Msg) : Prop := ∀ f ∈ new, ∃ m s, p m ∧ (encodeMsg m s).1 = .ok f

end Spec

theorem encodeAndSend_effect (m : InMsg) (c : Client) : c.Fixed (encodeAndSend m c).2 ∧
    ∃ new, (encodeAndSend m c).2.wire = c.wire ++ new ∧ ∀ f ∈ new, (encodeMsg m c.state).1 = .ok f := by
  rw [encodeAndSend_eq]
  rcases encodeMsg m c.state with ⟨e | f, s⟩
  · exact ⟨⟨rfl, rfl, rfl, rfl⟩, [], by simp, by simp⟩
  · simp only
    split_ifs
    · exact ⟨⟨rfl, rfl, rfl, rfl⟩, [f], rfl, by simp⟩
    · exact ⟨⟨rfl, rfl, rfl, rfl⟩, [], by simp, by simp⟩

theorem handle_effect (m : OutMsg) (c : Client) : c.Fixed (handle m c).2 ∧
    ∃ new, (handle m c).2.wire = c.wire ++ new ∧ AreEncoded (Answers c [m]) new := by
  have none : c.Fixed c ∧ ∃ new, c.wire = c.wire ++ new ∧ AreEncoded (Answers c [m]) new :=
    ⟨⟨rfl, rfl, rfl, rfl⟩, [], by simp, by simp [AreEncoded]⟩
  cases m with
  | connectRes ip port ia st =>
    obtain ⟨h1, new, h3, h4⟩ := encodeAndSend_effect (.connectionstateReq c.localAddr c.localPort)
      { c with state := c.state.setSeqRemote 0 }
    unfold handle
    simp only [Py.bind, Py.modify]
    generalize encodeAndSend (.connectionstateReq c.localAddr c.localPort)
      { c with state := c.state.setSeqRemote 0 } = x at h1 h3
    have h5 : AreEncoded (Answers c [.connectRes ip port ia st]) new := fun f hf =>
      ⟨_, _, .inr ⟨rfl, ip, port, ia, st, by simp⟩, h4 f hf⟩
    rcases x with ⟨e | r, d⟩
    · exact ⟨h1, new, h3, h5⟩
    · exact ⟨h1, new, h3, h5⟩
  | tunnelingReq seq st =>
    unfold handle
    simp only
    split_ifs with hst
    · subst hst
      obtain ⟨h1, new, h3, h4⟩ := encodeAndSend_effect (.tunnelingAck seq .noError) c
      exact ⟨h1, new, h3, fun f hf => ⟨_, _, .inl ⟨seq, rfl, by simp⟩, h4 f hf⟩⟩
    · exact none
  | group => exact none
  | property => exact none
  | connectionStatus => exact none
  | emiType => exact none
  | searchRes => exact none
  | connectionstateRes => exact none
  | disconnectRes => exact none
  | tunnelingAck => exact none

theorem forEach_effect (l : List OutMsg) (c : Client) : c.Fixed (Py.forEach l handle c).2 ∧
    ∃ new, (Py.forEach l handle c).2.wire = c.wire ++ new ∧ AreEncoded (Answers c l) new := by
  induction l generalizing c with
  | nil => exact ⟨⟨rfl, rfl, rfl, rfl⟩, [], by simp [Py.forEach, Py.pure], by simp [AreEncoded]⟩
  | cons m l ih =>
    obtain ⟨h1, new, h2, h3⟩ := handle_effect m c
    have h3' : AreEncoded (Answers c (m :: l)) new := by
      intro f hf
      obtain ⟨m', s', h, h'⟩ := h3 f hf
      refine ⟨m', s', ?_, h'⟩
      rcases h with ⟨seq, rfl, hm⟩ | ⟨rfl, ip, port, ia, st, hm⟩
      · exact .inl ⟨seq, rfl, List.mem_cons.2 (.inl (List.mem_singleton.1 hm))⟩
      · exact .inr ⟨rfl, ip, port, ia, st, List.mem_cons.2 (.inl (List.mem_singleton.1 hm))⟩
    unfold Py.forEach Py.bind
    generalize handle m c = x at h1 h2
    rcases x with ⟨e | r, d⟩
    · exact ⟨h1, new, h2, h3'⟩
    · simp only at h1 h2 ⊢
      obtain ⟨h4, new', h5, h6⟩ := ih d
      refine ⟨h1.trans h4, new ++ new', by rw [h5, h2, List.append_assoc], ?_⟩
      intro f hf
      rcases List.mem_append.1 hf with hf | hf
      · exact h3' f hf
      · obtain ⟨m', s', h, h'⟩ := h6 f hf
        refine ⟨m', s', ?_, h'⟩
        rcases h with ⟨seq, rfl, hm⟩ | ⟨rfl, ip, port, ia, st, hm⟩
        · exact .inl ⟨seq, rfl, List.mem_cons.2 (.inr hm)⟩
        · refine .inr ⟨?_, ip, port, ia, st, List.mem_cons.2 (.inr hm)⟩
          rw [h1.2.2.1, h1.2.2.2]

theorem handleAll_effect (r : Res) (c : Client) : c.Fixed (handleAll r c).2 ∧
    ∃ new, (handleAll r c).2.wire = c.wire ++ new ∧ AreEncoded (Answers c (messages r)) new := by
  cases r with
  | list l => exact forEach_effect l c
  | none => exact ⟨⟨rfl, rfl, rfl, rfl⟩, [], by simp [handleAll, Py.raise], by simp [AreEncoded]⟩
  | tuple l => exact ⟨⟨rfl, rfl, rfl, rfl⟩, [], by simp [handleAll, Py.pure], by simp [AreEncoded]⟩

/-- C49: the octets of a received datagram reach the decoder unchanged: what the client decodes is what `decode_msg` returns
for them in its state. -/
theorem c49_received (data : Msg) (c : Client) :
    (step c (.datagram data)).decoded = c.decoded ++
      match (decodeMsg data c.state).1 with
      | .error _ => []
      | .ok r => messages r := by
  show (datagramReceived data c).2.decoded = _
  rw [datagram_eq]
  rcases decodeMsg data c.state with ⟨e | r, s⟩
  · simp
  · exact (handleAll_effect r _).1.1

/-- C49: what the client puts on the wire for a message to be written: the encoded octets, if it is connected, has a
transport and the message can be displayed and encoded. -/
theorem c49_written (m : InMsg) (c : Client) {f : Msg} :
    (step c (.write m)).wire = c.wire ++ [f] ↔
      c.connected = true ∧ c.transport = true ∧ formatIn m = .ok () ∧ (encodeMsg m c.state).1 = .ok f := by
  have hne : ∀ x : List Msg, ¬ x = x ++ [f] := by
    intro x h
    have := congrArg List.length h
    simp at this
  show (write m c).2.wire = _ ↔ _
  unfold write
  by_cases hc : c.connected = true
  · rw [if_pos hc]
    simp only [Py.bind, Py.lift]
    rcases formatIn m with e | u
    · simp [hne]
    · simp only
      rw [encodeAndSend_eq]
      rcases encodeMsg m c.state with ⟨e | g, s⟩
      · simp [hne]
      · by_cases ht : c.transport = true
        · simp [hc, ht]
        · simp [ht, hne]
  · rw [if_neg hc]
    simp [hc, hne]

/-- C49: when the transport is ready, the client sends exactly the encoded connect request. -/
theorem c49_made (c : Client) : ∃ f, (encodeMsg (.connectReq c.localAddr c.localPort c.localAddr c.localPort) c.state).1 =
    .ok f ∧ (step c .made).wire = c.wire ++ [f] := ⟨_, rfl, by
  show (connectionMade c).2.wire = _
  unfold connectionMade
  simp only [Py.bind, Py.modify]
  rw [encodeAndSend_eq]
  rfl⟩

/-- C49: whatever happens, the datagrams put on the wire are encoded messages: the message written, the connect request, or
the answers to what was received. -/
theorem c49_wire (c : Client) (e : Client.Event) :
    ∃ new, (step c e).wire = c.wire ++ new ∧
      AreEncoded (fun m => match e with
        | .made => m = .connectReq c.localAddr c.localPort c.localAddr c.localPort
        | .lost => False
        | .write m' => m = m'
        | .datagram data => ∃ r, (decodeMsg data c.state).1 = .ok r ∧ Answers c (messages r) m) new := by
  cases e with
  | made =>
    obtain ⟨f, h1, h2⟩ := c49_made c
    refine ⟨[f], h2, fun g hg => ⟨_, c.state, rfl, ?_⟩⟩
    rw [List.mem_singleton.1 hg]
    exact h1
  | lost => exact ⟨[], by simp [Client.step, connectionLost, Py.modify], by simp [AreEncoded]⟩
  | write m =>
    show ∃ new, (write m c).2.wire = _ ∧ _
    unfold write
    split_ifs
    · simp only [Py.bind, Py.lift]
      rcases formatIn m with e | u
      · exact ⟨[], by simp, by simp [AreEncoded]⟩
      · obtain ⟨-, new, h1, h2⟩ := encodeAndSend_effect m c
        exact ⟨new, h1, fun f hf => ⟨_, _, rfl, h2 f hf⟩⟩
    · exact ⟨[], by simp, by simp [AreEncoded]⟩
  | datagram data =>
    show ∃ new, (datagramReceived data c).2.wire = _ ∧ _
    rw [datagram_eq]
    rcases hd : decodeMsg data c.state with ⟨e | r, s⟩
    · exact ⟨[], by simp, by simp [AreEncoded]⟩
    · obtain ⟨-, new, h1, h2⟩ := handleAll_effect r { c with state := s, decoded := c.decoded ++ messages r }
      refine ⟨new, h1, fun f hf => ?_⟩
      obtain ⟨m, s', h, h'⟩ := h2 f hf
      exact ⟨m, s', ⟨r, by rw [hd], h⟩, h'⟩

/-- A client in the middle of a session. -/
def exClient : Client := { Client.init 0xC0A80001 3671 (exState .knxnetIp) with transport := true, connected := true }

example : (step exClient (.write (.groupWriteReq ⟨7, none⟩ ⟨.float16, 0x0C3D⟩))).wire =
    [] ++ [tunnelRequest 0 0 (cemi 0x11 [] (writeTelegram 0x0E89 .float16 0x0C3D))] :=
  (c49_written _ exClient).2 ⟨rfl, rfl, by decide, by decide⟩

example : (step exClient (.datagram (tunnelRequest 9 255 (cemi 0x29 [] exTelegram)))).wire = [ackFrame 0 255 0] := by
  decide +kernel

/-! ## C46 -/

namespace Spec

/-- A message that comes from a telegram. -/
def isTelegram : OutMsg → Bool
  | .group .. | .property .. => true
  | _ => false

/-- The telegrams among decoded messages. -/
def telegrams (l : List OutMsg) : List OutMsg := l.filter isTelegram

/-- What a cEMI frame delivers through the tables of a state: the messages decoded for it in any such state whenever it
arrives with the expected counter. -/
def Delivers (s : State) (m : Msg) (l : List OutMsg) : Prop :=
  ∀ s' : State, s'.medium = .knxnetIp → s'.assoc = s.assoc → s'.got = s.got →
    ∀ f pre, Carries s' m f pre → (decodeMsg f s').1 = .ok (.list (pre ++ l))

/-- An event besides the gateway's tunnelling requests: anything but a connect response, and the application does not write
acknowledgements. -/
def Quiet : Client.Event → Prop
  | .made => True
  | .lost => True
  | .write m => ∀ seq st, m ≠ .tunnelingAck seq st
  | .datagram d => (∀ body, d ≠ [0x06, 0x10, 0x02, 0x06] ++ body) ∧
      ∀ l1 l2 h c q st m, d ≠ tunnelDatagram l1 l2 h c q st m

/-- A session of a gateway that numbers its tunnelling requests consecutively: the frames sent for the first time, in
order, when the next counter is `next`. In between there may be retransmissions, requests of other connections out of
sequence, and other events. -/
inductive Session : Byte → List Client.Event → List Msg → Prop
  | nil (next : Byte) : Session next [] []
  | new {next : Byte} {es : List Client.Event} {ms : List Msg} (l1 l2 h c st : Byte) (m : Msg)
      (rest : Session (next + 1) es ms) : Session next (.datagram (tunnelDatagram l1 l2 h c next st m) :: es) (m :: ms)
  | again {next : Byte} {es : List Client.Event} {ms : List Msg} (l1 l2 h c q st : Byte) (m : Msg) (hq : q ≠ next)
      (rest : Session next es ms) : Session next (.datagram (tunnelDatagram l1 l2 h c q st m) :: es) ms
  | other {next : Byte} {es : List Client.Event} {ms : List Msg} (e : Client.Event) (he : Quiet e)
      (rest : Session next es ms) : Session next (e :: es) ms

end Spec

theorem propertyDispatch_telegrams {k : Kind} {l : LData} {m : Msg} {r : List OutMsg}
    (h : propertyDispatch k l m = .ok r) : ∀ x ∈ r, isTelegram x = true := by
  have key : ∀ svc, propertyServiceDecode svc k l m = .ok r → ∀ x ∈ r, isTelegram x = true := by
    intro svc h
    unfold propertyServiceDecode at h
    rcases hl : long m with e | ⟨v, d⟩ <;> rw [hl] at h
    · cases h
    · cases h
      simp [isTelegram]
  unfold propertyDispatch at h
  split_ifs at h
  · exact key _ h
  · exact key _ h
  · exact key _ h
  · cases h
    simp

theorem groupService_telegrams {svc : Svc} {k : Kind} {t : Tables} {l : LData} {m : Msg} {r : List OutMsg}
    (h : groupServiceDecode svc k t l m = .ok r) : ∀ x ∈ r, isTelegram x = true := by
  unfold groupServiceDecode at h
  rcases hg : groupValueDecode t l m with e | gs <;> rw [hg] at h
  · cases h
  · cases h
    intro x hx
    obtain ⟨g, -, rfl⟩ := List.mem_map.1 hx
    rfl

theorem lData_telegrams {k : Kind} {t : Tables} {l : LData} {m : Msg} {r : Res} (h : lDataDecode k t l m = .ok r) :
    r = .none ∨ ∃ ms, r = .list ms ∧ ∀ x ∈ ms, isTelegram x = true := by
  have nothing : ∀ r : Res, (Except.ok (Res.list []) : Except Err Res) = .ok r →
      r = .none ∨ ∃ ms, r = .list ms ∧ ∀ x ∈ ms, isTelegram x = true := by
    intro r h
    cases h
    exact .inr ⟨[], rfl, by simp⟩
  unfold lDataDecode at h
  split at h
  · unfold nDataIndividualDecode at h
    split_ifs at h
    · rcases hx : tDataIndividualDecode k t l m with e | x <;> rw [hx] at h
      · cases h
      · cases h
        refine .inr ⟨x, rfl, ?_⟩
        unfold tDataIndividualDecode at hx
        cases k with
        | con =>
          simp only at hx
          rcases ht : t.getTsap l.destination with e | ts <;> rw [ht] at hx
          · cases hx
          · simp only at hx
            split_ifs at hx
            · exact propertyDispatch_telegrams hx
            · cases hx; simp
        | ind =>
          simp only at hx
          rcases ht : t.individualAddress with e | ia <;> rw [ht] at hx
          · cases hx
          · simp only at hx
            split_ifs at hx
            · exact propertyDispatch_telegrams hx
            · cases hx; simp
    · exact nothing r h
  · split_ifs at h
    · unfold nDataGroupDecode at h
      split_ifs at h
      · rcases hx : tDataGroupDecode k t l m with e | x <;> rw [hx] at h
        · cases h
        · cases h
          refine .inr ⟨x, rfl, ?_⟩
          unfold tDataGroupDecode at hx
          rcases ht : t.getTsap l.destination with e | _ | _ | n <;> rw [ht] at hx
          · cases hx
          · cases hx; simp
          · cases hx; simp
          · simp only at hx
            split at hx
            · cases hx
            · rename_i res hres
              split at hx
              · cases hx
              · cases hx
                split_ifs at hres
                · exact groupService_telegrams hres
                · exact groupService_telegrams hres
                · exact groupService_telegrams hres
                · cases hres; simp
      · cases h
        exact .inl rfl
    · exact nothing r h

theorem msgCode_telegrams {m : Msg} {s : State} {r : Res} (h : (msgCodeDecode m s).1 = .ok r) :
    r = .none ∨ ∃ ms, r = .list ms ∧ ∀ x ∈ ms, isTelegram x = true := by
  have key : ∀ k b, (cemiLdataDecode k b s).1 = .ok r →
      r = .none ∨ ∃ ms, r = .list ms ∧ ∀ x ∈ ms, isTelegram x = true := by
    intro k b h
    unfold cemiLdataDecode at h
    rcases hx : LData.makeFrom b with e | ⟨l, x⟩ <;> rw [hx] at h
    · cases h
    · exact lData_telegrams h
  unfold msgCodeDecode at h
  rcases h1 : octect m with e | ⟨code, b⟩ <;> rw [h1] at h
  · cases h
  · simp only at h
    rcases h2 : octect b with e | ⟨len, b⟩ <;> rw [h2] at h
    · cases h
    · simp only at h
      split_ifs at h
      · exact key _ _ h
      · exact key _ _ h
      · cases h
        exact .inr ⟨[], rfl, by simp⟩

/-- Telegrams are not handled by the client itself. -/
theorem handle_telegram {m : OutMsg} (h : isTelegram m = true) (c : Client) : handle m c = (.ok (), c) := by
  cases m <;> simp only [isTelegram, Bool.false_eq_true] at h <;> rfl

theorem forEach_telegrams {l : List OutMsg} (h : ∀ m ∈ l, isTelegram m = true) (c : Client) :
    Py.forEach l handle c = (.ok (), c) := by
  induction l with
  | nil => rfl
  | cons m l ih =>
    unfold Py.forEach Py.bind
    rw [handle_telegram (h m List.mem_cons_self)]
    exact ih fun m hm => h m (List.mem_cons_of_mem _ hm)

/-- A quiet datagram: what is decoded contains no telegrams and makes the client do nothing. -/
theorem quiet_decode {d : Msg} (hd : Quiet (.datagram d)) {s : State} (hm : s.medium = .knxnetIp) :
    (decodeMsg d s).2.seqRemote = s.seqRemote ∧ (s.chan ≠ none → (decodeMsg d s).2.chan ≠ none) ∧
    ∀ r, (decodeMsg d s).1 = .ok r → telegrams (messages r) = [] ∧ ∀ c, (handleAll r c).2 = c := by
  obtain ⟨h1, h2⟩ := hd
  unfold decodeMsg
  rw [hm]
  simp only
  have nothing : ∀ {e : Err}, (s.seqRemote = s.seqRemote) ∧ (s.chan ≠ none → s.chan ≠ none) ∧
      ∀ r, (Except.error e : Except Err Res) = .ok r → telegrams (messages r) = [] ∧ ∀ c, (handleAll r c).2 = c :=
    ⟨rfl, id, fun r h => by cases h⟩
  have empty : (s.seqRemote = s.seqRemote) ∧ (s.chan ≠ none → s.chan ≠ none) ∧
      ∀ r, (Except.ok (.list []) : Except Err Res) = .ok r → telegrams (messages r) = [] ∧ ∀ c, (handleAll r c).2 = c :=
    ⟨rfl, id, fun r h => by cases h; exact ⟨rfl, fun _ => rfl⟩⟩
  rcases d with _ | ⟨h, _ | ⟨v, _ | ⟨a, _ | ⟨b, body⟩⟩⟩⟩
  · exact nothing
  · exact nothing
  · exact nothing
  · exact nothing
  rw [ip_dispatch]
  split_ifs with c1 c2 c3 c4 c5 c6 c7
  · rcases hx : searchResDecode body with e | r
    · exact nothing
    · refine ⟨rfl, id, fun r' hr => ?_⟩
      cases hr
      unfold searchResDecode at hx
      repeat' (first | split at hx | cases hx)
      exact ⟨rfl, fun _ => rfl⟩
  · unfold disconnectResDecode
    rcases short body with e | ⟨x, body⟩
    · exact nothing
    simp only
    rcases octect body with e | ⟨x, body⟩
    · exact nothing
    simp only
    rcases octect body with e | ⟨x, body⟩
    · exact nothing
    simp only
    split_ifs
    · refine ⟨rfl, fun _ => by simp, fun r' hr => ?_⟩
      cases hr
      exact ⟨rfl, fun _ => rfl⟩
    · exact empty
  · obtain ⟨⟨rfl, rfl⟩, rfl, rfl⟩ := c1, c4
    exact absurd rfl (h1 body)
  · rcases hx : connectionstateResDecode body with e | r
    · exact nothing
    · refine ⟨rfl, id, fun r' hr => ?_⟩
      cases hr
      unfold connectionstateResDecode at hx
      repeat' (first | split at hx | cases hx)
      exact ⟨rfl, fun _ => rfl⟩
  · obtain ⟨⟨rfl, rfl⟩, rfl, rfl⟩ := c1, c6
    rcases body with _ | ⟨l1, _ | ⟨l2, _ | ⟨x, _ | ⟨c, _ | ⟨q, _ | ⟨st, m⟩⟩⟩⟩⟩⟩
    · exact nothing
    · exact nothing
    · exact nothing
    · exact nothing
    · exact nothing
    · exact nothing
    · exact absurd rfl (h2 l1 l2 x c q st m)
  · unfold tunnelingAckDecode
    rcases short body with e | ⟨x, body⟩
    · exact nothing
    simp only
    rcases connHeader body with e | ⟨c, q, st, m⟩
    · exact nothing
    simp only
    have hs : (if s.seqLocal = q then s.setSeqLocal (s.seqLocal + 1) else s).seqRemote = s.seqRemote ∧
        (if s.seqLocal = q then s.setSeqLocal (s.seqLocal + 1) else s).chan = s.chan := by
      split_ifs <;> exact ⟨rfl, rfl⟩
    rcases errorCode st with e | st'
    · refine ⟨hs.1, fun h => ?_, fun r h => by cases h⟩
      simp only
      rw [hs.2]
      exact h
    · refine ⟨hs.1, fun h => ?_, fun r hr => ?_⟩
      · simp only
        rw [hs.2]
        exact h
      · cases hr
        exact ⟨rfl, fun _ => rfl⟩
  · exact empty
  · exact empty

/-- What a session keeps: the medium, the tables and that there is a channel. -/
structure Ready (s : State) (c : Client) : Prop where
  medium : c.state.medium = .knxnetIp
  assoc : c.state.assoc = s.assoc
  got : c.state.got = s.got
  chan : c.state.chan ≠ none

theorem encodeAndSend_ready {s : State} {c : Client} (h : Ready s c) (m : InMsg) : Ready s (encodeAndSend m c).2 ∧
    (encodeAndSend m c).2.decoded = c.decoded ∧
    ((∀ seq st, m ≠ .tunnelingAck seq st) → (encodeAndSend m c).2.state.seqRemote = c.state.seqRemote) := by
  have hs : (encodeAndSend m c).2.state = (encodeMsg m c.state).2 := by
    rw [encodeAndSend_eq]
    rcases encodeMsg m c.state with ⟨e | f, s'⟩
    · rfl
    · simp only
      split_ifs <;> rfl
  obtain ⟨x, y, z, r, he, hr, -⟩ := c37_frame m c.state
  refine ⟨?_, (encodeAndSend_effect m c).1.1, fun hm => ?_⟩
  · constructor
    · rw [hs, he]; exact h.medium
    · rw [hs, he]; exact h.assoc
    · rw [hs, he]; exact h.got
    · rw [hs, he]; exact h.chan
  · rw [hs, he]
    rcases hr with hr | ⟨st, rfl, -⟩
    · exact hr
    · exact absurd rfl (hm _ _)

theorem quiet_step {s : State} {c : Client} (h : Ready s c) {e : Client.Event} (he : Quiet e) :
    Ready s (Client.step c e) ∧ telegrams (Client.step c e).decoded = telegrams c.decoded ∧
    (Client.step c e).state.seqRemote = c.state.seqRemote := by
  cases e with
  | made =>
    show Ready s (connectionMade c).2 ∧ _
    have h' : Ready s { c with transport := true } := ⟨h.medium, h.assoc, h.got, h.chan⟩
    obtain ⟨h1, h2, h3⟩ := encodeAndSend_ready h' (.connectReq c.localAddr c.localPort c.localAddr c.localPort)
    exact ⟨h1, congrArg telegrams h2, h3 (by simp)⟩
  | lost => exact ⟨⟨h.medium, h.assoc, h.got, h.chan⟩, rfl, rfl⟩
  | write m =>
    show Ready s (write m c).2 ∧ telegrams (write m c).2.decoded = _ ∧ (write m c).2.state.seqRemote = _
    unfold write
    split_ifs
    · simp only [Py.bind, Py.lift]
      rcases formatIn m with e | u
      · exact ⟨h, rfl, rfl⟩
      · obtain ⟨h1, h2, h3⟩ := encodeAndSend_ready h m
        exact ⟨h1, congrArg telegrams h2, h3 he⟩
    · exact ⟨h, rfl, rfl⟩
  | datagram d =>
    obtain ⟨h1, h2, h3⟩ := quiet_decode he h.medium
    obtain ⟨t1, t2, t3⟩ := c33_tables d c.state
    show Ready s (datagramReceived d c).2 ∧ telegrams (datagramReceived d c).2.decoded = _ ∧
      (datagramReceived d c).2.state.seqRemote = _
    rw [datagram_eq]
    have h2 := h2 h.chan
    generalize decodeMsg d c.state = x at h1 h2 h3 t1 t2 t3
    rcases x with ⟨e | r, s'⟩
    · exact ⟨⟨t1.trans h.medium, t2.trans h.assoc, t3.trans h.got, h2⟩, rfl, h1⟩
    · obtain ⟨h4, h5⟩ := h3 r rfl
      simp only
      rw [h5]
      refine ⟨⟨t1.trans h.medium, t2.trans h.assoc, t3.trans h.got, h2⟩, ?_, h1⟩
      unfold telegrams at h4 ⊢
      simp only [List.filter_append, h4, List.append_nil]

/-- Acknowledging moves the expected counter on if it was that of the request, whether the acknowledgement can be sent or
not. -/
theorem ack_ready {s : State} {c : Client} (h : Ready s c) (q : Nat) :
    Ready s (encodeAndSend (.tunnelingAck q .noError) c).2 ∧
    (encodeAndSend (.tunnelingAck q .noError) c).2.decoded = c.decoded ∧
    (encodeAndSend (.tunnelingAck q .noError) c).2.state.seqRemote =
      if q = c.state.seqRemote then (c.state.seqRemote + 1) % 256 else c.state.seqRemote := by
  obtain ⟨h1, h2, -⟩ := encodeAndSend_ready h (.tunnelingAck q .noError)
  refine ⟨h1, h2, ?_⟩
  rcases hc : c.state.chan with _ | n
  · exact absurd hc h.chan
  · rw [encodeAndSend_eq, ack_encode hc]
    simp only
    split_ifs <;> rfl

/-- Handling a request and its telegrams. -/
theorem handleAll_request (q : Nat) (ec : ErrorCode) {l : List OutMsg} (hl : ∀ m ∈ l, isTelegram m = true) (c : Client) :
    (handleAll (.list (.tunnelingReq q ec :: l)) c).2 =
      if ec = .noError then (encodeAndSend (.tunnelingAck q .noError) c).2 else c := by
  show (Py.forEach (_ :: l) handle c).2 = _
  unfold Py.forEach Py.bind handle
  simp only
  split_ifs with he
  · subst he
    rcases encodeAndSend (.tunnelingAck q .noError) c with ⟨e | r, d⟩
    · rfl
    · simp only
      exact congrArg Prod.snd (forEach_telegrams hl d)
  · simp only
    exact congrArg Prod.snd (forEach_telegrams hl c)

/-- A request with a counter that is not expected. -/
theorem again_step {s : State} {c : Client} (h : Ready s c) (l1 l2 x chan q st : Byte) (m : Msg)
    (hq : c.state.seqRemote ≠ q.toNat) :
    Ready s (Client.step c (.datagram (tunnelDatagram l1 l2 x chan q st m))) ∧
    telegrams (Client.step c (.datagram (tunnelDatagram l1 l2 x chan q st m))).decoded = telegrams c.decoded ∧
    (Client.step c (.datagram (tunnelDatagram l1 l2 x chan q st m))).state.seqRemote = c.state.seqRemote := by
  show Ready s (datagramReceived _ c).2 ∧ telegrams (datagramReceived _ c).2.decoded = _ ∧
    (datagramReceived _ c).2.state.seqRemote = _
  rw [datagram_eq, c40_other h.medium l1 l2 x chan q st m hq]
  simp only
  generalize (if c.state.seqRemote = q.toNat + 1 then ErrorCode.noError else ErrorCode.sequenceNumber) = ec
  rw [handleAll_request q.toNat ec (l := []) (by simp)]
  have h' : Ready s { c with decoded := c.decoded ++ messages (.list [.tunnelingReq q.toNat ec]) } :=
    ⟨h.medium, h.assoc, h.got, h.chan⟩
  have hfil : telegrams (c.decoded ++ messages (.list [.tunnelingReq q.toNat ec])) = telegrams c.decoded := by
    unfold telegrams messages
    simp [isTelegram]
  split_ifs
  · obtain ⟨h1, h2, h3⟩ := ack_ready h' q.toNat
    rw [if_neg fun he => hq he.symm] at h3
    exact ⟨h1, (congrArg telegrams h2).trans hfil, h3⟩
  · exact ⟨h', hfil, rfl⟩

theorem ip_first (m : Msg) {s : State} (hm : s.medium = .knxnetIp) (hs : s.seqRemote = 0) :
    (decodeMsg (tunnelRequest 0 0 m) s).1 =
      match (msgCodeDecode m s).1 with
      | .error e => .error e
      | .ok r => .ok (.list (extend [.tunnelingReq 0 .noError] r)) := by
  unfold decodeMsg
  rw [hm]
  simp only
  rw [ip_open m (seq := 0) hs]
  rcases msgCodeDecode m s with ⟨e | r, s''⟩ <;> rfl

theorem delivers_msgCode {s : State} {m : Msg} {l : List OutMsg} (h : Delivers s m l) {s' : State}
    (hm : s'.medium = .knxnetIp) (ha : s'.assoc = s.assoc) (hg : s'.got = s.got) :
    (∀ x ∈ l, isTelegram x = true) ∧
    ∃ r, (msgCodeDecode m s').1 = .ok r ∧ ∀ pre, extend pre r = pre ++ l := by
  have h1 := h { s' with seqRemote := 0 } hm ha hg (tunnelRequest 0 0 m) _ (.ip 0 0 hm rfl)
  rw [ip_first (s := { s' with seqRemote := 0 }) m hm rfl] at h1
  have h3 : (msgCodeDecode m s').1 = (msgCodeDecode m { s' with seqRemote := 0 }).1 := msgCode_tables m rfl
  rcases hx : (msgCodeDecode m { s' with seqRemote := 0 }).1 with e | r
  · rw [hx] at h1
    cases h1
  · rw [hx] at h1 h3
    simp only [Except.ok.injEq, Res.list.injEq] at h1
    have hr : r = .none ∧ l = [] ∨ r = .list l := by
      rcases msgCode_telegrams hx with rfl | ⟨ms, rfl, -⟩
      · simp only [extend] at h1
        exact .inl ⟨rfl, by simpa using h1⟩
      · simp only [extend] at h1
        exact .inr (by rw [List.append_cancel_left h1])
    refine ⟨?_, r, h3, ?_⟩
    · rcases hr with ⟨-, rfl⟩ | rfl
      · simp
      · rcases msgCode_telegrams hx with h | ⟨ms, h, h'⟩
        · cases h
        · cases h
          exact h'
    · intro pre
      rcases hr with ⟨rfl, rfl⟩ | rfl
      · simp [extend]
      · rfl

/-- A request with the expected counter. -/
theorem new_step {s : State} {c : Client} (h : Ready s c) (l1 l2 x chan q st : Byte) {m : Msg} {l : List OutMsg}
    (hd : Delivers s m l) (hq : c.state.seqRemote = q.toNat) :
    Ready s (Client.step c (.datagram (tunnelDatagram l1 l2 x chan q st m))) ∧
    telegrams (Client.step c (.datagram (tunnelDatagram l1 l2 x chan q st m))).decoded = telegrams c.decoded ++ l ∧
    (Client.step c (.datagram (tunnelDatagram l1 l2 x chan q st m))).state.seqRemote = (q + 1).toNat := by
  obtain ⟨hl, r, hr, hext⟩ := delivers_msgCode hd h.medium h.assoc h.got
  have he := msgCode_ends m c.state
  have hs' : ∃ s', msgCodeDecode m c.state = (.ok r, s') ∧ s'.medium = c.state.medium ∧ s'.assoc = c.state.assoc ∧
      s'.got = c.state.got ∧ s'.chan = c.state.chan ∧ s'.seqRemote = c.state.seqRemote := by
    generalize msgCodeDecode m c.state = y at he hr
    cases he with
    | raises e => cases hr
    | returns l => exact ⟨_, Prod.ext hr rfl, rfl, rfl, rfl, rfl, rfl⟩
    | frame k l b => exact ⟨_, Prod.ext hr rfl, rfl, rfl, rfl, rfl, rfl⟩
  obtain ⟨s', h1, h2, h3, h4, h5, h6⟩ := hs'
  have hdec : decodeMsg (tunnelDatagram l1 l2 x chan q st m) c.state =
      (.ok (.list (.tunnelingReq q.toNat .noError :: l)), s') := by
    unfold decodeMsg
    rw [h.medium]
    simp only
    rw [tunnel_open, if_pos hq, h1]
    simp only [hext, List.cons_append, List.nil_append]
  show Ready s (datagramReceived _ c).2 ∧ telegrams (datagramReceived _ c).2.decoded = _ ∧
    (datagramReceived _ c).2.state.seqRemote = _
  rw [datagram_eq, hdec]
  simp only
  rw [handleAll_request q.toNat .noError hl, if_pos rfl]
  have h' : Ready s { c with
      state := s', decoded := c.decoded ++ messages (.list (.tunnelingReq q.toNat .noError :: l)) } :=
    ⟨h2.trans h.medium, h3.trans h.assoc, h4.trans h.got, fun hn => h.chan (h5.symm.trans hn)⟩
  obtain ⟨h7, h8, h9⟩ := ack_ready h' q.toNat
  refine ⟨h7, ?_, ?_⟩
  · rw [h8]
    have : l.filter isTelegram = l := List.filter_eq_self.2 hl
    unfold telegrams messages
    simp [isTelegram, this]
  · rw [h9]
    simp only
    rw [h6, hq, if_pos rfl, BitVec.toNat_add]
    rfl

/-- C46: in a session of a gateway that numbers its requests consecutively the client decodes each frame exactly once, in
order, and exactly the messages the frame delivers, however often requests are transmitted and whatever else happens in
between. Missing from the full claim: frames whose decoding raises (`c46_refuted`). -/
theorem c46_partial {c : Client} (hm : c.state.medium = .knxnetIp) (hc : c.state.chan ≠ none) {next : Byte}
    (hs : c.state.seqRemote = next.toNat) {es : List Client.Event} {ms : List Msg} (h : Session next es ms)
    {ls : List (List OutMsg)} (hd : List.Forall₂ (Delivers c.state) ms ls) :
    telegrams (Client.run c es).decoded = telegrams c.decoded ++ ls.flatten ∧
    (Client.run c es).state.seqRemote = (next.toNat + ms.length) % 256 := by
  have key : ∀ (s : State) (c : Client), Ready s c → c.state.seqRemote = next.toNat →
      List.Forall₂ (Delivers s) ms ls →
      telegrams (Client.run c es).decoded = telegrams c.decoded ++ ls.flatten ∧
      (Client.run c es).state.seqRemote = (next.toNat + ms.length) % 256 := by
    clear hm hc hs hd c
    induction h generalizing ls with
    | nil next =>
      intro s c h hs hd
      cases hd
      have := next.isLt
      refine ⟨by simp [Client.run], ?_⟩
      show c.state.seqRemote = _
      rw [hs, List.length_nil]
      omega
    | @new next es ms l1 l2 x chan st m rest ih =>
      intro s c h hs hd
      cases hd with
      | @cons _ l _ ls hl hd =>
        obtain ⟨h1, h2, h3⟩ := new_step h l1 l2 x chan next st hl hs
        obtain ⟨h4, h5⟩ := ih s _ h1 h3 hd
        simp only [Client.run, List.foldl_cons] at h4 h5 ⊢
        rw [h4, h5, h2, List.flatten_cons, List.append_assoc, List.length_cons, BitVec.toNat_add]
        refine ⟨rfl, ?_⟩
        show ((next.toNat + 1) % 256 + ms.length) % 256 = _
        omega
    | again l1 l2 x chan q st m hq rest ih =>
      intro s c h hs hd
      obtain ⟨h1, h2, h3⟩ := again_step h l1 l2 x chan q st m (by
        rw [hs]
        exact fun he => hq (BitVec.eq_of_toNat_eq he.symm))
      obtain ⟨h4, h5⟩ := ih s _ h1 (h3.trans hs) hd
      simp only [Client.run, List.foldl_cons] at h4 h5 ⊢
      rw [h4, h5, h2]
      exact ⟨rfl, rfl⟩
    | other e he rest ih =>
      intro s c h hs hd
      obtain ⟨h1, h2, h3⟩ := quiet_step h he
      obtain ⟨h4, h5⟩ := ih s _ h1 (h3.trans hs) hd
      simp only [Client.run, List.foldl_cons] at h4 h5 ⊢
      rw [h4, h5, h2]
      exact ⟨rfl, rfl⟩
  exact key c.state c ⟨hm, rfl, rfl, hc⟩ hs hd

theorem tunnelRequest_eq (c q : Byte) (m : Msg) : tunnelRequest c q m =
    tunnelDatagram (BitVec.ofNat 8 ((m.length + 10) / 256)) (BitVec.ofNat 8 (m.length + 10)) 4 c q 0 m := by
  unfold tunnelRequest
  rw [octetsOf_two]
  rfl

/-- C46 is false of telegrams whose decoding raises: the client neither acknowledges nor passes them, and the next telegram,
with the next counter, is not decoded either. -/
theorem c46_refuted : ∃ (c : Client) (t t' : Telegram), c.state.medium = .knxnetIp ∧ c.state.chan = some 0 ∧
    c.state.seqRemote = 0 ∧ c.transport = true ∧ t.IsGroup ∧ t.IsData ∧
    (∃ l, l ≠ [] ∧ Delivers c.state (cemi 0x29 [] t') l) ∧
    Session 0 [.datagram (tunnelRequest 0 0 (cemi 0x29 [] t)), .datagram (tunnelRequest 0 0 (cemi 0x29 [] t)),
      .datagram (tunnelRequest 0 1 (cemi 0x29 [] t'))] [cemi 0x29 [] t, cemi 0x29 [] t'] ∧
    (Client.run c [.datagram (tunnelRequest 0 0 (cemi 0x29 [] t)), .datagram (tunnelRequest 0 0 (cemi 0x29 [] t)),
      .datagram (tunnelRequest 0 1 (cemi 0x29 [] t'))]).decoded = [.tunnelingReq 1 .sequenceNumber] ∧
    (Client.run c [.datagram (tunnelRequest 0 0 (cemi 0x29 [] t)), .datagram (tunnelRequest 0 0 (cemi 0x29 [] t)),
      .datagram (tunnelRequest 0 1 (cemi 0x29 [] t'))]).wire = [] := by
  let ops : List AssocTable.Op := [.associate ⟨7, none⟩ [⟨1, 0x0E89⟩]]
  let a := (AssocTable.init exAt []).2.afterAll ops
  let c : Client := { Client.init 0xC0A80001 3671 (State.initIp .knxnetIp (some a) (some [(⟨7, none⟩, .setupClima)])) with
    transport := true }
  let t : Telegram := ⟨0xBC, 0xE0, 0x110A, 0x0E89, 5, 0, 0x80, [0x0F, 1, 2, 3]⟩
  let t' : Telegram := ⟨0xBC, 0xE0, 0x110A, 0x0E89, 5, 0, 0x80, [0x01, 1, 2, 3]⟩
  refine ⟨c, t, t', rfl, rfl, rfl, rfl, by show 128 ≤ _; decide, by show _ < 4; decide, ?_, ?_, by decide +kernel,
    by decide +kernel⟩
  · refine ⟨[.group .write .ind ⟨7, none⟩ ⟨.setupClima, 0x01010203⟩], by simp, ?_⟩
    intro s' hm ha hg f pre hc
    refine (c29_fanout_partial (s := s') (t := t') (vs := [7]) (k := .ind) (info := []) ha hg (by
      show 128 ≤ _; decide) (by show _ < 4; decide) (by decide) (by decide) ?_ (by decide) (by decide) hc
      (svc := .write) (by decide) (by decide)).1
    exact c08_exclusive_partial exAt ops (by decide) (by decide) (by decide) _
  · rw [tunnelRequest_eq, tunnelRequest_eq]
    exact .new (next := 0) _ _ 4 0 0 _ (.again (next := 1) _ _ 4 0 0 0 _ (by decide) (.new (next := 1) _ _ 4 0 0 _ (.nil _)))

/-- A session across the wrap of the counter with a lost transport, a retransmission, an acknowledgement and a write. -/
example : telegrams (Client.run exClient
    [.datagram (tunnelRequest 7 255 (cemi 0x29 [3, 4, 5] exTelegram)), .lost,
     .datagram (tunnelRequest 7 255 (cemi 0x29 [3, 4, 5] exTelegram)), .datagram (ackFrame 0 0 0),
     .write (.groupRead ⟨7, none⟩), .datagram (tunnelRequest 7 0 (cemi 0x29 [3, 4, 5] exTelegram))]).decoded =
    [.group .write .ind ⟨3, none⟩ ⟨.switch, 0x65⟩, .group .write .ind ⟨7, none⟩ ⟨.float16, 0x0C65⟩,
     .group .write .ind ⟨3, none⟩ ⟨.switch, 0x65⟩, .group .write .ind ⟨7, none⟩ ⟨.float16, 0x0C65⟩] := by
  have hd : Delivers exClient.state (cemi 0x29 [3, 4, 5] exTelegram)
      [.group .write .ind ⟨3, none⟩ ⟨.switch, 0x65⟩, .group .write .ind ⟨7, none⟩ ⟨.float16, 0x0C65⟩] := by
    intro s' hm ha hg f pre hc
    refine (c29_fanout_partial (s := s') (t := exTelegram) (vs := [7, 3]) (k := .ind) (info := [3, 4, 5]) ha hg (by
      show 128 ≤ _; decide) (by show _ < 4; decide) (by decide) (by decide) ?_ (by decide) (by decide) hc
      (svc := .write) (by decide) (by decide)).1
    exact c08_exclusive_partial exAt exOps (by decide) (by decide) (by decide) _
  refine (c46_partial (c := exClient) (next := 255) rfl (by decide) rfl (ms := [_, _]) ?_
    (.cons hd (.cons hd .nil))).1
  rw [tunnelRequest_eq, tunnelRequest_eq]
  refine .new (next := 255) _ _ 4 7 0 _ (.other _ trivial (.again (next := 0) _ _ 4 7 255 0 _ (by decide)
    (.other _ ⟨?_, ?_⟩ (.other _ ?_ (.new (next := 0) _ _ 4 7 0 _ (.nil _))))))
  · intro body h
    cases h
  · intro l1 l2 x c q st m h
    cases h
  · intro seq st h
    cases h

/-! ## C47 -/

namespace Spec

/-- A connect response with one of the defined states. -/
def ConnectResponse (d : Msg) : Prop :=
  ∃ l1 l2 chan st body, d = datagram 0x02 0x06 l1 l2 ([chan, st] ++ body) ∧ st ∈ ([0x00, 0x22, 0x23, 0x24] : List Byte)

end Spec

theorem connectStatus_defined {n : Byte} {st : ConnectStatus} (h : connectStatus n.toNat = .ok st) :
    n ∈ ([0x00, 0x22, 0x23, 0x24] : List Byte) := by
  unfold connectStatus at h
  split_ifs at h with h1 h2 h3 h4
  · simp [BitVec.eq_of_toNat_eq (x := n) (y := 0x00) h1]
  · simp [BitVec.eq_of_toNat_eq (x := n) (y := 0x22) h2]
  · simp [BitVec.eq_of_toNat_eq (x := n) (y := 0x23) h3]
  · simp [BitVec.eq_of_toNat_eq (x := n) (y := 0x24) h4]

/-- Only connect responses are decoded as such. -/
theorem connectRes_mem {d : Msg} {s : State} (hm : s.medium = .knxnetIp) {l : List OutMsg}
    (h : (decodeMsg d s).1 = .ok (.list l)) {ip port : Nat} {ia : Option (BitVec 16)} {st : ConnectStatus}
    (hl : .connectRes ip port ia st ∈ l) : ConnectResponse d := by
  have out : ∀ {e : Err}, (Except.error e : Except Err Res) = .ok (.list l) → ConnectResponse d := fun h => by cases h
  unfold decodeMsg at h
  rw [hm] at h
  simp only at h
  rcases d with _ | ⟨x, _ | ⟨v, _ | ⟨a, _ | ⟨b, body⟩⟩⟩⟩
  · exact out h
  · exact out h
  · exact out h
  · exact out h
  rw [ip_dispatch] at h
  split_ifs at h with c1 c2 c3 c4 c5 c6 c7
  · rcases hx : searchResDecode body with e | r <;> rw [hx] at h
    · exact out h
    · cases h
      unfold searchResDecode at hx
      repeat' (first | split at hx | cases hx)
      simp at hl
  · unfold disconnectResDecode at h
    repeat' (first | split at h | split_ifs at h | cases h)
    all_goals simp at hl
  · obtain ⟨⟨rfl, rfl⟩, rfl, rfl⟩ := c1, c4
    rcases body with _ | ⟨l1, _ | ⟨l2, _ | ⟨c, _ | ⟨st', rest⟩⟩⟩⟩
    · exact out h
    · exact out h
    · exact out h
    · exact out h
    refine ⟨l1, l2, c, st', rest, rfl, ?_⟩
    unfold connectResDecode at h
    simp only [short, octect] at h
    rcases hh : hpai rest with e | ⟨i, p, r⟩ <;> rw [hh] at h
    · cases h
    simp only at h
    split_ifs at h with hst
    · simp [BitVec.eq_of_toNat_eq (x := st') (y := 0x00) hst]
    · rcases hc : connectStatus st'.toNat with e | y <;> rw [hc] at h
      · cases h
      · exact connectStatus_defined hc
  · rcases hx : connectionstateResDecode body with e | r <;> rw [hx] at h
    · exact out h
    · cases h
      unfold connectionstateResDecode at hx
      repeat' (first | split at hx | cases hx)
      simp at hl
  · unfold tunnelingReqDecode at h
    rcases h1 : short body with e | ⟨y, m⟩ <;> rw [h1] at h
    · exact out h
    simp only at h
    rcases h2 : connHeader m with e | ⟨c, q, st', m⟩ <;> rw [h2] at h
    · exact out h
    simp only at h
    split_ifs at h
    · rcases h3 : msgCodeDecode m s with ⟨e | r, s'⟩ <;> rw [h3] at h
      · exact out h
      · rcases msgCode_telegrams (r := r) (m := m) (s := s) (by rw [h3]) with rfl | ⟨ms, rfl, hms⟩
        · cases h
          simp [extend] at hl
        · cases h
          simp only [extend, List.mem_append, List.mem_singleton, reduceCtorEq, false_or] at hl
          exact absurd (hms _ hl) (by simp [isTelegram])
    · cases h
      simp at hl
    · cases h
      simp at hl
  · unfold tunnelingAckDecode at h
    repeat' (first | split at h | cases h)
  · cases h
    simp at hl
  · cases h
    simp at hl

theorem encodeAndSend_connected (m : InMsg) (c : Client) : (encodeAndSend m c).2.connected = c.connected := by
  rw [encodeAndSend_eq]
  rcases encodeMsg m c.state with ⟨e | f, s⟩
  · rfl
  · simp only
    split_ifs <;> rfl

theorem handle_connected {m : OutMsg} {c : Client} (h : (handle m c).2.connected = true) :
    c.connected = true ∨ ∃ ip port ia st, m = .connectRes ip port ia st := by
  cases m with
  | connectRes ip port ia st => exact .inr ⟨ip, port, ia, st, rfl⟩
  | tunnelingReq seq st =>
    unfold handle at h
    simp only at h
    split_ifs at h
    · rw [encodeAndSend_connected] at h
      exact .inl h
    · exact .inl h
  | group => exact .inl h
  | property => exact .inl h
  | connectionStatus => exact .inl h
  | emiType => exact .inl h
  | searchRes => exact .inl h
  | connectionstateRes => exact .inl h
  | disconnectRes => exact .inl h
  | tunnelingAck => exact .inl h

theorem forEach_connected {l : List OutMsg} {c : Client} (h : (Py.forEach l handle c).2.connected = true) :
    c.connected = true ∨ ∃ ip port ia st, .connectRes ip port ia st ∈ l := by
  induction l generalizing c with
  | nil => exact .inl h
  | cons m l ih =>
    unfold Py.forEach Py.bind at h
    have hm := @handle_connected m c
    generalize handle m c = x at h hm
    rcases x with ⟨e | r, d⟩
    · rcases hm h with h | ⟨ip, port, ia, st, rfl⟩
      · exact .inl h
      · exact .inr ⟨ip, port, ia, st, List.mem_cons_self⟩
    · rcases ih h with h | ⟨ip, port, ia, st, h⟩
      · rcases hm h with h | ⟨ip, port, ia, st, rfl⟩
        · exact .inl h
        · exact .inr ⟨ip, port, ia, st, List.mem_cons_self⟩
      · exact .inr ⟨ip, port, ia, st, List.mem_cons_of_mem _ h⟩

theorem step_connected {c : Client} (hm : c.state.medium = .knxnetIp) {e : Client.Event}
    (h : (Client.step c e).connected = true) : c.connected = true ∨ ∃ d, e = .datagram d ∧ ConnectResponse d := by
  cases e with
  | made =>
    change (connectionMade c).2.connected = true at h
    unfold connectionMade at h
    simp only [Py.bind, Py.modify] at h
    rw [encodeAndSend_connected] at h
    exact .inl h
  | lost => exact .inl h
  | write m =>
    change (write m c).2.connected = true at h
    by_cases hc : c.connected = true
    · exact .inl hc
    · unfold write at h
      rw [if_neg hc] at h
      exact absurd h hc
  | datagram d =>
    change (datagramReceived d c).2.connected = true at h
    rw [datagram_eq] at h
    rcases hd : decodeMsg d c.state with ⟨e | r, s⟩ <;> rw [hd] at h
    · exact .inl h
    · cases r with
      | none => exact .inl h
      | tuple l => exact .inl h
      | list l =>
        rcases forEach_connected h with h | ⟨ip, port, ia, st, h⟩
        · exact .inl h
        · exact .inr ⟨d, rfl, connectRes_mem hm (by rw [hd]) h⟩

/-- The parts of a state that are given when it is made. -/
def State.wiring (s : State) : Medium × Option AssocTable × Option GroupObjectTable := (s.medium, s.assoc, s.got)

theorem step_wiring (c : Client) (e : Client.Event) : (Client.step c e).state.wiring = c.state.wiring := by
  have key : ∀ (m : InMsg) (c : Client), (encodeAndSend m c).2.state.wiring = c.state.wiring := by
    intro m c
    obtain ⟨_, _, _, _, he, -⟩ := c37_frame m c.state
    rw [encodeAndSend_eq]
    have h1 : (encodeMsg m c.state).2.wiring = c.state.wiring := by rw [he]; rfl
    generalize encodeMsg m c.state = x at h1
    rcases x with ⟨e | f, s⟩
    · exact h1
    · simp only
      split_ifs <;> exact h1
  have hone : ∀ (m : OutMsg) (c : Client), (handle m c).2.state.wiring = c.state.wiring := by
    intro m c
    cases m with
    | connectRes ip port ia st =>
      unfold handle
      simp only [Py.bind, Py.modify]
      have h1 := key (.connectionstateReq c.localAddr c.localPort) { c with state := c.state.setSeqRemote 0 }
      generalize encodeAndSend (.connectionstateReq c.localAddr c.localPort)
        { c with state := c.state.setSeqRemote 0 } = x at h1
      rcases x with ⟨e | f, s⟩
      · exact h1
      · exact h1
    | tunnelingReq seq st =>
      unfold handle
      simp only
      split_ifs
      · exact key _ _
      · rfl
    | group => rfl
    | property => rfl
    | connectionStatus => rfl
    | emiType => rfl
    | searchRes => rfl
    | connectionstateRes => rfl
    | disconnectRes => rfl
    | tunnelingAck => rfl
  have hall : ∀ (l : List OutMsg) (c : Client), (Py.forEach l handle c).2.state.wiring = c.state.wiring := by
    intro l
    induction l with
    | nil => exact fun c => rfl
    | cons m l ih =>
      intro c
      unfold Py.forEach Py.bind
      have h1 := hone m c
      generalize handle m c = x at h1
      rcases x with ⟨e | r, d⟩
      · exact h1
      · exact (ih d).trans h1
  cases e with
  | made =>
    show (connectionMade c).2.state.wiring = _
    unfold connectionMade
    simp only [Py.bind, Py.modify]
    rw [key]
  | lost => rfl
  | write m =>
    show (write m c).2.state.wiring = _
    unfold write
    split_ifs
    · simp only [Py.bind, Py.lift]
      rcases formatIn m with e | u
      · rfl
      · exact key m c
    · rfl
  | datagram d =>
    show (datagramReceived d c).2.state.wiring = _
    rw [datagram_eq]
    have h1 : (decodeMsg d c.state).2.wiring = c.state.wiring := by
      obtain ⟨h1, h2, h3⟩ := c33_tables d c.state
      unfold State.wiring
      rw [h1, h2, h3]
    generalize decodeMsg d c.state = x at h1
    rcases x with ⟨e | r, s⟩
    · exact h1
    · cases r with
      | none => exact h1
      | tuple l => exact h1
      | list l => exact (hall l _).trans h1

theorem step_medium (c : Client) (e : Client.Event) : (Client.step c e).state.medium = c.state.medium :=
  congrArg Prod.fst (step_wiring c e)

/-- C47, as far as it holds: a client that reports connected has received a connect response with one of the four defined
states. Missing from the full claim: that the state was no error (`c47_refuted`). -/
theorem c47_partial (addr : BitVec 32) (port : Int) {s : State} (hm : s.medium = .knxnetIp) (es : List Client.Event)
    (h : (Client.run (Client.init addr port s) es).connected = true) :
    ∃ d, .datagram d ∈ es ∧ ConnectResponse d := by
  have key : ∀ (es : List Client.Event) (c : Client), c.state.medium = .knxnetIp →
      (Client.run c es).connected = true → c.connected = true ∨ ∃ d, .datagram d ∈ es ∧ ConnectResponse d := by
    intro es
    induction es with
    | nil => exact fun c _ h => .inl h
    | cons e es ih =>
      intro c hm h
      rcases ih _ ((step_medium c e).trans hm) h with h | ⟨d, h1, h2⟩
      · rcases step_connected hm h with h | ⟨d, rfl, hd⟩
        · exact .inl h
        · exact .inr ⟨d, List.mem_cons_self, hd⟩
      · exact .inr ⟨d, List.mem_cons_of_mem _ h1, h2⟩
  rcases key es _ hm h with h | h
  · cases h
  · exact h

/-- C47 is false: a connect response that refuses the connection (no more connections) makes the client connected. -/
theorem c47_refuted : (Client.run (Client.init 0xC0A80001 3671 (State.initIp .knxnetIp none none))
    [.made, .datagram [6, 0x10, 2, 6, 0, 16, 0, 0x24, 8, 1, 192, 168, 0, 2, 0x0E, 0x57]]).connected = true := by
  decide +kernel

example : (Client.run (Client.init 0xC0A80001 3671 (exState .knxnetIp)) [.made, .datagram
    [6, 0x10, 2, 6, 0, 20, 7, 0, 8, 1, 192, 168, 0, 2, 0x0E, 0x57, 4, 4, 0x11, 1]]).connected = true ∧
    ConnectResponse [6, 0x10, 2, 6, 0, 20, 7, 0, 8, 1, 192, 168, 0, 2, 0x0E, 0x57, 4, 4, 0x11, 1] := by
  have h : (Client.run (Client.init 0xC0A80001 3671 (exState .knxnetIp)) [.made, .datagram
    [6, 0x10, 2, 6, 0, 20, 7, 0, 8, 1, 192, 168, 0, 2, 0x0E, 0x57, 4, 4, 0x11, 1]]).connected = true := by decide +kernel
  obtain ⟨d, h1, h2⟩ := c47_partial 0xC0A80001 3671 (s := exState .knxnetIp) rfl _ h
  simp only [List.mem_cons, reduceCtorEq, Client.Event.datagram.injEq, List.not_mem_nil, false_or, or_false] at h1
  subst h1
  exact ⟨h, h2⟩

/-! ## C48 -/

theorem connected_decode {d : Msg} {n : Nat} (hd : connectedTo d = some n) {s : State} (hm : s.medium = .knxnetIp) :
    ∃ ip port ia, decodeMsg d s = (.ok (.list [.connectRes ip port ia .noError]), { s with chan := some n }) := by
  unfold connectedTo at hd
  split at hd
  · rename_i h v a b l1 l2 c st rest
    split_ifs at hd with hc
    obtain ⟨rfl, rfl, rfl, rfl, rfl, hl⟩ := hc
    cases hd
    rcases rest with _ | ⟨r1, _ | ⟨r2, _ | ⟨r3, _ | ⟨r4, _ | ⟨r5, _ | ⟨r6, _ | ⟨r7, _ | ⟨r8, _ | ⟨d1, _ | ⟨d2, _ | ⟨d3, _ | ⟨d4, rest⟩⟩⟩⟩⟩⟩⟩⟩⟩⟩⟩⟩
    iterate 12 exact absurd hl (by simp)
    unfold decodeMsg
    rw [hm]
    simp only
    rw [ip_dispatch, if_pos (by decide), if_neg (by decide), if_neg (by decide), if_pos (by decide)]
    unfold connectResDecode
    simp only [short, octect, hpai, List.length_cons, long]
    rw [if_pos (by omega)]
    simp only [crd, octect, short]
    rw [if_pos (by decide)]
    exact ⟨_, _, _, by rw [← hm]⟩
  · cases hd

/-- C48, for the counter of received requests: when the client has processed a connect response without error, the next
request is expected with counter 0, on the channel of the response. The counter for its own requests is left as it was:
missing from the full claim (`c48_refuted`). -/
theorem c48_partial {c : Client} (hm : c.state.medium = .knxnetIp) {d : Msg} {n : Nat} (hd : connectedTo d = some n) :
    (Client.step c (.datagram d)).state = { c.state with seqRemote := 0, chan := some n } ∧
    ((Client.step c (.datagram d)).connected = true ↔ c.connected = true ∨ c.transport = true) := by
  obtain ⟨ip, port, ia, h⟩ := connected_decode hd hm
  show (datagramReceived d c).2.state = _ ∧ ((datagramReceived d c).2.connected = true ↔ _)
  rw [datagram_eq, h]
  simp only
  unfold handleAll Py.forEach Py.bind handle
  simp only [Py.bind, Py.modify]
  rw [encodeAndSend_eq]
  simp only [encodeMsg, channelReqEncode, State.setSeqRemote]
  by_cases ht : c.transport = true
  · simp [ht, Py.forEach, Py.pure]
  · simp [ht]

/-- C48 is false: after a reconnection the client numbers its requests from where it was. -/
theorem c48_refuted : ∃ (c : Client) (es : List Client.Event) (d : Msg), c = Client.init 0xC0A80001 3671 (exState .knxnetIp) ∧
    connectedTo d = some 7 ∧ (Client.run c (es ++ [.datagram d])).connected = true ∧
    (Client.run c (es ++ [.datagram d])).state.seqLocal = 1 := by
  refine ⟨_, [.made, .datagram [6, 0x10, 2, 6, 0, 20, 7, 0, 8, 1, 192, 168, 0, 2, 0x0E, 0x57, 4, 4, 0x11, 1],
    .write (.groupRead ⟨7, none⟩), .datagram (ackFrame 7 0 0), .lost, .made],
    [6, 0x10, 2, 6, 0, 20, 7, 0, 8, 1, 192, 168, 0, 2, 0x0E, 0x57, 4, 4, 0x11, 1], rfl, by decide, by decide +kernel,
    by decide +kernel⟩

example : (Client.step exClient (.datagram
    [6, 0x10, 2, 6, 0, 20, 7, 0, 8, 1, 192, 168, 0, 2, 0x0E, 0x57, 4, 4, 0x11, 1])).state.seqRemote = 0 := by
  rw [(c48_partial (c := exClient) (n := 7) rfl (by decide)).1]

end Knx
