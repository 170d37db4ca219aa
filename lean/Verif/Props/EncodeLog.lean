import Verif.Lemmas.Wire
import Verif.Props.Client
import Verif.Props.LogTexts
import Verif.Props.Tunnelling
import Verif.Spec.EncodeLog

/-! # C121: the log of the encoders -/

namespace Knx
open Spec

/-- The text about a request. -/
theorem sentReq_word (q : Nat) : (sentCounterLine "knxnet_ip.tunneling.req" "req" .debug q) =
    ⟨"knxnet_ip.tunneling.req", .debug, fill "knxnet_ip.tunneling.encode.req with sequence counter={}".toList [natWord q]⟩ := by
  unfold sentCounterLine
  rw [decimal_word, fill_pieces _ [natWord q] "knxnet_ip.tunneling.encode.req with sequence counter=".toList [[]]
    (by decide +kernel) (by decide +kernel) rfl]
  have h : "knxnet_ip.tunneling.encode.".toList ++ "req".toList ++ " with sequence counter=".toList =
    "knxnet_ip.tunneling.encode.req with sequence counter=".toList := by decide +kernel
  rw [h]
  simp

/-- The text about an acknowledgement. -/
theorem sentAck_word (q : Nat) : (sentCounterLine "knxnet_ip.tunneling.ack" "ack" .info q) =
    ⟨"knxnet_ip.tunneling.ack", .info, fill "knxnet_ip.tunneling.encode.ack with sequence counter={}".toList [natWord q]⟩ := by
  unfold sentCounterLine
  rw [decimal_word, fill_pieces _ [natWord q] "knxnet_ip.tunneling.encode.ack with sequence counter=".toList [[]]
    (by decide +kernel) (by decide +kernel) rfl]
  have h : "knxnet_ip.tunneling.encode.".toList ++ "ack".toList ++ " with sequence counter=".toList =
    "knxnet_ip.tunneling.encode.ack with sequence counter=".toList := by decide +kernel
  rw [h]
  simp

/-- An octet of a counter. -/
theorem counter_octet {q : Nat} (h : q < 256) : (octetOf (q : Int)).toNat = q := by
  rw [octetOf_ofNat, BitVec.toNat_ofNat]
  exact Nat.mod_eq_of_lt h

/-- Encoding that leaves the state as it is and logs what is said about the frame. -/
def LogsFrame (f : Py LoggedState Msg) (g : State → Except Err Msg) : Prop :=
  ∀ c : LoggedState, c.state.seqLocal < 256 → f c = (g c.state, ⟨c.state, c.log ++ encodedLines (g c.state)⟩)

theorem raise_logs (e : Err) (c : LoggedState) :
    ((.error e, c) : Except Err Msg × LoggedState) = (.error e, ⟨c.state, c.log ++ encodedLines (.error e)⟩) := by
  simp [encodedLines]

theorem tunnelingReq_logs (m : Msg) : LogsFrame (tunnelingReqEncodeLog m) (fun s => tunnelingReqEncode s m) := by
  intro c hc
  beta_reduce
  unfold tunnelingReqEncodeLog tunnelingReqEncode connectionHeader
  cases c.state.chan with
  | none => exact raise_logs _ _
  | some ch =>
    simp only [Py.bind, Py.pure, LoggedState.write, Py.modify, sentReq_word]
    have h : encodedLines (.ok (ipHeaderEncode (shortOctets 0x0420 ++ shortOctets (4 + 6 + m.length : Nat) ++
        [octetOf 4, octetOf ch, octetOf c.state.seqLocal, octetOf (0 : Nat)] ++ m))) =
        [⟨"knxnet_ip.tunneling.req", .debug, fill "knxnet_ip.tunneling.encode.req with sequence counter={}".toList
          [natWord (octetOf (c.state.seqLocal : Int)).toNat]⟩] := rfl
    rw [h, counter_octet hc]

theorem cemi_logs (k : EncKind) (m : Msg) : LogsFrame (cemiEncodeLog k m) (fun s => cemiEncode k s m) := by
  intro c hc
  beta_reduce
  unfold cemiEncodeLog cemiEncode cemiReqEncode
  cases k with
  | ind =>
    have h : encodedLines (cemiIndEncode c.state m) = [] := rfl
    simp [h]
  | req =>
    cases hm : c.state.medium with
    | knxnetIp =>
      simp only [hm]
      exact tunnelingReq_logs _ c hc
    | usbHid =>
      have h : ∀ m, encodedLines (.ok (emiIdEncode m)) = [] := fun _ => rfl
      simp [h, hm]
    | tp =>
      have h : ∀ m, encodedLines (.ok ([octetOf 0x11, octetOf 0] ++ m)) = [] := fun _ => rfl
      simp only [hm, h, List.append_nil]

theorem link_logs (k : EncKind) (m : Msg) : LogsFrame (linkEncodeLog k m) (fun s => linkEncode k s m) := by
  intro c hc
  beta_reduce
  unfold linkEncodeLog linkEncode
  cases c.state.addressType with
  | none => exact raise_logs _ _
  | some t => exact cemi_logs k _ c hc

theorem nDataGroup_logs (k : EncKind) (m : Msg) : LogsFrame (nDataGroupEncodeLog k m) (fun s => nDataGroupEncode k s m) := by
  intro c hc
  beta_reduce
  unfold nDataGroupEncodeLog nDataGroupEncode
  rcases c.state.getAddresses with e | _ | ⟨a, l⟩
  · exact raise_logs _ _
  · exact link_logs k _ c hc
  · exact link_logs k _ c hc

theorem tDataGroup_logs (k : EncKind) (m : Msg) : LogsFrame (tDataGroupEncodeLog k m) (fun s => tDataGroupEncode k s m) := by
  intro c hc
  beta_reduce
  unfold tDataGroupEncodeLog tDataGroupEncode
  rcases c.state.getTsaps with e | _ | ⟨a, l⟩
  · exact raise_logs _ _
  · exact nDataGroup_logs k _ c hc
  · cases c.state.apci with
    | none => exact raise_logs _ _
    | some a => exact nDataGroup_logs k _ c hc

theorem nDataIndividual_logs (m : Msg) : LogsFrame (nDataIndividualEncodeLog m) (fun s => nDataIndividualEncode s m) := by
  intro c hc
  beta_reduce
  unfold nDataIndividualEncodeLog nDataIndividualEncode
  cases c.state.tables.individualAddress with
  | error e => exact raise_logs _ _
  | ok ia => exact link_logs .req _ c hc

theorem tDataIndividual_logs (m : Msg) {c : LoggedState} (hc : c.state.seqLocal < 256) (ha : c.state.addressType = some .individual) :
    tDataIndividualEncodeLog m c =
      (tDataIndividualEncode c.state m, ⟨c.state, c.log ++ encodedLines (tDataIndividualEncode c.state m)⟩) := by
  unfold tDataIndividualEncodeLog tDataIndividualEncode
  rw [if_pos ha, if_pos ha]
  cases c.state.apci with
  | none => exact raise_logs _ _
  | some a => exact nDataIndividual_logs _ c hc

theorem groupWrite_logs (k : EncKind) (a : Asap) (d : Dpt) {c : LoggedState} (hl : c.state.seqLocal < 256) :
    groupWriteEncodeLog k a d c = ((groupWriteEncode k a d c.state).1,
      ⟨(groupWriteEncode k a d c.state).2, c.log ++ encodedLines (groupWriteEncode k a d c.state).1⟩) := by
  unfold groupWriteEncodeLog groupWriteEncode
  simp only [Py.bind, LoggedState.set, Py.modify]
  have h : ({ c.state with asap := some a, apci := some 0x80, addressType := some .group } : State).seqLocal < 256 := hl
  revert h
  generalize ({ c.state with asap := some a, apci := some 0x80, addressType := some .group } : State) = s
  intro h
  cases s.getDpt with
  | error e => exact raise_logs _ ⟨s, c.log⟩
  | ok cls => exact tDataGroup_logs k _ ⟨s, c.log⟩ h

/-- C121: `encode_msg` with its log gives the frame and the state that it gives without, and logs exactly one line about a tunnelling
request or an acknowledgement, with the counter in the frame, and nothing about any other message or if it raises. -/
theorem c121_log (m : InMsg) {c : LoggedState} (hl : c.state.seqLocal < 256) (hr : c.state.seqRemote < 256) :
    encodeMsgLog m c =
      ((encodeMsg m c.state).1, ⟨(encodeMsg m c.state).2, c.log ++ encodedLines (encodeMsg m c.state).1⟩) := by
  cases m with
  | connectReq ci cp di dp =>
    have h : encodedLines (.ok (connectReqEncode ci cp di dp)) = [] := rfl
    simp [encodeMsgLog, encodeMsg, Py.pure, h]
  | searchReq ip port =>
    have h : encodedLines (.ok (searchReqEncode ip port)) = [] := rfl
    simp [encodeMsgLog, encodeMsg, Py.pure, h]
  | disconnectReq ip port =>
    have h : encodedLines (channelReqEncode 0x0209 c.state ip port) = [] := by unfold channelReqEncode; cases c.state.chan <;> rfl
    simp [encodeMsgLog, encodeMsg, h]
  | connectionstateReq ip port =>
    have h : encodedLines (channelReqEncode 0x0207 c.state ip port) = [] := by unfold channelReqEncode; cases c.state.chan <;> rfl
    simp [encodeMsgLog, encodeMsg, h]
  | tunnelingAck seq st =>
    show tunnelingAckEncodeLog seq st c = ((tunnelingAckEncode seq st c.state).1,
      ⟨(tunnelingAckEncode seq st c.state).2, c.log ++ encodedLines (tunnelingAckEncode seq st c.state).1⟩)
    unfold tunnelingAckEncodeLog tunnelingAckEncode connectionHeader
    cases c.state.chan with
    | none => exact raise_logs _ _
    | some ch =>
      simp only [Py.bind, Py.pure, LoggedState.write, LoggedState.set, Py.modify, sentAck_word]
      have h : encodedLines (.ok (ipHeaderEncode (shortOctets 0x0421 ++ shortOctets (4 + 6) ++
          [octetOf 4, octetOf ch, octetOf c.state.seqRemote, octetOf st.toNat]))) =
          [⟨"knxnet_ip.tunneling.ack", .info, fill "knxnet_ip.tunneling.encode.ack with sequence counter={}".toList
            [natWord (octetOf (c.state.seqRemote : Int)).toNat]⟩] := rfl
      rw [h, counter_octet hr]
  | groupRead a =>
    exact tDataGroup_logs .req _ ⟨{ c.state with apci := some 0, asap := some a, addressType := some .group }, c.log⟩ hl
  | groupWriteReq a d => exact groupWrite_logs .req a d hl
  | groupWriteInd a d => exact groupWrite_logs .ind a d hl
  | propertyRead a oi pid n si =>
    exact tDataIndividual_logs _
      (c := ⟨{ c.state with asap := some a, apci := some 0x3D5, addressType := some .individual }, c.log⟩) hl rfl
  | propertyWrite a oi pid n si data =>
    show propertyWriteEncodeLog a oi pid n si data c = ((propertyWriteEncode a oi pid n si data c.state).1,
      ⟨(propertyWriteEncode a oi pid n si data c.state).2, c.log ++ encodedLines (propertyWriteEncode a oi pid n si data c.state).1⟩)
    unfold propertyWriteEncodeLog propertyWriteEncode
    simp only [Py.bind, LoggedState.set, Py.modify]
    cases stringToOctets data with
    | error e => exact raise_logs _ ⟨_, c.log⟩
    | ok d =>
      exact tDataIndividual_logs _
        (c := ⟨{ c.state with asap := some a, apci := some 0x3D7, addressType := some .individual }, c.log⟩) hl rfl

/-- C121: the same for the two encoders of the transport layer that nothing calls. -/
theorem c121_connect {c : LoggedState} (hl : c.state.seqLocal < 256) :
    tConnectEncodeLog c = ((tConnectEncode c.state).1, ⟨(tConnectEncode c.state).2, c.log ++ encodedLines (tConnectEncode c.state).1⟩) ∧
    tDisconnectEncodeLog c =
      ((tDisconnectEncode c.state).1, ⟨(tDisconnectEncode c.state).2, c.log ++ encodedLines (tDisconnectEncode c.state).1⟩) :=
  ⟨nDataIndividual_logs _ ⟨{ c.state with addressType := some .individual }, c.log⟩ hl,
    nDataIndividual_logs _ ⟨{ c.state with addressType := some .individual }, c.log⟩ hl⟩

/-! ## The client -/

/-- Both counters are octets. -/
def Counted (s : State) : Prop := s.seqLocal < 256 ∧ s.seqRemote < 256

/-- A call that does what it does without log, and whose lines are those about the frames it sends, as long as there is a transport. -/
def Traces {α : Type} (f : Py TracedClient α) (g : Py Client α) : Prop :=
  ∀ c, Counted c.client.state → ∃ ls, f c = ((g c.client).1, ⟨(g c.client).2, c.log ++ ls⟩) ∧ Counted (g c.client).2.state ∧
    (c.client.transport = true → (g c.client).2.transport = true ∧ ∃ w, (g c.client).2.wire = c.client.wire ++ w ∧
      ls = w.flatMap sentLines)

theorem traces_bind {α β : Type} {f : Py TracedClient α} {g : Py Client α} {F : α → Py TracedClient β} {G : α → Py Client β}
    (h : Traces f g) (H : ∀ a, Traces (F a) (G a)) : Traces (Py.bind f F) (Py.bind g G) := by
  intro c hc
  obtain ⟨l1, h1, h2, h3⟩ := h c hc
  unfold Py.bind
  rw [h1]
  rcases hx : g c.client with ⟨e | a, d⟩ <;> rw [hx] at h2 h3
  · exact ⟨l1, rfl, h2, h3⟩
  · obtain ⟨l2, h4, h5, h6⟩ := H a ⟨d, c.log ++ l1⟩ h2
    refine ⟨l1 ++ l2, ?_, h5, fun ht => ?_⟩
    · simp only
      rw [h4, List.append_assoc]
    · obtain ⟨h7, w1, h8, rfl⟩ := h3 ht
      obtain ⟨h9, w2, h10, rfl⟩ := h6 h7
      refine ⟨h9, w1 ++ w2, ?_, List.flatMap_append.symm⟩
      simp only at h8 h10 ⊢
      rw [h10, h8, List.append_assoc]

theorem traces_silent {α : Type} {g : Py Client α} (h : ∀ c, Counted c.state → Counted (g c).2.state)
    (ht : ∀ c, c.transport = true → (g c).2.transport = true) (hw : ∀ c, (g c).2.wire = c.wire) :
    Traces (TracedClient.silent g) g := by
  intro c hc
  exact ⟨[], by simp [TracedClient.silent], h _ hc, fun h => ⟨ht _ h, [], by simp [hw], rfl⟩⟩

theorem traces_same {α : Type} (r : Except Err α) : Traces (fun c => (r, c)) (fun c => (r, c)) :=
  fun _ hc => ⟨[], by simp, hc, fun h => ⟨h, [], by simp, rfl⟩⟩

theorem traces_encode (m : InMsg) : Traces (TracedClient.encodeAndSend m) (Client.encodeAndSend m) := by
  intro c hc
  have hn : Counted (encodeMsg m c.client.state).2 := (counters_after c.client.state ⟨hc.2, hc.1⟩ (.encode m)).symm
  unfold TracedClient.encodeAndSend
  rw [c121_log m (c := ⟨c.client.state, c.log⟩) hc.1 hc.2, encodeAndSend_eq]
  rcases hx : encodeMsg m c.client.state with ⟨e | f, s⟩ <;> rw [hx] at hn
  · refine ⟨[], ?_, hn, fun h => ⟨h, [], by simp, rfl⟩⟩
    simp [encodedLines]
  · cases ht : c.client.transport with
    | false =>
      refine ⟨sentLines f, ?_, hn, fun h => by simp at h⟩
      simp [TracedClient.silent, Client.send, ht, encodedLines]
    | true =>
      refine ⟨sentLines f, ?_, hn, fun _ => ⟨rfl, [f], rfl, by simp⟩⟩
      simp [TracedClient.silent, Client.send, ht, encodedLines, c49_hex]

theorem traces_handle (res : OutMsg) : Traces (TracedClient.handle res) (Client.handle res) := by
  intro c hc
  cases res with
  | connectRes =>
    have h0 : (0 : Nat) < 256 := by decide
    exact traces_bind (traces_silent (g := Py.modify fun c : Client => { c with state := c.state.setSeqRemote 0 })
        (fun _ h => ⟨h.1, h0⟩) (fun _ h => h) fun _ => rfl)
      (fun _ => traces_bind (traces_encode (.connectionstateReq c.client.localAddr c.client.localPort))
        fun _ => traces_silent (g := Py.modify fun c : Client => { c with connected := true })
          (fun _ h => h) (fun _ h => h) fun _ => rfl) c hc
  | tunnelingReq seq st =>
    unfold TracedClient.handle Client.handle
    by_cases h : st = .noError
    · simp only [h, if_true]
      exact traces_encode _ c hc
    · simp only [h, if_false]
      exact traces_same _ c hc
  | _ => exact traces_same _ c hc

theorem traces_each (l : List OutMsg) : Traces (Py.forEach l TracedClient.handle) (Py.forEach l Client.handle) := by
  induction l with
  | nil => exact traces_same _
  | cons a l ih => exact traces_bind (traces_handle a) fun _ => ih

theorem traces_datagram (d : Msg) : Traces (TracedClient.datagramReceived d) (Client.datagramReceived d) := by
  refine traces_bind (traces_same _) fun msg => traces_bind (traces_silent (fun c hc => ?_) (fun _ h => h) fun _ => rfl) fun r =>
    traces_bind (traces_silent (fun _ h => h) (fun _ h => h) fun _ => rfl) fun _ => ?_
  · exact (counters_after c.state ⟨hc.2, hc.1⟩ (.decode msg)).symm
  · cases r with
    | list l => exact traces_each l
    | none => exact traces_same _
    | tuple l => exact traces_same _

theorem traces_write (m : InMsg) : Traces (TracedClient.write m) (Client.write m) := by
  intro c hc
  unfold TracedClient.write Client.write
  by_cases h : c.client.connected = true
  · simp only [h, if_true]
    exact traces_bind (traces_same _) (fun _ => traces_encode m) c hc
  · simp only [h]
    exact traces_same _ c hc

theorem traces_made : Traces TracedClient.connectionMade Client.connectionMade :=
  traces_bind (traces_silent (fun _ h => h) (fun _ _ => rfl) fun _ => rfl) fun _ c => traces_encode _ c

/-- One event. -/
theorem traces_step (c : TracedClient) (hc : Counted c.client.state) (e : Client.Event) :
    ∃ ls, TracedClient.step c e = ⟨Client.step c.client e, c.log ++ ls⟩ ∧ Counted (Client.step c.client e).state ∧
      (c.client.transport = true → e ≠ .lost → (Client.step c.client e).transport = true ∧
        ∃ w, (Client.step c.client e).wire = c.client.wire ++ w ∧ ls = w.flatMap sentLines) := by
  have hof : ∀ {f : Py TracedClient Unit} {g : Py Client Unit}, Traces f g → ∃ ls, (f c).2 = ⟨(g c.client).2, c.log ++ ls⟩ ∧
      Counted (g c.client).2.state ∧ (c.client.transport = true → e ≠ .lost → (g c.client).2.transport = true ∧
        ∃ w, (g c.client).2.wire = c.client.wire ++ w ∧ ls = w.flatMap sentLines) := by
    intro f g h
    obtain ⟨ls, h1, h2, h3⟩ := h c hc
    exact ⟨ls, by rw [h1], h2, fun h _ => h3 h⟩
  cases e with
  | made => exact hof traces_made
  | lost => exact ⟨[], by simp [TracedClient.step, TracedClient.silent, Client.step], hc, fun _ h => absurd rfl h⟩
  | datagram d => exact hof (traces_datagram d)
  | write m => exact hof (traces_write m)

/-- C121: as long as a client has its transport, the lines of the encoders are, in order, those about the frames it has sent: one with the
counter of every request and every acknowledgement, none about other frames. -/
theorem c121_wire_partial {c : TracedClient} (hl : c.client.state.seqLocal < 256) (hr : c.client.state.seqRemote < 256)
    {es : List Client.Event} (hs : c.client.transport = true ∨ es.head? = some .made) (hn : .lost ∉ es) :
    (TracedClient.run c es).client = Client.run c.client es ∧
      ∃ w, (Client.run c.client es).wire = c.client.wire ++ w ∧ (TracedClient.run c es).log = c.log ++ w.flatMap sentLines := by
  have h : ∀ (es : List Client.Event) (c : TracedClient), Counted c.client.state → c.client.transport = true → .lost ∉ es →
      (TracedClient.run c es).client = Client.run c.client es ∧
      ∃ w, (Client.run c.client es).wire = c.client.wire ++ w ∧ (TracedClient.run c es).log = c.log ++ w.flatMap sentLines := by
    intro es
    induction es with
    | nil => exact fun c _ _ _ => ⟨rfl, [], (List.append_nil _).symm, (List.append_nil _).symm⟩
    | cons e es ih =>
      intro c hc ht hn
      obtain ⟨ls, h1, h2, h3⟩ := traces_step c hc e
      obtain ⟨h4, w, h5, rfl⟩ := h3 ht fun h => hn (by rw [h]; exact List.mem_cons_self)
      obtain ⟨h6, w', h7, h8⟩ := ih ⟨Client.step c.client e, c.log ++ w.flatMap sentLines⟩ h2 h4
        fun h => hn (List.mem_cons_of_mem _ h)
      have hr1 : TracedClient.run c (e :: es) = TracedClient.run (TracedClient.step c e) es := rfl
      have hr2 : Client.run c.client (e :: es) = Client.run (Client.step c.client e) es := rfl
      rw [hr1, hr2, h1]
      refine ⟨h6, w ++ w', ?_, ?_⟩
      · rw [h7, h5, List.append_assoc]
      · rw [h8, List.flatMap_append, List.append_assoc]
  rcases hs with hs | hs
  · exact h es c ⟨hl, hr⟩ hs hn
  · cases es with
    | nil => cases hs
    | cons e es =>
      cases hs
      exact h (.made :: es) ⟨{ c.client with transport := true }, c.log⟩ ⟨hl, hr⟩ rfl hn

/-- C121 fails without a transport: what is encoded then is logged, but not sent. -/
theorem c121_wire_refuted {c : TracedClient} (hl : c.client.state.seqLocal < 256) (hr : c.client.state.seqRemote < 256)
    (hc : c.client.connected = true) (ht : c.client.transport = false) {m : InMsg} {f : Msg}
    (hf : Client.formatIn m = .ok ()) (he : (encodeMsg m c.client.state).1 = .ok f) :
    (TracedClient.step c (.write m)).log = c.log ++ sentLines f ∧ (TracedClient.step c (.write m)).client.wire = c.client.wire := by
  have h : TracedClient.step c (.write m) = (TracedClient.write m c).2 := rfl
  rw [h]
  unfold TracedClient.write TracedClient.encodeAndSend
  simp only [hc, if_true, Py.bind, Py.lift, hf]
  rw [c121_log m (c := ⟨c.client.state, c.log⟩) hl hr]
  simp [he, TracedClient.silent, Client.send, ht, encodedLines]

/-- The lines about frames with different counters differ. -/
theorem sentText_inj {p q : Nat}
    (h : (sentCounterLine "knxnet_ip.tunneling.ack" "ack" .info p).text = (sentCounterLine "knxnet_ip.tunneling.ack" "ack" .info q).text) :
    p = q := decimal_inj (List.append_cancel_left h)

/-- C121 fails for the requests acknowledged: the line about an acknowledgement has the counter of its request only if that is the
expected one; the line about any other, such as a repeated one, is that of a request with another counter. -/
theorem c121_ack_refuted {s : State} {seq ch : Nat} (hr : s.seqRemote < 256) (hs : seq ≠ s.seqRemote) (hc : s.chan = some ch)
    (st : ErrorCode) :
    ∃ line, encodedLines (encodeMsg (.tunnelingAck seq st) s).1 = [line] ∧
      line.text ≠ fill "knxnet_ip.tunneling.encode.ack with sequence counter={}".toList [natWord seq] := by
  have h : encodedLines (encodeMsg (.tunnelingAck seq st) s).1 = [sentCounterLine "knxnet_ip.tunneling.ack" "ack" .info s.seqRemote] := by
    show encodedLines (tunnelingAckEncode seq st s).1 = _
    unfold tunnelingAckEncode connectionHeader
    simp only [hc, sentAck_word]
    have h : encodedLines (.ok (ipHeaderEncode (shortOctets 0x0421 ++ shortOctets (4 + 6) ++
        [octetOf 4, octetOf ch, octetOf s.seqRemote, octetOf st.toNat]))) =
        [⟨"knxnet_ip.tunneling.ack", .info, fill "knxnet_ip.tunneling.encode.ack with sequence counter={}".toList
          [natWord (octetOf (s.seqRemote : Int)).toNat]⟩] := rfl
    rw [h, counter_octet hr]
  refine ⟨_, h, fun h => hs (sentText_inj (p := seq) ?_)⟩
  rw [h, sentAck_word]

/-- C121: a message that becomes a tunnelling request has its line when it is encoded; an indication has none. -/
theorem c121_request {m : InMsg} {s : State} {f : Msg} (hl : s.seqLocal < 256) (hm : s.medium = .knxnetIp) (hq : isRequest m)
    (he : (encodeMsg m s).1 = .ok f) :
    sentLines f = [⟨"knxnet_ip.tunneling.req", .debug,
      fill "knxnet_ip.tunneling.encode.req with sequence counter={}".toList [natWord s.seqLocal]⟩] := by
  have hreq : ∀ {s' : State} {x f : Msg}, s'.seqLocal = s.seqLocal → s'.medium = .knxnetIp → linkEncode .req s' x = .ok f →
      sentLines f = [⟨"knxnet_ip.tunneling.req", .debug,
        fill "knxnet_ip.tunneling.encode.req with sequence counter={}".toList [natWord s.seqLocal]⟩] := by
    intro s' x f h1 h2 h
    unfold linkEncode at h
    cases ha : s'.addressType with
    | none => simp [ha] at h
    | some t =>
      simp only [ha, cemiEncode, cemiReqEncode, h2, tunnelingReqEncode, connectionHeader] at h
      cases hc : s'.chan with
      | none => simp [hc] at h
      | some ch =>
        simp only [hc, Except.ok.injEq] at h
        subst h
        rw [h1]
        have : ∀ y z, sentLines (ipHeaderEncode (shortOctets 0x0420 ++ shortOctets y ++
            [octetOf 4, octetOf ch, octetOf s.seqLocal, octetOf (0 : Nat)] ++ z)) = [⟨"knxnet_ip.tunneling.req", .debug,
              fill "knxnet_ip.tunneling.encode.req with sequence counter={}".toList [natWord (octetOf (s.seqLocal : Int)).toNat]⟩] :=
          fun _ _ => rfl
        rw [this, counter_octet hl]
  have hnet : ∀ {s' : State} {x f : Msg}, s'.seqLocal = s.seqLocal → s'.medium = .knxnetIp → nDataGroupEncode .req s' x = .ok f →
      sentLines f = [⟨"knxnet_ip.tunneling.req", .debug,
        fill "knxnet_ip.tunneling.encode.req with sequence counter={}".toList [natWord s.seqLocal]⟩] := by
    intro s' x f h1 h2 h
    unfold nDataGroupEncode at h
    split at h
    · cases h
    · exact hreq h1 h2 h
    · exact hreq h1 h2 h
  have hgroup : ∀ {s' : State} {x f : Msg}, s'.seqLocal = s.seqLocal → s'.medium = .knxnetIp → tDataGroupEncode .req s' x = .ok f →
      sentLines f = [⟨"knxnet_ip.tunneling.req", .debug,
        fill "knxnet_ip.tunneling.encode.req with sequence counter={}".toList [natWord s.seqLocal]⟩] := by
    intro s' x f h1 h2 h
    unfold tDataGroupEncode at h
    split at h
    · cases h
    · exact hnet h1 h2 h
    · split at h
      · cases h
      · exact hnet h1 h2 h
  have hind : ∀ {s' : State} {x f : Msg}, s'.seqLocal = s.seqLocal → s'.medium = .knxnetIp → s'.addressType = some .individual →
      tDataIndividualEncode s' x = .ok f → sentLines f = [⟨"knxnet_ip.tunneling.req", .debug,
        fill "knxnet_ip.tunneling.encode.req with sequence counter={}".toList [natWord s.seqLocal]⟩] := by
    intro s' x f h1 h2 h3 h
    unfold tDataIndividualEncode at h
    rw [if_pos h3] at h
    split at h
    · cases h
    · unfold nDataIndividualEncode at h
      split at h
      · cases h
      · exact hreq h1 h2 h
  cases m with
  | groupRead a => exact hgroup (s' := { s with apci := some 0, asap := some a, addressType := some .group }) rfl hm he
  | groupWriteReq a d =>
    replace he : (groupWriteEncode .req a d s).1 = .ok f := he
    unfold groupWriteEncode at he
    simp only at he
    split at he
    · cases he
    · exact hgroup (s' := { s with asap := some a, apci := some 0x80, addressType := some .group }) rfl hm he
  | propertyRead a oi pid n si =>
    exact hind (s' := { s with asap := some a, apci := some 0x3D5, addressType := some .individual }) rfl hm rfl he
  | propertyWrite a oi pid n si data =>
    replace he : (propertyWriteEncode a oi pid n si data s).1 = .ok f := he
    unfold propertyWriteEncode at he
    simp only at he
    split at he
    · cases he
    · exact hind (s' := { s with asap := some a, apci := some 0x3D7, addressType := some .individual }) rfl hm rfl he
  | _ => exact absurd hq id

example : (encodeMsgLog (.groupRead ⟨7, none⟩) ⟨exState .knxnetIp, []⟩).2.log =
    [⟨"knxnet_ip.tunneling.req", .debug, "knxnet_ip.tunneling.encode.req with sequence counter=0".toList⟩] := by decide +kernel

example : (tConnectEncodeLog ⟨exState .knxnetIp, []⟩).2.log =
    [⟨"knxnet_ip.tunneling.req", .debug, "knxnet_ip.tunneling.encode.req with sequence counter=0".toList⟩] := by decide +kernel

example : (TracedClient.run ⟨Client.init 0xC0A80001 3671 (exState .knxnetIp), []⟩
    [.made, .datagram [0x06, 0x10, 0x04, 0x20, 0, 12, 4, 0, 255, 0, 0x2B, 0], .lost]).log =
    [⟨"knxnet_ip.tunneling.ack", .info, "knxnet_ip.tunneling.encode.ack with sequence counter=255".toList⟩] := by decide +kernel

example : (TracedClient.step ⟨{ exClient with transport := false }, []⟩ (.write (.groupRead ⟨7, none⟩))).log.length = 1 := by
  decide +kernel

example : encodedLines (encodeMsg (.tunnelingAck 254 .noError) (exState .knxnetIp)).1 =
    [⟨"knxnet_ip.tunneling.ack", .info, "knxnet_ip.tunneling.encode.ack with sequence counter=255".toList⟩] := by decide +kernel

end Knx
