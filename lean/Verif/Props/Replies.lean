import Verif.Props.Client
import Verif.Props.Responses
import Verif.Spec.Replies

/-! # C61: what the client sends in answer -/

namespace Knx
open Spec Client

theorem decode_tunnel {s : State} (hm : s.medium = .knxnetIp) (l1 l2 h chan q st : Byte) (m : Msg) :
    ∃ s', (decodeMsg (tunnelDatagram l1 l2 h chan q st m) s).2 = s' ∧ s'.chan = s.chan ∧ s'.seqRemote = s.seqRemote ∧
      s'.seqLocal = s.seqLocal := by
  refine ⟨_, rfl, ?_⟩
  rw [decode_ip hm, tunnel_open]
  split_ifs
  · have he := msgCode_ends m s
    generalize msgCodeDecode m s = y at he
    cases he with
    | raises e => exact ⟨rfl, rfl, rfl⟩
    | returns l => exact ⟨rfl, rfl, rfl⟩
    | frame k l b => rcases lDataDecode k s.tables l b with e | r <;> exact ⟨rfl, rfl, rfl⟩
  · exact ⟨rfl, rfl, rfl⟩
  · exact ⟨rfl, rfl, rfl⟩

theorem encodeAndSend_ack {c : Client} {n : Nat} (hc : c.state.chan = some n) (ht : c.transport = true) (q : Nat) :
    (encodeAndSend (.tunnelingAck q .noError) c).2 =
      { c with wire := c.wire ++ [ackFrame n c.state.seqRemote 0]
               state := if q = c.state.seqRemote then { c.state with seqRemote := (c.state.seqRemote + 1) % 256 }
                 else c.state } := by
  rw [encodeAndSend_eq, ack_encode hc]
  simp only [ht, if_true]
  rfl

/-- The messages decoded for a tunnelling request. -/
theorem decode_tunnel_ok {s : State} (hm : s.medium = .knxnetIp) (l1 l2 h chan q st : Byte) (m : Msg) {r : Res}
    (hr : (decodeMsg (tunnelDatagram l1 l2 h chan q st m) s).1 = .ok r) :
    ∃ l, (∀ x ∈ l, isTelegram x = true) ∧ r = .list (.tunnelingReq q.toNat
      (if s.seqRemote = q.toNat ∨ s.seqRemote = q.toNat + 1 then .noError else .sequenceNumber) :: l) := by
  rw [decode_ip hm, tunnel_open] at hr
  split_ifs at hr with h1 h2
  · rcases hx : msgCodeDecode m s with ⟨e | r', s'⟩ <;> rw [hx] at hr
    · cases hr
    · cases hr
      rw [if_pos (.inl h1)]
      rcases msgCode_telegrams (r := r') (m := m) (s := s) (by rw [hx]) with rfl | ⟨ms, rfl, hms⟩
      · exact ⟨[], by simp, rfl⟩
      · exact ⟨ms, hms, rfl⟩
  · cases hr
    rw [if_pos (.inr h2)]
    exact ⟨[], by simp, rfl⟩
  · cases hr
    rw [if_neg (by rintro (h | h); exacts [h1 h, h2 h])]
    exact ⟨[], by simp, rfl⟩

/-- C61: a tunnelling request with the expected counter is answered by exactly its acknowledgement, and the expected counter
moves on, unless decoding its telegram raises, when nothing is sent and nothing moves. A request with the counter before is
answered by an acknowledgement of the expected counter (see C42). Any other request is not answered. -/
theorem c61_request {c : Client} (hm : c.state.medium = .knxnetIp) {n : Nat} (hc : c.state.chan = some n)
    (ht : c.transport = true) (l1 l2 h chan q st : Byte) (m : Msg) :
    (Client.step c (.datagram (tunnelDatagram l1 l2 h chan q st m))).wire = c.wire ++
      (if c.state.seqRemote = q.toNat then
        match (decodeMsg (tunnelDatagram l1 l2 h chan q st m) c.state).1 with
        | .ok _ => [ackFrame n q.toNat 0]
        | .error _ => []
      else if c.state.seqRemote = q.toNat + 1 then [ackFrame n (q.toNat + 1) 0] else []) ∧
    (Client.step c (.datagram (tunnelDatagram l1 l2 h chan q st m))).state.seqRemote =
      (if c.state.seqRemote = q.toNat then
        match (decodeMsg (tunnelDatagram l1 l2 h chan q st m) c.state).1 with
        | .ok _ => (q.toNat + 1) % 256
        | .error _ => q.toNat
      else c.state.seqRemote) ∧
    (Client.step c (.datagram (tunnelDatagram l1 l2 h chan q st m))).connected = c.connected ∧
    (Client.step c (.datagram (tunnelDatagram l1 l2 h chan q st m))).state.chan = c.state.chan := by
  obtain ⟨s', h1, h2, h3, -⟩ := decode_tunnel hm l1 l2 h chan q st m
  have h4 := @decode_tunnel_ok c.state hm l1 l2 h chan q st m
  have h5 : ∀ e, (decodeMsg (tunnelDatagram l1 l2 h chan q st m) c.state).1 = .error e → c.state.seqRemote = q.toNat := by
    intro e he
    by_contra hq
    rw [c40_other hm _ _ _ _ _ _ _ hq] at he
    cases he
  have hw : Client.step c (.datagram (tunnelDatagram l1 l2 h chan q st m)) =
      (datagramReceived (tunnelDatagram l1 l2 h chan q st m) c).2 := rfl
  rw [hw, datagram_eq]
  generalize decodeMsg (tunnelDatagram l1 l2 h chan q st m) c.state = x at h1 h4 h5
  rcases x with ⟨e | r, s⟩
  · simp only at h1
    subst h1
    simp only [if_pos (h5 e rfl)]
    refine ⟨by simp, ?_, trivial, h2⟩
    rw [h3]
    exact h5 e rfl
  · obtain ⟨l, hl, rfl⟩ := h4 rfl
    simp only at h1
    subst h1
    simp only
    rw [handleAll_request _ _ hl]
    generalize hd : ({ c with state := s, decoded := _ } : Client) = d
    have d1 : d.state = s := by rw [← hd]
    have d2 : d.transport = true := by rw [← hd]; exact ht
    have d3 : d.wire = c.wire := by rw [← hd]
    have d4 : d.connected = c.connected := by rw [← hd]
    have hack := encodeAndSend_ack (c := d) (n := n) (by rw [d1]; exact h2.trans hc) d2 q.toNat
    rw [d1, d3] at hack
    by_cases he : c.state.seqRemote = q.toNat
    · rw [if_pos (by rw [if_pos (.inl he)]), if_pos he, if_pos he, hack]
      simp only [h3, he, if_true]
      exact ⟨trivial, trivial, d4, h2⟩
    · rw [if_neg he, if_neg he]
      by_cases hp : c.state.seqRemote = q.toNat + 1
      · rw [if_pos (by rw [if_pos (.inr hp)]), if_pos hp, hack]
        have hne : ¬ q.toNat = s.seqRemote := by omega
        rw [if_neg hne]
        exact ⟨by rw [h3, hp], h3, d4, h2⟩
      · rw [if_neg (by rw [if_neg (by rintro (h | h); exacts [he h, hp h])]; simp), if_neg hp, d1, d3]
        exact ⟨by simp, h3, d4, h2⟩

theorem stateRequest_encode {s : State} {n : Nat} (hc : s.chan = some n) (ip : BitVec 32) (port : Int) :
    encodeMsg (.connectionstateReq ip port) s = (.ok (stateRequest n ip port), s) := by
  show (channelReqEncode 0x0207 s ip port, s) = _
  unfold channelReqEncode
  rw [hc]
  simp only [octetOf_ofNat]
  refine congrArg (fun x => (Except.ok x, s)) ?_
  unfold stateRequest hpaiCreate ipHeaderEncode
  rw [shortOctets_mod port, longOctets_ofNat]
  rfl

/-- C61: a connect response is answered by exactly the connection state request of the channel, at the client's own endpoint,
if it decodes to a message at all; the client then reports connected and expects counter 0. -/
theorem c61_connect {c : Client} (hm : c.state.medium = .knxnetIp) (ht : c.transport = true) (l1 l2 : Byte) (body : Msg)
    {n : Nat} (hc : channelAfter c.state.chan (.decode (datagram 0x02 0x06 l1 l2 body)) = some n) :
    (∀ l, connectAnswer body = .ok l → (Client.step c (.datagram (datagram 0x02 0x06 l1 l2 body))).wire =
      c.wire ++ [stateRequest n c.localAddr c.localPort] ∧
      (Client.step c (.datagram (datagram 0x02 0x06 l1 l2 body))).connected = true ∧
      (Client.step c (.datagram (datagram 0x02 0x06 l1 l2 body))).state.seqRemote = 0 ∧
      (Client.step c (.datagram (datagram 0x02 0x06 l1 l2 body))).state.seqLocal = c.state.seqLocal) ∧
    ∀ e, connectAnswer body = .error e → Client.step c (.datagram (datagram 0x02 0x06 l1 l2 body)) = c := by
  have hw : Client.step c (.datagram (datagram 0x02 0x06 l1 l2 body)) =
      (datagramReceived (datagram 0x02 0x06 l1 l2 body) c).2 := rfl
  rw [hw, datagram_eq, c60_connect l1 l2 body hm]
  constructor
  · intro l hl
    have hx : ∃ ip port ia st, l = [.connectRes ip port ia st] := by
      unfold connectAnswer at hl
      repeat' split at hl
      all_goals first | (cases hl; exact ⟨_, _, _, _, rfl⟩) | cases hl
    obtain ⟨ip, port, ia, st, rfl⟩ := hx
    rw [hl, hc]
    simp only [answer, handleAll, Py.forEach, Py.bind, handle, Py.modify]
    rw [encodeAndSend_eq, stateRequest_encode (n := n) rfl]
    simp only [ht, if_true, Py.pure]
    exact ⟨trivial, trivial, rfl, rfl⟩
  · intro e he
    have hch : channelAfter c.state.chan (.decode (datagram 0x02 0x06 l1 l2 body)) = c.state.chan := by
      rcases body with _ | ⟨b1, _ | ⟨b2, body⟩⟩
      iterate 2 · simp [channelAfter, connectedTo, disconnected, datagram]
      by_cases hl : b2 = 0 ∧ 12 ≤ body.length
      · obtain ⟨rfl, hl⟩ := hl
        rcases body with _ | ⟨b3, _ | ⟨b4, _ | ⟨b5, _ | ⟨b6, _ | ⟨b7, _ | ⟨b8, _ | ⟨b9, _ | ⟨b10, _ | ⟨b11, _ | ⟨b12,
          _ | ⟨b13, _ | ⟨b14, body⟩⟩⟩⟩⟩⟩⟩⟩⟩⟩⟩⟩ <;> simp at hl
        simp [connectAnswer] at he
      · have hl' : ¬ (b2 = 0#8 ∧ 12 ≤ body.length) := hl
        simp [channelAfter, connectedTo, disconnected, datagram]
        rw [if_neg hl']
    rw [hch, he]
    rfl

example : (Client.step exClient (.datagram (tunnelDatagram 0 0 4 0 254 0 [1]))).wire = [ackFrame 0 255 0] ∧
    (Client.step exClient (.datagram (tunnelDatagram 0 0 4 0 253 0 [1]))).wire = [] ∧
    (Client.step exClient (.datagram (tunnelDatagram 0 0 4 0 255 0 [1]))).wire = [] :=
  ⟨(c61_request (c := exClient) rfl rfl rfl 0 0 4 0 254 0 [1]).1, (c61_request (c := exClient) rfl rfl rfl 0 0 4 0 253 0 [1]).1,
    (c61_request (c := exClient) rfl rfl rfl 0 0 4 0 255 0 [1]).1⟩

example : (Client.step exClient (.datagram
    (datagram 2 6 0 20 [7, 0, 8, 1, 192, 168, 0, 2, 0x0E, 0x57, 4, 4, 0x11, 1]))).wire =
    [[0x06, 0x10, 0x02, 0x07, 0, 0x10, 7, 0, 8, 1, 192, 168, 0, 1, 0x0E, 0x57]] :=
  ((c61_connect (c := exClient) rfl rfl 0 20 [7, 0, 8, 1, 192, 168, 0, 2, 0x0E, 0x57, 4, 4, 0x11, 1] (n := 7) rfl).1 _ rfl).1

/-- C61: nothing else is answered. -/
theorem c61_other {c : Client} (hm : c.state.medium = .knxnetIp) {d : Msg}
    (h1 : ∀ body, d ≠ [0x06, 0x10, 0x02, 0x06] ++ body) (h2 : ∀ l1 l2 h chan q st m, d ≠ tunnelDatagram l1 l2 h chan q st m) :
    (Client.step c (.datagram d)).wire = c.wire ∧ (Client.step c (.datagram d)).connected = c.connected := by
  obtain ⟨-, -, h⟩ := quiet_decode (d := d) ⟨h1, h2⟩ hm
  have hw : Client.step c (.datagram d) = (datagramReceived d c).2 := rfl
  rw [hw, datagram_eq]
  rcases hx : decodeMsg d c.state with ⟨e | r, s⟩ <;> rw [hx] at h
  · exact ⟨rfl, rfl⟩
  · simp only
    rw [(h r rfl).2]
    exact ⟨rfl, rfl⟩

example : (Client.step exClient (.datagram (ackFrame 0 0 0))).wire = [] :=
  (c61_other (c := exClient) rfl (d := ackFrame 0 0 0) (fun body h => by cases h) (fun l1 l2 x c q st m h => by cases h)).1

theorem silent_send {c : Client} (ht : c.transport = false) (m : InMsg) :
    (encodeAndSend m c).2.wire = c.wire ∧ (encodeAndSend m c).2.transport = false := by
  rw [encodeAndSend_eq]
  rcases encodeMsg m c.state with ⟨e | f, s⟩
  · exact ⟨rfl, ht⟩
  · simp [ht]

theorem silent_handle {c : Client} (ht : c.transport = false) (m : OutMsg) :
    (handle m c).2.wire = c.wire ∧ (handle m c).2.transport = false := by
  cases m with
  | connectRes ip port ia st =>
    unfold handle
    simp only [Py.bind, Py.modify]
    have h1 := silent_send (c := { c with state := c.state.setSeqRemote 0 }) ht (.connectionstateReq c.localAddr c.localPort)
    generalize encodeAndSend (.connectionstateReq c.localAddr c.localPort)
      { c with state := c.state.setSeqRemote 0 } = x at h1
    rcases x with ⟨e | f, s⟩ <;> exact h1
  | tunnelingReq seq st =>
    unfold handle
    simp only
    split_ifs
    · exact silent_send ht _
    · exact ⟨rfl, ht⟩
  | _ => exact ⟨rfl, ht⟩

/-- C61: without a transport nothing is sent. -/
theorem c61_lost {c : Client} (ht : c.transport = false) {es : List Client.Event} (he : .made ∉ es) :
    (Client.run c es).wire = c.wire := by
  have hall : ∀ (l : List OutMsg) (c : Client), c.transport = false →
      (Py.forEach l handle c).2.wire = c.wire ∧ (Py.forEach l handle c).2.transport = false := by
    intro l
    induction l with
    | nil => exact fun c h => ⟨rfl, h⟩
    | cons m l ih =>
      intro c h
      unfold Py.forEach Py.bind
      have h1 := silent_handle h m
      generalize handle m c = x at h1
      rcases x with ⟨e | r, d⟩
      · exact h1
      · exact ⟨(ih d h1.2).1.trans h1.1, (ih d h1.2).2⟩
  have hstep : ∀ (e : Client.Event) (c : Client), e ≠ .made → c.transport = false →
      (Client.step c e).wire = c.wire ∧ (Client.step c e).transport = false := by
    intro e c hne h
    cases e with
    | made => exact absurd rfl hne
    | lost => exact ⟨rfl, rfl⟩
    | write m =>
      show (write m c).2.wire = _ ∧ (write m c).2.transport = _
      unfold write
      split_ifs
      · simp only [Py.bind, Py.lift]
        rcases formatIn m with e | u
        · exact ⟨rfl, h⟩
        · exact silent_send h m
      · exact ⟨rfl, h⟩
    | datagram d =>
      show (datagramReceived d c).2.wire = _ ∧ (datagramReceived d c).2.transport = _
      rw [datagram_eq]
      rcases decodeMsg d c.state with ⟨e | r, s⟩
      · exact ⟨rfl, h⟩
      · cases r with
        | none => exact ⟨rfl, h⟩
        | tuple l => exact ⟨rfl, h⟩
        | list l => exact hall l _ h
  induction es generalizing c with
  | nil => rfl
  | cons e es ih =>
    obtain ⟨h1, h2⟩ := hstep e c (fun h => he (h ▸ List.mem_cons_self)) ht
    exact (ih h2 fun h => he (List.mem_cons_of_mem _ h)).trans h1

example : (Client.run { exClient with transport := false } [.datagram (tunnelDatagram 0 0 4 0 254 0 [1]),
    .write (.groupRead ⟨7, none⟩), .lost]).wire = [] := c61_lost (c := { exClient with transport := false }) rfl (by simp)

end Knx
