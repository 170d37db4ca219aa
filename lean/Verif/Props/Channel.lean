import Verif.Spec.Channel
import Verif.Props.Exact

/-! # C97, C98: datagrams of another channel, and of a server that ends the connection -/

namespace Knx
open Spec

theorem tunnel_any (l1 l2 h chan chan' q st : Byte) (m : Msg) {s : State} (hm : s.medium = .knxnetIp) :
    decodeMsg (datagram 0x04 0x20 l1 l2 ([h, chan, q, st] ++ m)) s =
      decodeMsg (datagram 0x04 0x20 l1 l2 ([h, chan', q, st] ++ m)) s := by
  rw [decode_ip hm, decode_ip hm]
  exact (tunnel_open l1 l2 h chan q st m s).trans (tunnel_open l1 l2 h chan' q st m s).symm

theorem ack_any (l1 l2 h chan chan' q st : Byte) (rest : Msg) {s : State} (hm : s.medium = .knxnetIp) :
    decodeMsg (datagram 0x04 0x21 l1 l2 ([h, chan, q, st] ++ rest)) s =
      decodeMsg (datagram 0x04 0x21 l1 l2 ([h, chan', q, st] ++ rest)) s := by
  rw [decode_ip hm, decode_ip hm]
  simp only [datagram, List.cons_append, List.nil_append]
  rw [ip_dispatch, ip_dispatch, if_pos (by decide), if_neg (by decide), if_neg (by decide), if_neg (by decide), if_neg (by decide),
      if_neg (by decide), if_pos (by decide)]
  rfl

/-- C97 is false of every tunnelling request and acknowledgement: the client does with it the same whatever channel it is for. -/
theorem c97_refuted {c : Client} (hm : c.state.medium = .knxnetIp) (l1 l2 h chan chan' q st : Byte) (m : Msg) :
    Client.step c (.datagram (datagram 0x04 0x20 l1 l2 ([h, chan, q, st] ++ m))) =
      Client.step c (.datagram (datagram 0x04 0x20 l1 l2 ([h, chan', q, st] ++ m))) ∧
    Client.step c (.datagram (datagram 0x04 0x21 l1 l2 ([h, chan, q, st] ++ m))) =
      Client.step c (.datagram (datagram 0x04 0x21 l1 l2 ([h, chan', q, st] ++ m))) := by
  constructor
  · show (Client.datagramReceived _ c).2 = (Client.datagramReceived _ c).2
    rw [datagram_eq, datagram_eq, tunnel_any l1 l2 h chan chan' q st m hm]
  · show (Client.datagramReceived _ c).2 = (Client.datagramReceived _ c).2
    rw [datagram_eq, datagram_eq, ack_any l1 l2 h chan chan' q st m hm]

/-- C97 is false in particular of a request that the server sends on another connection: if it has the expected counter
and its telegram decodes, the client takes it, acknowledges it on its own channel, and expects the next counter, so that the
request with this counter on its own channel is then refused (see C40). -/
theorem c97_taken_refuted {c : Client} (hm : c.state.medium = .knxnetIp) {n : Nat} (hc : c.state.chan = some n)
    (ht : c.transport = true) (l1 l2 h chan q st : Byte) (_hn : chan.toNat ≠ n) (m : Msg) (hq : c.state.seqRemote = q.toNat)
    {r : Res} (hr : (decodeMsg (datagram 0x04 0x20 l1 l2 ([h, chan, q, st] ++ m)) c.state).1 = .ok r) :
    (Client.step c (.datagram (datagram 0x04 0x20 l1 l2 ([h, chan, q, st] ++ m)))).wire = c.wire ++ [ackFrame n q.toNat 0] ∧
    (Client.step c (.datagram (datagram 0x04 0x20 l1 l2 ([h, chan, q, st] ++ m)))).state.seqRemote = (q.toNat + 1) % 256 ∧
    (Client.step c (.datagram (datagram 0x04 0x20 l1 l2 ([h, chan, q, st] ++ m)))).decoded =
      c.decoded ++ Client.messages r := by
  obtain ⟨h1, h2⟩ := c61_request hm hc ht l1 l2 h chan q st m
  have hr' : (decodeMsg (tunnelDatagram l1 l2 h chan q st m) c.state).1 = .ok r := hr
  rw [if_pos hq, hr'] at h1 h2
  refine ⟨h1, h2.1, ?_⟩
  rw [c49_received, hr]

/-- C97 is false in particular of an acknowledgement on another channel: if it has the counter of the client's last request,
the client takes the request for received. -/
theorem c97_ack_refuted {c : Client} (hm : c.state.medium = .knxnetIp) {n : Nat} (_hc : c.state.chan = some n)
    (l1 l2 h chan q : Byte) (_hn : chan.toNat ≠ n) (rest : Msg) (hq : c.state.seqLocal = q.toNat) :
    (Client.step c (.datagram (datagram 0x04 0x21 l1 l2 ([h, chan, q, 0] ++ rest)))).state.seqLocal =
      (q.toNat + 1) % 256 := by
  show (Client.datagramReceived _ c).2.state.seqLocal = _
  have hd : decodeMsg (datagram 0x04 0x21 l1 l2 ([h, chan, q, 0] ++ rest)) c.state =
      (.ok (.tuple [.tunnelingAck ((q.toNat + 1) % 256) .noError]), { c.state with seqLocal := (q.toNat + 1) % 256 }) := by
    rw [decode_ip hm]
    simp only [datagram, List.cons_append, List.nil_append]
    rw [ip_dispatch, if_pos (by decide), if_neg (by decide), if_neg (by decide), if_neg (by decide), if_neg (by decide),
      if_neg (by decide), if_pos (by decide)]
    unfold tunnelingAckDecode
    simp only [short, connHeader, octect, hq, if_true, State.setSeqLocal]
    rfl
  rw [datagram_eq, hd]
  rfl

/-- C97 is false in particular of the end of another connection: the client then has no channel any more. -/
theorem c97_closed_refuted {c : Client} (hm : c.state.medium = .knxnetIp) {n : Nat} (_hc : c.state.chan = some n)
    (l1 l2 chan : Byte) (_hn : chan.toNat ≠ n) (rest : Msg) :
    (Client.step c (.datagram (datagram 0x02 0x0A l1 l2 ([chan, 0] ++ rest)))).state = { c.state with chan := some 0 } := by
  show (Client.datagramReceived _ c).2.state = _
  rw [datagram_eq, c60_disconnect _ _ _ hm]
  rfl

/-- C97 as it stands is false. -/
theorem c97_claim_refuted : ¬ ∀ (c : Client) (n : Nat) (chan : Byte) (d : Msg), c.state.medium = .knxnetIp →
    c.state.chan = some n → OfChannel chan d → chan.toNat ≠ n → Unmoved c (Client.step c (.datagram d)) := by
  intro h
  have hc : ({ exClient with state := { exClient.state with chan := some 7 } } : Client).state.chan = some 7 := rfl
  obtain ⟨l, hl⟩ := h _ 7 9 _ rfl hc (.closed 0 8 0 []) (by decide)
  have := congrArg (fun d : Client => d.state) hl
  rw [c97_closed_refuted rfl hc 0 8 9 (by decide) []] at this
  exact absurd (show (some 0 : Option Nat) = some 7 from congrArg State.chan this) (by decide)

theorem unmoved_answer {c : Client} {d : Msg} {r : Except Err (List OutMsg)} (h : decodeMsg d c.state = (answer r, c.state))
    (hr : ∀ l, r = .ok l → ∀ x ∈ l, ∀ c, Client.handle x c = (.ok (), c)) : Unmoved c (Client.step c (.datagram d)) := by
  show Unmoved c (Client.datagramReceived d c).2
  rw [datagram_eq, h]
  rcases r with e | l
  · exact ⟨c.decoded, rfl⟩
  · refine ⟨c.decoded ++ l, ?_⟩
    have key : ∀ (l : List OutMsg), (∀ x ∈ l, ∀ c, Client.handle x c = (.ok (), c)) → ∀ c : Client,
        Py.forEach l Client.handle c = (.ok (), c) := by
      intro l
      induction l with
      | nil => intro _ c; rfl
      | cons x l ih =>
        intro hl c
        unfold Py.forEach Py.bind
        rw [hl x (by simp) c]
        exact ih (fun y hy => hl y (by simp [hy])) c
    show (Py.forEach l Client.handle _).2 = _
    rw [key l (hr l rfl)]
    rfl

theorem unmoved_state {c : Client} (hm : c.state.medium = .knxnetIp) (l1 l2 : Byte) (body : Msg) :
    Unmoved c (Client.step c (.datagram (datagram 0x02 0x08 l1 l2 body))) := by
  refine unmoved_answer (c60_state l1 l2 body hm) fun l hl x hx c => ?_
  unfold stateAnswer at hl
  repeat' split at hl
  all_goals cases hl
  all_goals
    simp only [List.mem_singleton] at hx
    subst hx
    rfl

/-- What holds of C97: a datagram of any channel that is a response about the state of a connection, or the refusal to end one,
or a request with a counter that is neither expected nor the one before, does nothing to the client. Missing from the full
claim: all other datagrams (`c97_taken_refuted`, `c97_ack_refuted`, `c97_closed_refuted`). -/
theorem c97_partial {c : Client} (hm : c.state.medium = .knxnetIp) (l1 l2 h chan q st : Byte) (rest : Msg) :
    Unmoved c (Client.step c (.datagram (datagram 0x02 0x08 l1 l2 ([chan, st] ++ rest)))) ∧
    (st ≠ 0 → Unmoved c (Client.step c (.datagram (datagram 0x02 0x0A l1 l2 ([chan, st] ++ rest))))) ∧
    (c.state.seqRemote ≠ q.toNat → c.state.seqRemote ≠ q.toNat + 1 →
      Unmoved c (Client.step c (.datagram (datagram 0x04 0x20 l1 l2 ([h, chan, q, st] ++ rest))))) := by
  refine ⟨unmoved_state hm _ _ _, fun hst => ?_, fun h1 h2 => ?_⟩
  · refine unmoved_answer (r := .ok []) ?_ (by simp)
    rw [c60_disconnect _ _ _ hm]
    have hst' : ¬ st = 0#8 := hst
    simp [answer, disconnectAnswer, channelAfter, connectedTo, disconnected, datagram, hst']
  · refine unmoved_answer (r := .ok [.tunnelingReq q.toNat .sequenceNumber]) ?_ ?_
    · rw [decode_ip hm]
      refine (tunnel_open l1 l2 h chan q st rest c.state).trans ?_
      rw [if_neg h1, if_neg h2]
      rfl
    · intro l hl x hx c
      cases hl
      simp only [List.mem_singleton] at hx
      subst hx
      rfl

/-! ## C98 -/

/-- C98 is false of every connected client: whatever a server says, the client remains connected and does not answer; only the
response to a disconnect request has an effect, it takes away the channel. -/
theorem c98_refuted {c : Client} (hm : c.state.medium = .knxnetIp) {d : Msg} (hd : SaysGone d) :
    (Client.step c (.datagram d)).connected = c.connected ∧ (Client.step c (.datagram d)).transport = c.transport ∧
    (Client.step c (.datagram d)).wire = c.wire ∧
    ((Client.step c (.datagram d)).state = c.state ∨ (Client.step c (.datagram d)).state = { c.state with chan := some 0 }) := by
  cases hd with
  | request l1 l2 body =>
    have : Unmoved c (Client.step c (.datagram (datagram 0x02 0x09 l1 l2 body))) := by
      refine unmoved_answer (r := .ok []) ?_ (by simp)
      rw [decode_ip hm]
      simp only [datagram, List.cons_append, List.nil_append]
      rw [ip_dispatch, if_pos (by decide), if_neg (by decide), if_neg (by decide), if_neg (by decide), if_neg (by decide),
        if_neg (by decide), if_neg (by decide)]
      rfl
    obtain ⟨l, h⟩ := this
    rw [h]
    exact ⟨rfl, rfl, rfl, .inl rfl⟩
  | state l1 l2 chan st rest h =>
    obtain ⟨l, h⟩ := unmoved_state hm l1 l2 ([chan, st] ++ rest)
    rw [h]
    exact ⟨rfl, rfl, rfl, .inl rfl⟩
  | closed l1 l2 chan rest =>
    have hs : Client.step c (.datagram (datagram 0x02 0x0A l1 l2 ([chan, 0] ++ rest))) =
        { c with state := { c.state with chan := some 0 }, decoded := c.decoded ++ [.disconnectRes chan.toNat .noError] } := by
      show (Client.datagramReceived _ c).2 = _
      rw [datagram_eq, c60_disconnect _ _ _ hm]
      rfl
    rw [hs]
    exact ⟨rfl, rfl, rfl, .inr rfl⟩

theorem connected_stays {c : Client} (hm : c.state.medium = .knxnetIp) (hch : c.state.chan ≠ none) (hc : c.connected = true)
    (e : Client.Event) : (Client.step c e).connected = true :=
  (c47_exact hm hch e).2 (.inl hc)

/-- C98 is false for good: as long as its transport is there, a client that was connected once sends every message that it
can encode, whatever has been said to it. -/
theorem c98_forever_refuted {c : Client} (hm : c.state.medium = .knxnetIp) (hch : c.state.chan ≠ none)
    (hc : c.connected = true) (ht : c.transport = true) {es : List Client.Event} (he : .lost ∉ es) (m : InMsg) :
    (∃ f, (Client.step (Client.run c es) (.write m)).wire = (Client.run c es).wire ++ [f]) ↔
      Presentable m ∧ ∃ f, (encodeMsg m (Client.run c es).state).1 = .ok f := by
  have key : ∀ (es : List Client.Event) (c : Client), c.state.medium = .knxnetIp → c.state.chan ≠ none →
      c.connected = true → c.transport = true → .lost ∉ es →
      (Client.run c es).connected = true ∧ (Client.run c es).transport = true := by
    intro es
    induction es with
    | nil => exact fun c _ _ h h' _ => ⟨h, h'⟩
    | cons e es ih =>
      intro c hm hch hc ht he
      have h1 : e ≠ .lost := fun h => he (by simp [h])
      exact ih (Client.step c e) ((step_medium c e).trans hm) (step_channel hm hch e) (connected_stays hm hch hc e)
        (step_transport ht h1) fun h => he (by simp [h])
  obtain ⟨h1, h2⟩ := key es c hm hch hc ht he
  exact c49_sends h1 h2 m

/-- What holds of C98: after the response to a disconnect request the client sends its requests on channel 0, which is no
channel of the server's. Missing from the full claim: that it sends none (`c98_forever_refuted`), and the other two datagrams,
after which it goes on as before (`c98_refuted`). -/
theorem c98_closed_partial {c : Client} (hm : c.state.medium = .knxnetIp) (l1 l2 chan : Byte) (rest : Msg) {m : InMsg} {x : Msg}
    (h : Sends (Client.step c (.datagram (datagram 0x02 0x0A l1 l2 ([chan, 0] ++ rest)))) m x) :
    (Client.run c [.datagram (datagram 0x02 0x0A l1 l2 ([chan, 0] ++ rest)), .write m]).wire =
      c.wire ++ [tunnelRequest 0 (BitVec.ofNat 8 c.state.seqLocal) x] := by
  have hs : Client.step c (.datagram (datagram 0x02 0x0A l1 l2 ([chan, 0] ++ rest))) =
      { c with state := { c.state with chan := some 0 }, decoded := c.decoded ++ [.disconnectRes chan.toNat .noError] } := by
    show (Client.datagramReceived _ c).2 = _
    rw [datagram_eq, c60_disconnect _ _ _ hm]
    rfl
  rw [hs] at h
  have hw := (sends_step (n := 0) (by exact hm) (by rfl) h).1
  show (Client.step (Client.step c _) (.write m)).wire = _
  rw [hs, hw]
  rfl

/-! ## Examples -/

/-- A client that is connected on channel 7. -/
def exSeven : Client := { exClient with state := { exClient.state with chan := some 7 } }

example : OfChannel 9 (datagram 0x04 0x20 0 21 ([4, 9, 255, 0] ++ cemi 0x29 [] exTelegram)) := .request _ _ _ _ _ _

example : (Client.step exSeven (.datagram (datagram 0x04 0x20 0 21 ([4, 9, 255, 0] ++ cemi 0x29 [] exTelegram)))).wire =
    [ackFrame 7 255 0] :=
  (c97_taken_refuted (c := exSeven) rfl (n := 7) rfl rfl 0 21 4 9 255 0 (by decide) _ rfl
    (r := (decodeMsg (datagram 0x04 0x20 0 21 ([4, 9, 255, 0] ++ cemi 0x29 [] exTelegram)) exSeven.state).1.toOption.get
      (by decide +kernel)) (by decide +kernel)).1

example : Client.step exSeven (.datagram (datagram 0x04 0x20 0 21 ([4, 9, 255, 0] ++ cemi 0x29 [] exTelegram))) =
    Client.step exSeven (.datagram (datagram 0x04 0x20 0 21 ([4, 7, 255, 0] ++ cemi 0x29 [] exTelegram))) :=
  (c97_refuted (c := exSeven) rfl 0 21 4 9 7 255 0 _).1

example : (Client.step exSeven (.datagram (ackFrame 9 0 0))).state.seqLocal = 1 :=
  c97_ack_refuted (c := exSeven) rfl (n := 7) rfl 0 10 4 9 0 (by decide) [] rfl

example : (Client.step exSeven (.datagram (datagram 0x02 0x0A 0 8 [9, 0]))).state.chan = some 0 := by
  rw [show datagram 0x02 0x0A 0 8 [9, 0] = datagram 0x02 0x0A 0 8 ([9, 0] ++ []) from rfl,
    c97_closed_refuted (c := exSeven) rfl (n := 7) rfl 0 8 9 (by decide) []]

example : Unmoved exSeven (Client.step exSeven (.datagram (datagram 0x04 0x20 0 21 ([4, 9, 17, 0] ++ cemi 0x29 [] exTelegram)))) :=
  (c97_partial (c := exSeven) rfl 0 21 4 9 17 0 _).2.2 (by decide) (by decide)

example : SaysGone (datagram 0x02 0x09 0 16 [7, 0, 8, 1, 192, 168, 0, 2, 0x0E, 0x57]) := .request _ _ _

example : (Client.step exSeven (.datagram (datagram 0x02 0x09 0 16 [7, 0, 8, 1, 192, 168, 0, 2, 0x0E, 0x57]))).connected = true :=
  (c98_refuted (c := exSeven) rfl (.request _ _ _)).1

example : ∃ f, (Client.step (Client.run exSeven [.datagram (datagram 0x02 0x08 0 8 ([7, 0x21] ++ []))])
    (.write (.groupRead ⟨7, none⟩))).wire = (Client.run exSeven [.datagram (datagram 0x02 0x08 0 8 ([7, 0x21] ++ []))]).wire ++ [f] :=
  (c98_forever_refuted (c := exSeven) rfl (by decide) rfl rfl (by simp) _).2 ⟨trivial, by
    have : (encodeMsg (.groupRead ⟨7, none⟩) (Client.run exSeven [.datagram (datagram 0x02 0x08 0 8 ([7, 0x21] ++ []))]).state).1 =
      (encodeMsg (.groupRead ⟨7, none⟩) exSeven.state).1 := by decide +kernel
    rw [this]
    exact ⟨_, rfl⟩⟩

example : ∃ x, (Client.run exSeven [.datagram (datagram 0x02 0x0A 0 8 ([7, 0] ++ [])), .write (.groupRead ⟨7, none⟩)]).wire =
    [tunnelRequest 0 0 x] :=
  ⟨_, c98_closed_partial (c := exSeven) rfl 0 8 7 []
    (x := [0x11, 0x00, 0x96, 0xE0, 0x00, 0x00, 0x0E, 0x89, 0x01, 0x00, 0x00]) ⟨by decide +kernel, by decide +kernel, rfl, 0, 0, by decide +kernel⟩⟩

end Knx
