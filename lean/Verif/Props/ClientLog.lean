import Verif.Props.Gateway
import Verif.Props.LogTexts
import Verif.Spec.ClientLog

/-! # C117: the log of the tunnelling client -/

namespace Knx
open Spec

theorem silent_eq {α : Type} (f : Py Client α) (c : LoggedClient) :
    LoggedClient.silent f c = ((f c.client).1, { c with client := (f c.client).2 }) := rfl

theorem log_pattern (p : String) (x : List Char) {q : String} (hq : q.toList = p.toList ++ "{}".toList) (hp : '{' ∉ p.toList) :
    fill q.toList [x] = p.toList ++ x := by
  rw [hq, fill_free hp]
  show _ ++ (x ++ []) = _
  rw [List.append_nil]

/-- Handling messages that are no requests. -/
theorem logged_handle (fr : PyFloat → List Char) (order : DptClass → List DptProp) {l : List OutMsg}
    (h : ∀ q st, OutMsg.tunnelingReq q st ∉ l) (c : LoggedClient) :
    Py.forEach l (LoggedClient.handle fr order) c =
      ((Py.forEach l Client.handle c.client).1, { c with client := (Py.forEach l Client.handle c.client).2 }) := by
  induction l generalizing c with
  | nil => rfl
  | cons m l ih =>
    have hm : LoggedClient.handle fr order m c =
        ((Client.handle m c.client).1, { c with client := (Client.handle m c.client).2 }) := by
      cases m with
      | tunnelingReq q st => exact absurd (List.mem_cons_self ..) (h q st)
      | _ => rfl
    have ih := fun c => ih (fun q st hx => h q st (List.mem_cons_of_mem _ hx)) c
    simp only [Py.forEach, Py.bind]
    rw [hm]
    rcases Client.handle m c.client with ⟨e | u, d⟩
    · rfl
    · simp only
      rw [ih]

/-- A datagram that is no request is decoded to no request. -/
theorem request_place {d : Msg} {s : State} {r : Res} (hm : s.medium = .knxnetIp) (h : (decodeMsg d s).1 = .ok r)
    (hq : requestCounter d = none) : ∀ q st, OutMsg.tunnelingReq q st ∉ Client.messages r := by
  rw [decode_ip hm] at h
  rcases d with _ | ⟨x, _ | ⟨v, _ | ⟨a, _ | ⟨b, body⟩⟩⟩⟩
  · cases h
  · cases h
  · cases h
  · cases h
  rw [ip_dispatch] at h
  split_ifs at h with c1 c2 c3 c4 c5 c6 c7
  · rcases hx : searchResDecode body with e | r <;> rw [hx] at h
    · cases h
    · cases h
      unfold searchResDecode at hx
      repeat' (first | split at hx | cases hx)
      simp [Client.messages]
  · unfold disconnectResDecode at h
    repeat' (first | split at h | cases h)
    all_goals simp [Client.messages]
  · unfold connectResDecode at h
    repeat' (first | split at h | cases h)
    all_goals simp [Client.messages]
  · rcases hx : connectionstateResDecode body with e | r <;> rw [hx] at h
    · cases h
    · cases h
      unfold connectionstateResDecode at hx
      repeat' (first | split at hx | cases hx)
      simp [Client.messages]
  · obtain ⟨⟨rfl, rfl⟩, rfl, rfl⟩ := c1, c6
    rcases body with _ | ⟨l1, _ | ⟨l2, _ | ⟨x, _ | ⟨c, _ | ⟨q, _ | ⟨st, m⟩⟩⟩⟩⟩⟩
    all_goals first
      | cases h
      | cases hq
  · unfold tunnelingAckDecode at h
    repeat' (first | split at h | cases h)
    all_goals simp [Client.messages]
  · cases h
    simp [Client.messages]
  · cases h
    simp [Client.messages]

/-- The requests among datagrams. -/
theorem request_form {d : Msg} {q : Nat} (h : requestCounter d = some q) :
    ∃ l1 l2 x chan k st m, d = tunnelDatagram l1 l2 x chan k st m ∧ q = k.toNat := by
  unfold requestCounter at h
  split at h
  · cases h
    exact ⟨_, _, _, _, _, _, _, rfl, rfl⟩
  · cases h

theorem request_text (fr : PyFloat → List Char) (order : DptClass → List DptProp) (q : Nat) (st : ErrorCode) :
    ∃ t, (OutMsg.tunnelingReq q st).text fr order = .ok t ∧ "read ".toList ++ t = readLine q st := by
  refine ⟨_, c114_received (name := fun _ => none) (m := .tunnelingReq q st) trivial fr order, ?_⟩
  have h1 := fill_pieces "TunnelingReq(sequence counter={}, status=<ErrorCodes.{}: {}>)"
    [natWord q, (errorName st).toList, natWord (errorNumber st)] "TunnelingReq(sequence counter=".toList
    [", status=<ErrorCodes.".toList, ": ".toList, ">)".toList] (by decide +kernel) (by decide +kernel) rfl
  have h2 := fill_pieces "read TunnelingReq(sequence counter={}, status=<ErrorCodes.{}: {}>)"
    [natWord q, (errorName st).toList, natWord (errorNumber st)] ("read ".toList ++ "TunnelingReq(sequence counter=".toList)
    [", status=<ErrorCodes.".toList, ": ".toList, ">)".toList] (by decide +kernel) (by decide +kernel) rfl
  unfold readLine
  rw [h2, List.append_assoc, ← h1]
  rfl

theorem logged_datagram (fr : PyFloat → List Char) (order : DptClass → List DptProp) (d : Msg) {c : LoggedClient}
    (hm : c.client.state.medium = .knxnetIp) :
    LoggedClient.step fr order c (.datagram d) =
      ⟨Client.step c.client (.datagram d), c.log ++ linesFor fr order c.client (.datagram d)⟩ := by
  have e1 : LoggedClient.step fr order c (.datagram d) = (match decodeMsg d c.client.state with
      | (.error e, s) => ((.error e : Except Err Unit), { c with client := { c.client with state := s } })
      | (.ok r, s) => LoggedClient.handleAll fr order r
          { c with client := { c.client with state := s, decoded := c.client.decoded ++ Client.messages r } }).2 := by
    show (LoggedClient.datagramReceived fr order d c).2 = _
    unfold LoggedClient.datagramReceived
    simp only [Py.bind, Py.lift, c01_lower_parse, LoggedClient.silent, Client.onState]
    rcases decodeMsg d c.client.state with ⟨e | r, s⟩
    · rfl
    · rfl
  have e2 : Client.step c.client (.datagram d) = (Client.datagramReceived d c.client).2 := rfl
  rw [e1, e2, datagram_eq]
  rcases hx : decodeMsg d c.client.state with ⟨e | r, s⟩
  · have hx1 : (decodeMsg d c.client.state).1 = .error e := by rw [hx]
    have hl : linesFor fr order c.client (.datagram d) = [] := by
      simp only [linesFor, hx1]
      cases requestCounter d <;> rfl
    rw [hl, List.append_nil]
  · have hx1 : (decodeMsg d c.client.state).1 = .ok r := by rw [hx]
    cases hq : requestCounter d with
    | none =>
      have hp := request_place hm hx1 hq
      have hl : linesFor fr order c.client (.datagram d) = [] := by
        simp only [linesFor, hq]
      rw [hl, List.append_nil]
      cases r with
      | list l => exact congrArg Prod.snd (logged_handle fr order hp _)
      | none => rfl
      | tuple l => rfl
    | some q =>
      obtain ⟨l1, l2, x, chan, k, st, m, rfl, rfl⟩ := request_form hq
      obtain ⟨l, hl, rfl⟩ := decode_tunnel_ok hm l1 l2 x chan k st m hx1
      obtain ⟨t, ht, hline⟩ := request_text fr order k.toNat (requestStatus c.client.state.seqRemote k.toNat)
      have hn : ∀ q st, OutMsg.tunnelingReq q st ∉ l := fun q st hmem => by cases hl _ hmem
      have hs : linesFor fr order c.client (.datagram (tunnelDatagram l1 l2 x chan k st m)) = ["read ".toList ++ t] := by
        simp only [linesFor, hq, hx1, hline]
      rw [hs]
      unfold requestStatus at ht
      generalize (if c.client.state.seqRemote = k.toNat ∨ c.client.state.seqRemote = k.toNat + 1 then ErrorCode.noError
        else ErrorCode.sequenceNumber) = ec at *
      have key : ∀ d : LoggedClient, LoggedClient.handleAll fr order (.list (.tunnelingReq k.toNat ec :: l)) d =
          ((Client.handleAll (.list (.tunnelingReq k.toNat ec :: l)) d.client).1,
            ⟨(Client.handleAll (.list (.tunnelingReq k.toNat ec :: l)) d.client).2, d.log ++ ["read ".toList ++ t]⟩) := by
        intro d
        show Py.forEach (_ :: l) _ _ = ((Py.forEach (_ :: l) _ _).1, LoggedClient.mk (Py.forEach (_ :: l) _ _).2 _)
        simp only [Py.forEach, LoggedClient.handle, Py.bind, Py.lift, ht, LoggedClient.info, Py.modify, LoggedClient.silent]
        generalize Client.handle _ _ = y
        rcases y with ⟨e | u, c'⟩
        · rfl
        · simp only
          rw [logged_handle fr order hn]
      exact congrArg Prod.snd (key _)

theorem logged_write (fr : PyFloat → List Char) {order : DptClass → List DptProp} (ho : OrderOk order) (m : InMsg) (c : LoggedClient) :
    LoggedClient.step fr order c (.write m) =
      ⟨Client.step c.client (.write m), c.log ++ linesFor fr order c.client (.write m)⟩ := by
  show (LoggedClient.write fr order m c).2 = ⟨(Client.write m c.client).2, _⟩
  unfold LoggedClient.write Client.write linesFor
  by_cases hc : c.client.connected = true
  · simp only [hc, if_true]
    have hline : ∀ t, "write ".toList ++ fill (requestWording t m).1.toList (requestWording t m).2 = writeLine t m :=
      fun t => (log_pattern "write " _ (by decide +kernel) (by decide +kernel)).symm
    rw [show m.text fr order = _ from c114_sent m fr order]
    have hf : Client.formatIn m = match datapointIn m with
        | none => .ok ()
        | some d => d.repr := by cases m <;> rfl
    rw [hf]
    have sent : ∀ t, ((Py.bind (Py.lift (.ok (fill (requestWording t m).1.toList (requestWording t m).2))) fun t =>
        Py.bind (LoggedClient.info ("write ".toList ++ t)) fun _ => LoggedClient.silent (Client.encodeAndSend m)) c).2 =
        ⟨((Py.bind (Py.lift (.ok ())) fun _ => Client.encodeAndSend m) c.client).2, c.log ++ [writeLine t m]⟩ := by
      intro t
      simp only [Py.bind, Py.lift, LoggedClient.info, Py.modify, LoggedClient.silent, hline]
    cases datapointIn m with
    | none => exact sent []
    | some d =>
      simp only
      rcases text_repr fr ho d with ⟨t, h1, h2⟩ | ⟨h1, h2⟩
      · rw [h1, h2]
        exact sent t
      · rw [h1, h2]
        simp [Except.map, Py.bind, Py.lift]
  · simp [hc]

/-- C117: the whole log. -/
theorem logged_step (fr : PyFloat → List Char) {order : DptClass → List DptProp} (ho : OrderOk order) {c : LoggedClient}
    (hm : c.client.state.medium = .knxnetIp) (e : LoggedClient.Event) :
    LoggedClient.step fr order c e =
      ⟨match happening e with | some e => Client.step c.client e | none => c.client, c.log ++ linesFor fr order c.client e⟩ := by
  cases e with
  | made t =>
    have h := log_pattern "Connection made: " t (q := "Connection made: {}") (by decide +kernel) (by decide +kernel)
    simp only [linesFor, h]
    rfl
  | lost t =>
    have h := log_pattern "Connection lost: " t (q := "Connection lost: {}") (by decide +kernel) (by decide +kernel)
    simp only [linesFor, h]
    rfl
  | failed t =>
    have h := log_pattern "Error received: " t (q := "Error received: {}") (by decide +kernel) (by decide +kernel)
    simp only [linesFor, h]
    rfl
  | datagram d => exact logged_datagram fr order d hm
  | write m => exact logged_write fr ho m c

theorem medium_step {c : Client} (hm : c.state.medium = .knxnetIp) (e : Client.Event) :
    (Client.step c e).state.medium = .knxnetIp := by
  cases e with
  | made =>
    have h := (send_alike (.connectReq c.localAddr c.localPort c.localAddr c.localPort) { c with transport := true }).medium
    exact h.trans hm
  | lost => exact hm
  | datagram d => exact (datagram_alike d c).medium.trans ((c33_tables d c.state).1.trans hm)
  | write m => exact (write_alike m c).medium.trans hm

/-- C117: what the client logs. A request is logged by its counter and status, a message by its wording before it is encoded;
logging has no effect on the client. -/
theorem c117_log (fr : PyFloat → List Char) {order : DptClass → List DptProp} (ho : OrderOk order) {c : LoggedClient}
    (hm : c.client.state.medium = .knxnetIp) (es : List LoggedClient.Event) :
    (LoggedClient.run fr order c es).log = c.log ++ logFor fr order c.client es ∧
    (LoggedClient.run fr order c es).client = Client.run c.client (es.filterMap happening) := by
  induction es generalizing c with
  | nil => exact ⟨(List.append_nil _).symm, rfl⟩
  | cons e es ih =>
    have h1 : LoggedClient.run fr order c (e :: es) = LoggedClient.run fr order (LoggedClient.step fr order c e) es := rfl
    rw [h1, logged_step fr ho hm, logFor, List.filterMap_cons]
    cases happening e with
    | none =>
      have := ih (c := ⟨c.client, c.log ++ linesFor fr order c.client e⟩) hm
      simp only [List.append_assoc] at this ⊢
      exact this
    | some e' =>
      have := ih (c := ⟨Client.step c.client e', c.log ++ linesFor fr order c.client e⟩) (medium_step hm e')
      simp only [List.append_assoc] at this ⊢
      exact this

/-- C117: the log tells nothing of what a telegram says: any two requests with the same counter that are decoded without exception
are logged alike, whatever values they bring to whatever groups. -/
theorem c117_value_refuted (fr : PyFloat → List Char) (order : DptClass → List DptProp) {c : LoggedClient}
    (hm : c.client.state.medium = .knxnetIp) (l1 l2 x chan q st l1' l2' x' chan' st' : Byte) (m m' : Msg) {r r' : Res}
    (hr : (decodeMsg (tunnelDatagram l1 l2 x chan q st m) c.client.state).1 = .ok r)
    (hr' : (decodeMsg (tunnelDatagram l1' l2' x' chan' q st' m') c.client.state).1 = .ok r') :
    (LoggedClient.step fr order c (.datagram (tunnelDatagram l1 l2 x chan q st m))).log =
      (LoggedClient.step fr order c (.datagram (tunnelDatagram l1' l2' x' chan' q st' m'))).log := by
  rw [logged_datagram fr order _ hm, logged_datagram fr order _ hm]
  have h1 : ∀ l1 l2 x chan st m, requestCounter (tunnelDatagram l1 l2 x chan q st m) = some q.toNat := fun _ _ _ _ _ _ => rfl
  simp only [linesFor, h1, hr, hr']

/-- A float written to two ASAPs. -/
def exRequest (v : Byte) : Msg := tunnelDatagram 0 23 4 7 255 0 (cemi 0x29 [] ⟨0xBC, 0xE0, 0x110A, 0x0E89, 3, 0, 0x80, [0x0C, v]⟩)

/-- C117: so what a client received cannot be told from its log. -/
theorem c117_refuted : ¬ ∀ (fr : PyFloat → List Char) (order : DptClass → List DptProp) (c : LoggedClient) (d d' : Msg),
    (LoggedClient.step fr order c (.datagram d)).log = (LoggedClient.step fr order c (.datagram d')).log →
    (LoggedClient.step fr order c (.datagram d)).client.decoded = (LoggedClient.step fr order c (.datagram d')).client.decoded := by
  intro h
  have h1 : ∀ v, (decodeMsg (exRequest v) exClient.state).1.isOk = true →
      ∃ r, (decodeMsg (exRequest v) exClient.state).1 = .ok r := by
    intro v hv
    cases hx : (decodeMsg (exRequest v) exClient.state).1 with
    | error e => rw [hx] at hv; cases hv
    | ok r => exact ⟨r, rfl⟩
  obtain ⟨r, hr⟩ := h1 0x65 (by decide +kernel)
  obtain ⟨r', hr'⟩ := h1 0x66 (by decide +kernel)
  have h2 := h (fun _ => []) DptClass.props ⟨exClient, []⟩ (exRequest 0x65) (exRequest 0x66)
    (c117_value_refuted _ _ (c := ⟨exClient, []⟩) rfl 0 23 4 7 255 0 0 23 4 7 0 _ _ hr hr')
  rw [logged_datagram _ _ _ rfl, logged_datagram _ _ _ rfl] at h2
  exact absurd h2 (by decide +kernel)

/-- C117: a message that cannot be encoded is logged as written; nothing is sent. -/
theorem c117_write_refuted (fr : PyFloat → List Char) (order : DptClass → List DptProp) {c : LoggedClient}
    (hc : c.client.connected = true) {m : InMsg} {e : Err} (he : (encodeMsg m c.client.state).1 = .error e)
    {t : List Char} (ht : m.text fr order = .ok t) :
    (LoggedClient.step fr order c (.write m)).log = c.log ++ ["write ".toList ++ t] ∧
    (LoggedClient.step fr order c (.write m)).client.wire = c.client.wire := by
  have hs : LoggedClient.step fr order c (.write m) = (LoggedClient.write fr order m c).2 := rfl
  rw [hs]
  unfold LoggedClient.write
  simp only [hc, if_true, Py.bind, Py.lift, ht, LoggedClient.info, Py.modify, LoggedClient.silent]
  rw [encodeAndSend_eq]
  rcases hx : encodeMsg m c.client.state with ⟨e' | f, s⟩ <;> rw [hx] at he
  · exact ⟨trivial, rfl⟩
  · cases he

/-- C117: a message that is encoded is logged, then sent. -/
theorem c117_write_partial (fr : PyFloat → List Char) (order : DptClass → List DptProp) {c : LoggedClient}
    (hc : c.client.connected = true) (ht : c.client.transport = true) {m : InMsg} {f : Msg}
    (he : (encodeMsg m c.client.state).1 = .ok f) {t : List Char} (htx : m.text fr order = .ok t) :
    (LoggedClient.step fr order c (.write m)).log = c.log ++ ["write ".toList ++ t] ∧
    (LoggedClient.step fr order c (.write m)).client.wire = c.client.wire ++ [f] := by
  have hs : LoggedClient.step fr order c (.write m) = (LoggedClient.write fr order m c).2 := rfl
  rw [hs]
  unfold LoggedClient.write
  simp only [hc, if_true, Py.bind, Py.lift, htx, LoggedClient.info, Py.modify, LoggedClient.silent]
  rw [encodeAndSend_eq]
  rcases hx : encodeMsg m c.client.state with ⟨e' | f', s⟩ <;> rw [hx] at he
  · cases he
  · cases he
    simp only [ht, if_true, and_self]

/-- A request that is a repetition, and a message. -/
example : (LoggedClient.run (fun _ => []) DptClass.props ⟨exClient, []⟩
    [.failed "[Errno 111]".toList, .datagram (exRequest 0x65), .datagram (exRequest 0x65), .write (.groupRead ⟨7, some "hall"⟩)]).log =
    ["Error received: [Errno 111]".toList,
      "read TunnelingReq(sequence counter=255, status=<ErrorCodes.E_NO_ERROR: 0>)".toList,
      "read TunnelingReq(sequence counter=255, status=<ErrorCodes.E_SEQUENCE_NUMBER: 3>)".toList,
      "write GroupValueReadReq (for asap 7 (hall))".toList] := by
  rw [(c117_log _ (fun _ => .refl _) rfl _).1]
  decide +kernel

example : (LoggedClient.step (fun _ => []) DptClass.props ⟨exClient, []⟩ (.write (.groupRead ⟨99, none⟩))).log =
    ["write GroupValueReadReq (for asap 99)".toList] ∧
    (LoggedClient.step (fun _ => []) DptClass.props ⟨exClient, []⟩ (.write (.groupRead ⟨99, none⟩))).client.wire = [] := by
  obtain ⟨h1, h2⟩ := c117_write_refuted (fun _ => []) DptClass.props (c := ⟨exClient, []⟩) rfl (m := .groupRead ⟨99, none⟩)
    (e := .keyError) rfl rfl
  exact ⟨h1.trans (by decide +kernel), h2⟩

example : ∃ f, (LoggedClient.step (fun _ => []) DptClass.props ⟨exClient, []⟩ (.write (.groupRead ⟨7, none⟩))).client.wire = [f] :=
  ⟨_, (c117_write_partial (fun _ => []) DptClass.props (c := ⟨exClient, []⟩) rfl rfl (m := .groupRead ⟨7, none⟩) rfl rfl).2⟩

end Knx
